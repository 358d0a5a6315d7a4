import Verif.Model.SequencePipeline
import Mathlib.Data.List.Basic
import Mathlib.Data.List.Sort
import Mathlib.Tactic.Common
import Mathlib.Tactic.Linarith

/-!
# Invariants of the pipeline
-/

namespace Momentum

variable {S L R K P : Type}

/-- The steps, one constructor for each way to take one. -/
inductive PipeStep [Add K] (J : FrameJobs S L R K) (tasks : List (Nat × Nat)) (σ : PipeState S L R K) (t : Nat)
    (range : Nat × Nat) : PipeState S L R K → Prop
  | past (i : Nat) (pc : σ.pcs t = .head i) (h1 : i < range.2) (h2 : J.nFrames ≤ i) :
      PipeStep J tasks σ t range (σ.goto t .stop)
  | begin (i : Nat) (pc : σ.pcs t = .head i) (h1 : i < range.2) (h2 : i < J.nFrames) :
      PipeStep J tasks σ t range (σ.goto t (.work i 0 (J.start i)))
  | leave (i : Nat) (pc : σ.pcs t = .head i) (h1 : range.2 ≤ i) : PipeStep J tasks σ t range (σ.goto t .tryDrain)
  | column (i k : Nat) (l : L) (s : S) (l' : L) (pc : σ.pcs t = .work i k l) (h1 : k < J.steps i)
      (h2 : J.step i k σ.solver l = some (s, l')) :
      PipeStep J tasks σ t range ({ σ with solver := s }.goto t (.work i (k + 1) l'))
  | finishWork (i k : Nat) (l : L) (pc : σ.pcs t = .work i k l) (h1 : J.steps i ≤ k) :
      PipeStep J tasks σ t range (σ.goto t (.pushWait i ⟨i, J.result i l, J.error i⟩))
  | lockReorder (i : Nat) (r : PipeItem R K) (pc : σ.pcs t = .pushWait i r) (h1 : σ.reorderBy = none) :
      PipeStep J tasks σ t range ({ σ with reorderBy := some t }.goto t (.push i r))
  | push (i : Nat) (r : PipeItem R K) (pc : σ.pcs t = .push i r) :
      PipeStep J tasks σ t range ({ σ with reorder := r.insert σ.reorder }.goto t (.scan i))
  | scanHit (i : Nat) (a : PipeItem R K) (as : List (PipeItem R K)) (pc : σ.pcs t = .scan i) (h1 : σ.reorder = a :: as)
      (h2 : a.frame = σ.next) : PipeStep J tasks σ t range (σ.goto t (.readyWait i))
  | scanMiss (i : Nat) (pc : σ.pcs t = .scan i) (h1 : ∀ a ∈ σ.reorder.head?, a.frame ≠ σ.next) :
      PipeStep J tasks σ t range ({ σ with reorderBy := none }.goto t (.head (i + 1)))
  | lockReady (i : Nat) (pc : σ.pcs t = .readyWait i) (h1 : σ.readyBy = none) :
      PipeStep J tasks σ t range ({ σ with readyBy := some t }.goto t (.move i))
  | move (i : Nat) (a : PipeItem R K) (pc : σ.pcs t = .move i) (h1 : σ.reorder.head? = some a) :
      PipeStep J tasks σ t range ({ σ with ready := σ.ready ++ [a], readyBy := none }.goto t (.advance i))
  | advance (i : Nat) (pc : σ.pcs t = .advance i) :
      PipeStep J tasks σ t range ({ σ with next := σ.next + 1, reorder := σ.reorder.tail }.goto t (.scan i))
  | tryOk (pc : σ.pcs t = .tryDrain) (h1 : σ.qrBy = none) :
      PipeStep J tasks σ t range ({ σ with qrBy := some t }.goto t .takeWait)
  | tryFail (pc : σ.pcs t = .tryDrain) : PipeStep J tasks σ t range (σ.goto t .stop)
  | lockTake (pc : σ.pcs t = .takeWait) (h1 : σ.readyBy = none) :
      PipeStep J tasks σ t range ({ σ with readyBy := some t }.goto t .take)
  | takeSome (a : PipeItem R K) (as : List (PipeItem R K)) (pc : σ.pcs t = .take) (h1 : σ.ready = a :: as) :
      PipeStep J tasks σ t range ({ σ with ready := as, readyBy := none }.goto t (.add 0 a.rest a))
  | takeNone (pc : σ.pcs t = .take) (h1 : σ.ready = []) :
      PipeStep J tasks σ t range ({ σ with readyBy := none, qrBy := none }.goto t .stop)
  | addColumn (k : Nat) (rest : R) (r : PipeItem R K) (s : S) (rest' : R) (pc : σ.pcs t = .add k rest r)
      (h1 : k < J.addSteps) (h2 : J.addStep k σ.solver rest = some (s, rest')) :
      PipeStep J tasks σ t range ({ σ with solver := s }.goto t (.add (k + 1) rest' r))
  | addEnd (k : Nat) (rest : R) (r : PipeItem R K) (pc : σ.pcs t = .add k rest r) (h1 : J.addSteps ≤ k) :
      PipeStep J tasks σ t range ({ σ with errorSum := σ.errorSum + r.error }.goto t .takeWait)

theorem PipeState.step_cases [Add K] {J : FrameJobs S L R K} {tasks : List (Nat × Nat)} {σ σ' : PipeState S L R K} {t : Nat}
    {b : Bool} (h : σ.step J tasks t b = some σ') : ∃ range, tasks[t]? = some range ∧ PipeStep J tasks σ t range σ' := by
  unfold PipeState.step at h
  cases hr : tasks[t]? with
  | none => simp [hr] at h
  | some range =>
    refine ⟨range, rfl, ?_⟩
    simp only [hr, Option.bind_eq_bind, Option.bind_some] at h
    cases hpc : σ.pcs t with
    | head i =>
      simp only [hpc] at h
      split_ifs at h with h1 h2
      · cases h; exact .past i hpc h1 h2
      · cases h; exact .begin i hpc h1 (by omega)
      · cases h; exact .leave i hpc (by omega)
    | work i k l =>
      simp only [hpc] at h
      split_ifs at h with h1
      · cases hs : J.step i k σ.solver l with
        | none => simp [hs] at h
        | some q =>
          simp only [hs, Option.bind_some] at h
          cases h
          exact .column i k l q.1 q.2 hpc h1 hs
      · cases h; exact .finishWork i k l hpc (by omega)
    | pushWait i r =>
      simp only [hpc] at h
      split_ifs at h with h1
      cases h; exact .lockReorder i r hpc h1
    | push i r => simp only [hpc] at h; cases h; exact .push i r hpc
    | scan i =>
      simp only [hpc] at h
      cases hq : σ.reorder with
      | nil => simp only [hq] at h; rw [← hq] at h; cases h; exact .scanMiss i hpc (by simp [hq])
      | cons a as =>
        simp only [hq] at h
        rw [← hq] at h
        split_ifs at h with h1
        · cases h; exact .scanHit i a as hpc hq h1
        · cases h; exact .scanMiss i hpc (by simpa [hq] using h1)
    | readyWait i =>
      simp only [hpc] at h
      split_ifs at h with h1
      cases h; exact .lockReady i hpc h1
    | move i =>
      simp only [hpc] at h
      cases hq : σ.reorder.head? with
      | none => simp [hq] at h
      | some a => simp only [hq, Option.bind_some] at h; cases h; exact .move i a hpc hq
    | advance i => simp only [hpc] at h; cases h; exact .advance i hpc
    | tryDrain =>
      simp only [hpc] at h
      split_ifs at h with h1
      · cases h; exact .tryOk hpc h1.1
      · cases h; exact .tryFail hpc
    | takeWait =>
      simp only [hpc] at h
      split_ifs at h with h1
      cases h; exact .lockTake hpc h1
    | take =>
      simp only [hpc] at h
      cases hq : σ.ready with
      | nil => simp only [hq] at h; rw [← hq] at h; cases h; exact .takeNone hpc hq
      | cons a as => simp only [hq] at h; cases h; exact .takeSome a as hpc hq
    | add k rest r =>
      simp only [hpc] at h
      split_ifs at h with h1
      · cases hs : J.addStep k σ.solver rest with
        | none => simp [hs] at h
        | some q =>
          simp only [hs, Option.bind_some] at h
          cases h
          exact .addColumn k rest r q.1 q.2 hpc h1 hs
      · cases h; exact .addEnd k rest r hpc (by omega)
    | stop => simp [hpc] at h

/-! ## Locks -/

/-- Holds `reorderBufferMutex`. -/
def PipePc.inReorder : PipePc L R K → Bool
  | .push .. | .scan .. | .readyWait .. | .move .. | .advance .. => true
  | _ => false

/-- Holds `readyJacobiansMutex`. -/
def PipePc.inReady : PipePc L R K → Bool
  | .move .. | .take => true
  | _ => false

/-- Holds `qrSolverMutex`. -/
def PipePc.inQr : PipePc L R K → Bool
  | .takeWait | .take | .add .. => true
  | _ => false

/-- The owner of a mutex is the task that is where the mutex is held. -/
def PipeState.Locks (σ : PipeState S L R K) : Prop :=
  ∀ t, (σ.reorderBy = some t ↔ (σ.pcs t).inReorder = true) ∧ (σ.readyBy = some t ↔ (σ.pcs t).inReady = true) ∧
    (σ.qrBy = some t ↔ (σ.pcs t).inQr = true)

theorem PipeStep.locks [Add K] {J : FrameJobs S L R K} {tasks : List (Nat × Nat)} {σ σ' : PipeState S L R K} {t : Nat}
    {range : Nat × Nat} (h : PipeStep J tasks σ t range σ') (hl : σ.Locks) : σ'.Locks := by
  intro u
  have ht := hl t
  have hu := hl u
  by_cases hut : u = t
  · subst hut
    cases h <;> simp_all [PipeState.goto, PipePc.inReorder, PipePc.inReady, PipePc.inQr]
  · have htu : ¬ t = u := fun e => hut e.symm
    cases h <;> simp_all [PipeState.goto, PipePc.inReorder, PipePc.inReady, PipePc.inQr]

/-! ## What belongs to whom -/

/-- The solver consists of parts: one for every frame and one that is common to all.  The columns of frame `f` read and write
the part of frame `f` alone; the last stage reads and writes the common part alone.  No check fails. -/
structure FrameJobs.Separated (J : FrameJobs S L R K) (view : Option Nat → S → P) : Prop where
  ext : ∀ s s', (∀ f, f < J.nFrames → view (some f) s = view (some f) s') → view none s = view none s' → s = s'
  total : ∀ f k s l, f < J.nFrames → k < J.steps f → ∃ s' l', J.step f k s l = some (s', l')
  writes : ∀ f k s l s' l', f < J.nFrames → k < J.steps f → J.step f k s l = some (s', l') →
    ∀ o, o ≠ some f → view o s' = view o s
  reads : ∀ f k s u l s' l' u' m', f < J.nFrames → k < J.steps f → view (some f) s = view (some f) u →
    J.step f k s l = some (s', l') → J.step f k u l = some (u', m') → l' = m' ∧ view (some f) s' = view (some f) u'
  addTotal : ∀ k s r, k < J.addSteps → ∃ s' r', J.addStep k s r = some (s', r')
  addWrites : ∀ k s r s' r', k < J.addSteps → J.addStep k s r = some (s', r') → ∀ o, o ≠ none → view o s' = view o s
  addReads : ∀ k s u r s' r' u' q', k < J.addSteps → view none s = view none u →
    J.addStep k s r = some (s', r') → J.addStep k u r = some (u', q') → r' = q' ∧ view none s' = view none u'

/-- Frame `f` after `k` columns, alone on the solver `s0`. -/
def FrameJobs.worked (J : FrameJobs S L R K) (s0 : S) (f k : Nat) : S × L := (J.workUpTo s0 f k).getD (s0, J.start f)

/-- What frame `f` hands over. -/
def FrameJobs.item (J : FrameJobs S L R K) (s0 : S) (f : Nat) : PipeItem R K :=
  ⟨f, J.result f (J.worked s0 f (J.steps f)).2, J.error f⟩

/-- The first `k` columns of the last stage. -/
def FrameJobs.addUpTo (J : FrameJobs S L R K) (s : S) (r : R) (k : Nat) : Option (S × R) :=
  (List.range k).foldlM (fun p k => J.addStep k p.1 p.2) (s, r)

/-- The last stage alone, after the first `m` frames. -/
def FrameJobs.added (J : FrameJobs S L R K) (s0 : S) : Nat → S
  | 0 => s0
  | m + 1 => ((J.addUpTo (J.added s0 m) (J.item s0 m).rest J.addSteps).getD (J.added s0 m, (J.item s0 m).rest)).1

/-- ... and `k` columns of the next. -/
def FrameJobs.adding (J : FrameJobs S L R K) (s0 : S) (m k : Nat) : S × R :=
  (J.addUpTo (J.added s0 m) (J.item s0 m).rest k).getD (J.added s0 m, (J.item s0 m).rest)

/-- The errors of the first `m` frames, added in order. -/
def FrameJobs.errors [Add K] [Zero K] (J : FrameJobs S L R K) : Nat → K
  | 0 => 0
  | m + 1 => J.errors m + J.error m

namespace FrameJobs
variable {J : FrameJobs S L R K} {view : Option Nat → S → P}

theorem Separated.workUpTo_some (hJ : J.Separated view) (s : S) {f : Nat} (hf : f < J.nFrames) :
    ∀ k, k ≤ J.steps f → ∃ q, J.workUpTo s f k = some q
  | 0, _ => ⟨_, rfl⟩
  | k + 1, hk => by
    obtain ⟨q, hq⟩ := hJ.workUpTo_some s hf k (by omega)
    obtain ⟨s', l', hs⟩ := hJ.total f k q.1 q.2 hf (by omega)
    refine ⟨(s', l'), ?_⟩
    unfold workUpTo at hq ⊢
    rw [List.range_succ, List.foldlM_append, hq]
    simp [hs]

theorem Separated.addUpTo_some (hJ : J.Separated view) (s : S) (r : R) :
    ∀ k, k ≤ J.addSteps → ∃ q, J.addUpTo s r k = some q
  | 0, _ => ⟨_, rfl⟩
  | k + 1, hk => by
    obtain ⟨q, hq⟩ := hJ.addUpTo_some s r k (by omega)
    obtain ⟨s', l', hs⟩ := hJ.addTotal k q.1 q.2 (by omega)
    refine ⟨(s', l'), ?_⟩
    unfold addUpTo at hq ⊢
    rw [List.range_succ, List.foldlM_append, hq]
    simp [hs]

theorem Separated.workUpTo_eq (hJ : J.Separated view) (s0 : S) {f : Nat} (hf : f < J.nFrames) {k : Nat}
    (hk : k ≤ J.steps f) : J.workUpTo s0 f k = some (J.worked s0 f k) := by
  obtain ⟨q, hq⟩ := hJ.workUpTo_some s0 hf k hk
  simp [worked, hq]

theorem Separated.addUpTo_eq (hJ : J.Separated view) (s0 : S) {m k : Nat} (hk : k ≤ J.addSteps) :
    J.addUpTo (J.added s0 m) (J.item s0 m).rest k = some (J.adding s0 m k) := by
  obtain ⟨q, hq⟩ := hJ.addUpTo_some (J.added s0 m) (J.item s0 m).rest k hk
  simp [adding, hq]

theorem Separated.worked_succ (hJ : J.Separated view) (s0 : S) {f : Nat} (hf : f < J.nFrames) {k : Nat} (hk : k < J.steps f) :
    J.step f k (J.worked s0 f k).1 (J.worked s0 f k).2 = some (J.worked s0 f (k + 1)) := by
  have h1 := hJ.workUpTo_eq s0 hf hk.le
  have h2 := hJ.workUpTo_eq s0 hf (k := k + 1) hk
  unfold workUpTo at h1 h2
  rw [List.range_succ, List.foldlM_append, h1] at h2
  simpa using h2

theorem Separated.adding_succ (hJ : J.Separated view) (s0 : S) {m k : Nat} (hk : k < J.addSteps) :
    J.addStep k (J.adding s0 m k).1 (J.adding s0 m k).2 = some (J.adding s0 m (k + 1)) := by
  have h1 := hJ.addUpTo_eq s0 (m := m) hk.le
  have h2 := hJ.addUpTo_eq s0 (m := m) (k := k + 1) hk
  unfold addUpTo at h1 h2
  rw [List.range_succ, List.foldlM_append, h1] at h2
  simpa using h2

theorem worked_zero (s0 : S) (f : Nat) : J.worked s0 f 0 = (s0, J.start f) := rfl

theorem adding_zero (s0 : S) (m : Nat) : J.adding s0 m 0 = (J.added s0 m, (J.item s0 m).rest) := rfl

theorem added_succ (s0 : S) (m : Nat) : J.added s0 (m + 1) = (J.adding s0 m J.addSteps).1 := rfl

end FrameJobs

/-! ## Phases of a frame -/

/-- How far a frame has come. -/
inductive FramePhase (L R K : Type) where
  | fresh
  | working (k : Nat) (l : L)
  | computed (r : PipeItem R K)
  | pushed

/-- How far frame `f` has come, from where its task is. -/
def PipePc.phase : PipePc L R K → Nat → FramePhase L R K
  | .head i, f => if f < i then .pushed else .fresh
  | .work i k l, f => if f < i then .pushed else if f = i then .working k l else .fresh
  | .pushWait i r, f | .push i r, f => if f < i then .pushed else if f = i then .computed r else .fresh
  | .scan i, f | .readyWait i, f | .move i, f | .advance i, f => if f < i + 1 then .pushed else .fresh
  | _, _ => .pushed

/-- The current frame is one of the task's. -/
def PipePc.Within (n : Nat) (range : Nat × Nat) : PipePc L R K → Prop
  | .head i => range.1 ≤ i
  | .work i _ _ | .pushWait i _ | .push i _ | .scan i | .readyWait i | .move i | .advance i =>
    range.1 ≤ i ∧ i < range.2 ∧ i < n
  | _ => True

/-- Every frame belongs to exactly one task. -/
def TasksCover (n : Nat) (tasks : List (Nat × Nat)) : Prop :=
  ∀ f, f < n → ∃! t : Nat, ∃ range : Nat × Nat, tasks[t]? = some range ∧ range.1 ≤ f ∧ f < range.2

/-- `own` finds the task of a frame. -/
def Owns (n : Nat) (tasks : List (Nat × Nat)) (own : Nat → Nat) : Prop :=
  ∀ f, f < n → (∃ range, tasks[own f]? = some range ∧ range.1 ≤ f ∧ f < range.2) ∧
    ∀ t range, tasks[t]? = some range → range.1 ≤ f → f < range.2 → t = own f

theorem TasksCover.owns {n : Nat} {tasks : List (Nat × Nat)} (h : TasksCover n tasks) : ∃ own, Owns n tasks own := by
  classical
  refine ⟨fun f => if hf : f < n then (h f hf).choose else 0, fun f hf => ?_⟩
  have := (h f hf).choose_spec
  simp only [hf, dite_true]
  refine ⟨this.1, fun t range h1 h2 h3 => this.2 t ⟨range, h1, h2, h3⟩⟩

/-- The part of a frame is as far as the frame has come. -/
def FrameOk (J : FrameJobs S L R K) (view : Option Nat → S → P) (s0 s : S) (f : Nat) : FramePhase L R K → Prop
  | .fresh => view (some f) s = view (some f) s0
  | .working k l => k ≤ J.steps f ∧ l = (J.worked s0 f k).2 ∧ view (some f) s = view (some f) (J.worked s0 f k).1
  | .computed r => r = J.item s0 f ∧ view (some f) s = view (some f) (J.worked s0 f (J.steps f)).1
  | .pushed => view (some f) s = view (some f) (J.worked s0 f (J.steps f)).1

/-- The first half of the invariant: the frames and their parts. -/
structure FramesInv (J : FrameJobs S L R K) (view : Option Nat → S → P) (s0 : S) (tasks : List (Nat × Nat)) (own : Nat → Nat)
    (σ : PipeState S L R K) : Prop where
  within : ∀ t range, tasks[t]? = some range → (σ.pcs t).Within J.nFrames range
  frames : ∀ f, f < J.nFrames → FrameOk J view s0 σ.solver f ((σ.pcs (own f)).phase f)

theorem PipeState.goto_pcs (σ : PipeState S L R K) (t u : Nat) (pc : PipePc L R K) :
    (σ.goto t pc).pcs u = if u = t then pc else σ.pcs u := by
  simp [PipeState.goto, Function.update_apply]

theorem PipeState.goto_self (σ : PipeState S L R K) (t : Nat) (pc : PipePc L R K) : (σ.goto t pc).pcs t = pc := by
  simp [PipeState.goto]

theorem PipeState.goto_solver (σ : PipeState S L R K) (t : Nat) (pc : PipePc L R K) : (σ.goto t pc).solver = σ.solver := rfl

theorem PipeStep.other [Add K] {J : FrameJobs S L R K} {tasks : List (Nat × Nat)} {σ σ' : PipeState S L R K} {t : Nat}
    {range : Nat × Nat} (h : PipeStep J tasks σ t range σ') {u : Nat} (hu : u ≠ t) : σ'.pcs u = σ.pcs u := by
  cases h <;> simp [PipeState.goto, hu]

theorem PipeStep.framesInv [Add K] {J : FrameJobs S L R K} {view : Option Nat → S → P} (hJ : J.Separated view) {s0 : S}
    {tasks : List (Nat × Nat)} {own : Nat → Nat} (ho : Owns J.nFrames tasks own)
    {σ σ' : PipeState S L R K} {t : Nat} {range : Nat × Nat} (ht : tasks[t]? = some range)
    (h : PipeStep J tasks σ t range σ') (hi : FramesInv J view s0 tasks own σ) : FramesInv J view s0 tasks own σ' := by
  have hw := hi.within t range ht
  constructor
  · intro u r hu
    by_cases hut : u = t
    · subst hut
      have hr : r = range := by rw [ht] at hu; exact (Option.some.inj hu).symm
      subst hr
      cases h <;> simp_all [PipePc.Within, PipeState.goto] <;> omega
    · rw [h.other hut]
      exact hi.within u r hu
  · intro f hf
    have hfr := hi.frames f hf
    by_cases hft : own f = t
    · obtain ⟨⟨r, h1, h2, h3⟩, _⟩ := ho f hf
      rw [hft] at h1 hfr ⊢
      have hr : r = range := by rw [ht] at h1; exact (Option.some.inj h1).symm
      subst hr
      cases h with
      | past i pc h4 h5 =>
        rw [PipeState.goto_self]
        rw [pc] at hfr
        simpa [PipePc.phase, PipeState.goto_solver, show f < i by omega] using hfr
      | begin i pc h4 h5 =>
        rw [PipeState.goto_self]
        rw [pc] at hfr
        rcases Nat.lt_trichotomy f i with h | h | h
        · simpa [PipePc.phase, PipeState.goto_solver, h] using hfr
        · subst h
          simp only [PipePc.phase, lt_irrefl, if_false, if_true] at hfr ⊢
          exact ⟨Nat.zero_le _, rfl, hfr⟩
        · simpa [PipePc.phase, PipeState.goto_solver, show ¬ f < i by omega, show f ≠ i by omega] using hfr
      | leave i pc h4 =>
        rw [PipeState.goto_self]
        rw [pc] at hfr
        simpa [PipePc.phase, PipeState.goto_solver, show f < i by omega] using hfr
      | column i k l s l' pc h4 h5 =>
        rw [PipeState.goto_self]
        rw [pc] at hfr hw
        rcases eq_or_ne f i with h | h
        · subst h
          simp only [PipePc.phase, lt_irrefl, if_false, if_true] at hfr ⊢
          obtain ⟨_, h6, h7⟩ := hfr
          rw [h6] at h5
          have := hJ.reads f k _ _ _ _ _ _ _ hf h4 h7 h5 (hJ.worked_succ s0 hf h4)
          exact ⟨h4, this.1, this.2⟩
        · have hv := hJ.writes i k _ _ _ _ hw.2.2 h4 h5 (some f) (by simpa using h)
          simp only [PipePc.phase, h, if_false] at hfr ⊢
          split_ifs at hfr ⊢ with h6
          · exact hv.trans hfr
          · exact hv.trans hfr
      | finishWork i k l pc h4 =>
        rw [PipeState.goto_self]
        rw [pc] at hfr
        rcases eq_or_ne f i with h | h
        · subst h
          simp only [PipePc.phase, lt_irrefl, if_false, if_true] at hfr ⊢
          obtain ⟨h5, h6, h7⟩ := hfr
          have : k = J.steps f := by omega
          subst this
          exact ⟨by rw [h6]; rfl, h7⟩
        · simpa [PipePc.phase, PipeState.goto_solver, h] using hfr
      | lockReorder i r pc h4 =>
        rw [PipeState.goto_self]
        rw [pc] at hfr
        simpa [PipePc.phase, PipeState.goto_solver] using hfr
      | push i r pc =>
        rw [PipeState.goto_self]
        rw [pc] at hfr
        rcases Nat.lt_trichotomy f i with h | h | h
        · simpa [PipePc.phase, PipeState.goto_solver, h, show f < i + 1 by omega] using hfr
        · subst h
          simp only [PipePc.phase, lt_irrefl, if_false, if_true, lt_add_iff_pos_right, zero_lt_one] at hfr ⊢
          exact hfr.2
        · simpa [PipePc.phase, PipeState.goto_solver, show ¬ f < i by omega, show f ≠ i by omega, show ¬ f < i + 1 by omega] using hfr
      | scanHit i a as pc h4 h5 => rw [PipeState.goto_self]; rw [pc] at hfr; exact hfr
      | scanMiss i pc h4 => rw [PipeState.goto_self]; rw [pc] at hfr; exact hfr
      | lockReady i pc h4 => rw [PipeState.goto_self]; rw [pc] at hfr; exact hfr
      | move i a pc h4 => rw [PipeState.goto_self]; rw [pc] at hfr; exact hfr
      | advance i pc => rw [PipeState.goto_self]; rw [pc] at hfr; exact hfr
      | tryOk pc h4 => rw [PipeState.goto_self]; rw [pc] at hfr; exact hfr
      | tryFail pc => rw [PipeState.goto_self]; rw [pc] at hfr; exact hfr
      | lockTake pc h4 => rw [PipeState.goto_self]; rw [pc] at hfr; exact hfr
      | takeSome a as pc h4 => rw [PipeState.goto_self]; rw [pc] at hfr; exact hfr
      | takeNone pc h4 => rw [PipeState.goto_self]; rw [pc] at hfr; exact hfr
      | addColumn k rest r s rest' pc h4 h5 =>
        rw [PipeState.goto_self]
        rw [pc] at hfr
        exact (hJ.addWrites k _ _ _ _ h4 h5 (some f) (by simp)).trans hfr
      | addEnd k rest r pc h4 => rw [PipeState.goto_self]; rw [pc] at hfr; exact hfr
    · rw [h.other hft]
      have hv : view (some f) σ'.solver = view (some f) σ.solver := by
        cases h with
        | column i k l s l' pc h4 h5 =>
          rw [pc] at hw
          refine hJ.writes i k _ _ _ _ hw.2.2 h4 h5 (some f) fun e => hft ?_
          have e : f = i := Option.some.inj e
          subst e
          exact ((ho f hf).2 t range ht hw.1 hw.2.1).symm
        | addColumn k rest r s rest' pc h4 h5 => exact hJ.addWrites k _ _ _ _ h4 h5 (some f) (by simp)
        | _ => rfl
      cases hp : (σ.pcs (own f)).phase f <;> rw [hp] at hfr <;> simp only [FrameOk, hv] at hfr ⊢ <;> exact hfr

/-! ## The buffer -/

theorem PipeItem.mem_insert {r x : PipeItem R K} {l : List (PipeItem R K)} : x ∈ r.insert l ↔ x = r ∨ x ∈ l := by
  induction l with
  | nil => simp [PipeItem.insert]
  | cons a as ih =>
    simp only [PipeItem.insert]
    split_ifs
    · simp
    · simp only [List.mem_cons, ih]; tauto

theorem PipeItem.insert_sorted {r : PipeItem R K} {l : List (PipeItem R K)}
    (h : l.Pairwise fun a b => a.frame < b.frame) (hr : ∀ x ∈ l, x.frame ≠ r.frame) :
    (r.insert l).Pairwise fun a b => a.frame < b.frame := by
  induction l with
  | nil => simp [PipeItem.insert]
  | cons a as ih =>
    have hra := hr a (by simp)
    have h' := List.pairwise_cons.mp h
    simp only [PipeItem.insert]
    split_ifs with h1
    · refine List.pairwise_cons.mpr ⟨fun x hx => ?_, h⟩
      rcases List.mem_cons.mp hx with rfl | hx
      · omega
      · have := h'.1 x hx; omega
    · refine List.pairwise_cons.mpr ⟨fun x hx => ?_, ih h'.2 fun x hx => hr x (by simp [hx])⟩
      rcases PipeItem.mem_insert.mp hx with rfl | hx
      · omega
      · exact h'.1 x hx

/-- The top of the buffer is about to be moved, or has been moved but not yet popped. -/
def PipePc.hasTop : PipePc L R K → Bool
  | .readyWait .. | .move .. | .advance .. => true
  | _ => false

/-- The second part of the invariant: the buffer holds the frames that have been handed in, from the next one on. -/
structure BufferInv (J : FrameJobs S L R K) (s0 : S) (own : Nat → Nat) (σ : PipeState S L R K) : Prop where
  sorted : σ.reorder.Pairwise fun a b => a.frame < b.frame
  mem : ∀ x ∈ σ.reorder, x.frame < J.nFrames ∧ x = J.item s0 x.frame ∧ σ.next ≤ x.frame ∧
    (σ.pcs (own x.frame)).phase x.frame = .pushed
  pushed : ∀ f, f < J.nFrames → (σ.pcs (own f)).phase f = .pushed → f < σ.next ∨ J.item s0 f ∈ σ.reorder
  below : ∀ f, f < σ.next → f < J.nFrames ∧ (σ.pcs (own f)).phase f = .pushed
  top : ∀ t, (σ.pcs t).hasTop = true → σ.reorder.head? = some (J.item s0 σ.next)

/-- The task has handed in frame `f`. -/
def PipePc.past : PipePc L R K → Nat → Prop
  | .head i, f | .work i _ _, f | .pushWait i _, f | .push i _, f => f < i
  | .scan i, f | .readyWait i, f | .move i, f | .advance i, f => f < i + 1
  | _, _ => True

theorem PipePc.phase_pushed (pc : PipePc L R K) (f : Nat) : pc.phase f = .pushed ↔ pc.past f := by
  cases pc <;> simp only [PipePc.phase, PipePc.past] <;> split_ifs <;> simp_all

theorem PipeStep.phase_mono [Add K] {J : FrameJobs S L R K} {tasks : List (Nat × Nat)} {own : Nat → Nat}
    {σ σ' : PipeState S L R K} {t : Nat} {range : Nat × Nat}
    (h : PipeStep J tasks σ t range σ') {f : Nat} (hp : (σ.pcs (own f)).phase f = .pushed) :
    (σ'.pcs (own f)).phase f = .pushed := by
  by_cases hft : own f = t
  · rw [hft] at hp ⊢
    rw [PipePc.phase_pushed] at hp ⊢
    cases h with
    | _ => simp only [PipeState.goto_self, *, PipePc.past] at * <;> first | trivial | omega
  · rw [h.other hft]; exact hp

theorem PipeStep.phase_new [Add K] {J : FrameJobs S L R K} {tasks : List (Nat × Nat)} {own : Nat → Nat}
    (ho : Owns J.nFrames tasks own) {σ σ' : PipeState S L R K} {t : Nat} {range : Nat × Nat} (ht : tasks[t]? = some range)
    (h : PipeStep J tasks σ t range σ') {f : Nat} (hf : f < J.nFrames) (hp : (σ'.pcs (own f)).phase f = .pushed) :
    (σ.pcs (own f)).phase f = .pushed ∨ (own f = t ∧ ∃ r, σ.pcs t = .push f r) := by
  by_cases hft : own f = t
  · obtain ⟨⟨r, h1, h2, h3⟩, _⟩ := ho f hf
    rw [hft] at h1 hp ⊢
    have hr : r = range := by rw [ht] at h1; exact (Option.some.inj h1).symm
    subst hr
    rw [PipePc.phase_pushed] at hp ⊢
    cases h with
    | push i r pc =>
      rw [PipeState.goto_self] at hp
      rw [pc]
      simp only [PipePc.past] at hp ⊢
      rcases eq_or_ne f i with h | h
      · subst h; exact .inr ⟨trivial, r, rfl⟩
      · left; omega
    | past i pc h4 h5 => left; rw [pc]; simp only [PipePc.past]; omega
    | leave i pc h4 => left; rw [pc]; simp only [PipePc.past]; omega
    | begin i pc h4 h5 => left; simpa [PipeState.goto_self, pc, PipePc.past] using hp
    | column i k l s l' pc h4 h5 => left; simpa [PipeState.goto_self, pc, PipePc.past] using hp
    | finishWork i k l pc h4 => left; simpa [PipeState.goto_self, pc, PipePc.past] using hp
    | lockReorder i r pc h4 => left; simpa [PipeState.goto_self, pc, PipePc.past] using hp
    | scanHit i a as pc h4 h5 => left; simpa [PipeState.goto_self, pc, PipePc.past] using hp
    | scanMiss i pc h4 => left; simpa [PipeState.goto_self, pc, PipePc.past] using hp
    | lockReady i pc h4 => left; simpa [PipeState.goto_self, pc, PipePc.past] using hp
    | move i a pc h4 => left; simpa [PipeState.goto_self, pc, PipePc.past] using hp
    | advance i pc => left; simpa [PipeState.goto_self, pc, PipePc.past] using hp
    | tryOk pc h4 => left; simpa [PipeState.goto_self, pc, PipePc.past] using hp
    | tryFail pc => left; simpa [PipeState.goto_self, pc, PipePc.past] using hp
    | lockTake pc h4 => left; simpa [PipeState.goto_self, pc, PipePc.past] using hp
    | takeSome a as pc h4 => left; simpa [PipeState.goto_self, pc, PipePc.past] using hp
    | takeNone pc h4 => left; simpa [PipeState.goto_self, pc, PipePc.past] using hp
    | addColumn k rest r s rest' pc h4 h5 => left; simpa [PipeState.goto_self, pc, PipePc.past] using hp
    | addEnd k rest r pc h4 => left; simpa [PipeState.goto_self, pc, PipePc.past] using hp
  · rw [h.other hft] at hp; exact .inl hp

theorem PipeStep.bufferInv_same [Add K] {J : FrameJobs S L R K} {s0 : S} {tasks : List (Nat × Nat)} {own : Nat → Nat}
    (ho : Owns J.nFrames tasks own) {σ σ' : PipeState S L R K} {t : Nat} {range : Nat × Nat} (ht : tasks[t]? = some range)
    (h : PipeStep J tasks σ t range σ') (hb : BufferInv J s0 own σ) (h1 : σ'.reorder = σ.reorder) (h2 : σ'.next = σ.next)
    (h3 : ∀ f r, σ.pcs t ≠ .push f r)
    (h4 : (σ'.pcs t).hasTop = true → (σ.pcs t).hasTop = true ∨ σ.reorder.head? = some (J.item s0 σ.next)) :
    BufferInv J s0 own σ' := by
  refine ⟨h1 ▸ hb.sorted, ?_, ?_, ?_, ?_⟩
  · intro x hx
    rw [h1] at hx
    obtain ⟨h5, h6, h7, h8⟩ := hb.mem x hx
    exact ⟨h5, h6, h2 ▸ h7, h.phase_mono h8⟩
  · intro f hf hp
    rw [h1, h2]
    rcases h.phase_new ho ht hf hp with h5 | ⟨_, r, h5⟩
    · exact hb.pushed f hf h5
    · exact absurd h5 (h3 f r)
  · intro f hf
    rw [h2] at hf
    exact ⟨(hb.below f hf).1, h.phase_mono (hb.below f hf).2⟩
  · intro u hu
    rw [h1, h2]
    by_cases hut : u = t
    · subst hut
      rcases h4 hu with h5 | h5
      · exact hb.top u h5
      · exact h5
    · rw [h.other hut] at hu
      exact hb.top u hu

theorem PipeState.Locks.reorder_unique {σ : PipeState S L R K} (hl : σ.Locks) {t u : Nat} (ht : (σ.pcs t).inReorder = true)
    (hu : (σ.pcs u).inReorder = true) : u = t := by
  have h1 := (hl t).1.mpr ht
  have h2 := (hl u).1.mpr hu
  rw [h1] at h2
  exact (Option.some.inj h2).symm

theorem PipeState.Locks.ready_unique {σ : PipeState S L R K} (hl : σ.Locks) {t u : Nat} (ht : (σ.pcs t).inReady = true)
    (hu : (σ.pcs u).inReady = true) : u = t := by
  have h1 := (hl t).2.1.mpr ht
  have h2 := (hl u).2.1.mpr hu
  rw [h1] at h2
  exact (Option.some.inj h2).symm

theorem PipeState.Locks.qr_unique {σ : PipeState S L R K} (hl : σ.Locks) {t u : Nat} (ht : (σ.pcs t).inQr = true)
    (hu : (σ.pcs u).inQr = true) : u = t := by
  have h1 := (hl t).2.2.mpr ht
  have h2 := (hl u).2.2.mpr hu
  rw [h1] at h2
  exact (Option.some.inj h2).symm

theorem PipePc.inReorder_of_hasTop {pc : PipePc L R K} (h : pc.hasTop = true) : pc.inReorder = true := by
  cases pc <;> simp_all [PipePc.hasTop, PipePc.inReorder]

theorem PipeStep.bufferInv [Add K] {J : FrameJobs S L R K} {view : Option Nat → S → P} {s0 : S}
    {tasks : List (Nat × Nat)} {own : Nat → Nat} (ho : Owns J.nFrames tasks own)
    {σ σ' : PipeState S L R K} {t : Nat} {range : Nat × Nat} (ht : tasks[t]? = some range)
    (h : PipeStep J tasks σ t range σ') (hl : σ.Locks) (hi : FramesInv J view s0 tasks own σ)
    (hb : BufferInv J s0 own σ) : BufferInv J s0 own σ' := by
  have hs := h
  cases h with
  | push i r pc =>
    have hw := hi.within t range ht
    rw [pc] at hw
    obtain ⟨hw1, hw2, hw3⟩ := hw
    have hown : own i = t := ((ho i hw3).2 t range ht hw1 hw2).symm
    have hfr := hi.frames i hw3
    rw [hown, pc] at hfr
    simp only [PipePc.phase, lt_irrefl, if_false, if_true] at hfr
    have hr : r = J.item s0 i := hfr.1
    have hnot : (σ.pcs (own i)).phase i ≠ .pushed := by rw [hown, pc]; simp [PipePc.phase]
    refine ⟨?_, ?_, ?_, ?_, ?_⟩
    · refine PipeItem.insert_sorted hb.sorted fun x hx hxe => ?_
      obtain ⟨_, _, _, h4⟩ := hb.mem x hx
      rw [show x.frame = i by rw [hxe, hr]; rfl] at h4
      exact hnot h4
    · intro x hx
      rcases PipeItem.mem_insert.mp hx with rfl | hx
      · rw [hr]
        refine ⟨hw3, rfl, ?_, ?_⟩
        · show σ.next ≤ i
          by_contra hlt
          exact hnot (hb.below i (by omega)).2
        · show ((PipeState.goto _ t _).pcs (own i)).phase i = _
          rw [hown, PipeState.goto_self]
          simp [PipePc.phase]
      · obtain ⟨h4, h5, h6, h7⟩ := hb.mem x hx
        exact ⟨h4, h5, h6, hs.phase_mono h7⟩
    · intro f hf hp
      rcases hs.phase_new ho ht hf hp with h5 | ⟨_, r', h5⟩
      · rcases hb.pushed f hf h5 with h6 | h6
        · exact .inl h6
        · exact .inr (PipeItem.mem_insert.mpr (.inr h6))
      · rw [pc] at h5
        cases h5
        exact .inr (PipeItem.mem_insert.mpr (.inl hr.symm))
    · intro f hf
      exact ⟨(hb.below f hf).1, hs.phase_mono (hb.below f hf).2⟩
    · intro u hu
      exfalso
      by_cases hut : u = t
      · subst hut; rw [PipeState.goto_self] at hu; simp [PipePc.hasTop] at hu
      · rw [hs.other hut] at hu
        exact hut (hl.reorder_unique (t := t) (by rw [pc]; rfl) (PipePc.inReorder_of_hasTop hu))
  | advance i pc =>
    have htop := hb.top t (by rw [pc]; rfl)
    obtain ⟨as, has⟩ : ∃ as, σ.reorder = J.item s0 σ.next :: as := by
      cases hq : σ.reorder with
      | nil => rw [hq] at htop; simp at htop
      | cons a as => rw [hq] at htop; simp at htop; exact ⟨as, by rw [htop]⟩
    have hsort := hb.sorted
    rw [has] at hsort
    have hsort' := List.pairwise_cons.mp hsort
    have hmem := hb.mem (J.item s0 σ.next) (by rw [has]; simp)
    refine ⟨?_, ?_, ?_, ?_, ?_⟩
    · show σ.reorder.tail.Pairwise _
      rw [has]; exact hsort'.2
    · intro x hx
      have hx : x ∈ as := by
        have : x ∈ σ.reorder.tail := hx
        rwa [has] at this
      obtain ⟨h4, h5, h6, h7⟩ := hb.mem x (by rw [has]; simp [hx])
      exact ⟨h4, h5, hsort'.1 x hx, hs.phase_mono h7⟩
    · intro f hf hp
      show f < σ.next + 1 ∨ _ ∈ σ.reorder.tail
      rcases hs.phase_new ho ht hf hp with h5 | ⟨_, r', h5⟩
      · rcases hb.pushed f hf h5 with h6 | h6
        · left; omega
        · rw [has] at h6 ⊢
          rcases List.mem_cons.mp h6 with h7 | h7
          · left
            have : f = σ.next := congrArg PipeItem.frame h7
            omega
          · exact .inr h7
      · rw [pc] at h5; cases h5
    · intro f hf
      have hf : f < σ.next + 1 := hf
      rcases Nat.lt_succ_iff_lt_or_eq.mp hf with h4 | h4
      · exact ⟨(hb.below f h4).1, hs.phase_mono (hb.below f h4).2⟩
      · subst h4
        exact ⟨hmem.1, hs.phase_mono hmem.2.2.2⟩
    · intro u hu
      exfalso
      by_cases hut : u = t
      · subst hut; rw [PipeState.goto_self] at hu; simp [PipePc.hasTop] at hu
      · rw [hs.other hut] at hu
        exact hut (hl.reorder_unique (t := t) (by rw [pc]; rfl) (PipePc.inReorder_of_hasTop hu))
  | scanHit i a as pc h4 h5 =>
    refine hs.bufferInv_same ho ht hb rfl rfl (by simp [pc]) fun _ => .inr ?_
    have := (hb.mem a (by rw [h4]; simp)).2.1
    rw [h4, ← h5]
    simp [← this]
  | lockReady i pc h4 => exact hs.bufferInv_same ho ht hb rfl rfl (by simp [pc]) fun _ => .inl (by rw [pc]; rfl)
  | move i a pc h4 => exact hs.bufferInv_same ho ht hb rfl rfl (by simp [pc]) fun _ => .inl (by rw [pc]; rfl)
  | past i pc h4 h5 =>
    exact hs.bufferInv_same ho ht hb rfl rfl (by simp [pc]) fun h => by
      rw [PipeState.goto_self] at h; simp [PipePc.hasTop] at h
  | begin i pc h4 h5 =>
    exact hs.bufferInv_same ho ht hb rfl rfl (by simp [pc]) fun h => by
      rw [PipeState.goto_self] at h; simp [PipePc.hasTop] at h
  | leave i pc h4 =>
    exact hs.bufferInv_same ho ht hb rfl rfl (by simp [pc]) fun h => by
      rw [PipeState.goto_self] at h; simp [PipePc.hasTop] at h
  | column i k l s l' pc h4 h5 =>
    exact hs.bufferInv_same ho ht hb rfl rfl (by simp [pc]) fun h => by
      rw [PipeState.goto_self] at h; simp [PipePc.hasTop] at h
  | finishWork i k l pc h4 =>
    exact hs.bufferInv_same ho ht hb rfl rfl (by simp [pc]) fun h => by
      rw [PipeState.goto_self] at h; simp [PipePc.hasTop] at h
  | lockReorder i r pc h4 =>
    exact hs.bufferInv_same ho ht hb rfl rfl (by simp [pc]) fun h => by
      rw [PipeState.goto_self] at h; simp [PipePc.hasTop] at h
  | scanMiss i pc h4 =>
    exact hs.bufferInv_same ho ht hb rfl rfl (by simp [pc]) fun h => by
      rw [PipeState.goto_self] at h; simp [PipePc.hasTop] at h
  | tryOk pc h4 =>
    exact hs.bufferInv_same ho ht hb rfl rfl (by simp [pc]) fun h => by
      rw [PipeState.goto_self] at h; simp [PipePc.hasTop] at h
  | tryFail pc =>
    exact hs.bufferInv_same ho ht hb rfl rfl (by simp [pc]) fun h => by
      rw [PipeState.goto_self] at h; simp [PipePc.hasTop] at h
  | lockTake pc h4 =>
    exact hs.bufferInv_same ho ht hb rfl rfl (by simp [pc]) fun h => by
      rw [PipeState.goto_self] at h; simp [PipePc.hasTop] at h
  | takeSome a as pc h4 =>
    exact hs.bufferInv_same ho ht hb rfl rfl (by simp [pc]) fun h => by
      rw [PipeState.goto_self] at h; simp [PipePc.hasTop] at h
  | takeNone pc h4 =>
    exact hs.bufferInv_same ho ht hb rfl rfl (by simp [pc]) fun h => by
      rw [PipeState.goto_self] at h; simp [PipePc.hasTop] at h
  | addColumn k rest r s rest' pc h4 h5 =>
    exact hs.bufferInv_same ho ht hb rfl rfl (by simp [pc]) fun h => by
      rw [PipeState.goto_self] at h; simp [PipePc.hasTop] at h
  | addEnd k rest r pc h4 =>
    exact hs.bufferInv_same ho ht hb rfl rfl (by simp [pc]) fun h => by
      rw [PipeState.goto_self] at h; simp [PipePc.hasTop] at h

/-! ## The queue and the last stage -/

/-- The third part of the invariant: frames up to `m` have been absorbed, those from there (or the next, if one is being
absorbed) to `h` are in the queue. -/
structure DrainInv [Add K] [Zero K] (J : FrameJobs S L R K) (view : Option Nat → S → P) (s0 : S) (σ : PipeState S L R K)
    (h m : Nat) : Prop where
  handed0 : (∀ t i, σ.pcs t ≠ .advance i) → h = σ.next
  handed1 : ∀ t i, σ.pcs t = .advance i → h = σ.next + 1
  idle : (∀ t k q r, σ.pcs t ≠ .add k q r) →
    m ≤ h ∧ σ.ready = (List.range' m (h - m)).map (J.item s0) ∧ view none σ.solver = view none (J.added s0 m)
  busy : ∀ t k q r, σ.pcs t = .add k q r →
    m < h ∧ σ.ready = (List.range' (m + 1) (h - (m + 1))).map (J.item s0) ∧ r = J.item s0 m ∧ k ≤ J.addSteps ∧
      q = (J.adding s0 m k).2 ∧ view none σ.solver = view none (J.adding s0 m k).1
  errs : σ.errorSum = J.errors m

theorem PipeStep.drainInv_same [Add K] [Zero K] {J : FrameJobs S L R K} {view : Option Nat → S → P} {s0 : S}
    {tasks : List (Nat × Nat)} {σ σ' : PipeState S L R K} {t : Nat} {range : Nat × Nat}
    (hs : PipeStep J tasks σ t range σ') {h m : Nat} (hd : DrainInv J view s0 σ h m)
    (h1 : σ'.ready = σ.ready) (h2 : σ'.next = σ.next) (h3 : σ'.errorSum = σ.errorSum)
    (h4 : view none σ'.solver = view none σ.solver) (h5 : ∀ i, σ.pcs t ≠ .advance i) (h6 : ∀ k q r, σ.pcs t ≠ .add k q r)
    (h7 : ∀ i, σ'.pcs t ≠ .advance i) (h8 : ∀ k q r, σ'.pcs t ≠ .add k q r) : DrainInv J view s0 σ' h m := by
  refine ⟨?_, ?_, ?_, ?_, h3 ▸ hd.errs⟩
  · intro hn
    rw [h2]
    refine hd.handed0 fun u i => ?_
    by_cases hut : u = t
    · subst hut; exact h5 i
    · rw [← hs.other hut]; exact hn u i
  · intro u i hu
    rw [h2]
    by_cases hut : u = t
    · subst hut; exact absurd hu (h7 i)
    · rw [hs.other hut] at hu; exact hd.handed1 u i hu
  · intro hn
    rw [h1, h4]
    refine hd.idle fun u k q r => ?_
    by_cases hut : u = t
    · subst hut; exact h6 k q r
    · rw [← hs.other hut]; exact hn u k q r
  · intro u k q r hu
    rw [h1, h4]
    by_cases hut : u = t
    · subst hut; exact absurd hu (h8 k q r)
    · rw [hs.other hut] at hu; exact hd.busy u k q r hu

theorem range'_succ_last {m h : Nat} (hm : m ≤ h) : List.range' m (h + 1 - m) = List.range' m (h - m) ++ [h] := by
  rw [show h + 1 - m = (h - m) + 1 by omega, List.range'_concat]
  simp; omega

theorem range'_cons_of_lt {m h : Nat} (hm : m < h) : List.range' m (h - m) = m :: List.range' (m + 1) (h - (m + 1)) := by
  rw [show h - m = (h - (m + 1)) + 1 by omega, List.range'_succ]

theorem PipeStep.drainInv [Add K] [Zero K] {J : FrameJobs S L R K} {view : Option Nat → S → P} (hJ : J.Separated view)
    {s0 : S} {tasks : List (Nat × Nat)} {own : Nat → Nat}
    {σ σ' : PipeState S L R K} {t : Nat} {range : Nat × Nat} (ht : tasks[t]? = some range)
    (hs : PipeStep J tasks σ t range σ') (hl : σ.Locks) (hi : FramesInv J view s0 tasks own σ)
    (hb : BufferInv J s0 own σ) {h m : Nat} (hd : DrainInv J view s0 σ h m) : ∃ h' m', DrainInv J view s0 σ' h' m' := by
  have hs' := hs
  cases hs with
  | column i k l s l' pc h4 h5 =>
    have hw := hi.within t range ht
    rw [pc] at hw
    refine ⟨h, m, hs'.drainInv_same hd rfl rfl rfl ?_ (by simp [pc]) (by simp [pc]) ?_ ?_⟩
    · exact hJ.writes i k _ _ _ _ hw.2.2 h4 h5 none (by simp)
    · intro i; rw [PipeState.goto_self]; simp
    · intro k q r; rw [PipeState.goto_self]; simp
  | move i a pc h4 =>
    have htop := hb.top t (by rw [pc]; rfl)
    rw [h4] at htop
    have ha : a = J.item s0 σ.next := Option.some.inj htop
    have hn : h = σ.next := hd.handed0 fun u j hu => by
      have := hl.reorder_unique (t := t) (u := u) (by rw [pc]; rfl) (by rw [hu]; rfl)
      subst this
      rw [pc] at hu; cases hu
    refine ⟨h + 1, m, ?_, ?_, ?_, ?_, hd.errs⟩
    · intro hno
      exact absurd (PipeState.goto_self _ t _) (hno t i)
    · intro u j hu
      show h + 1 = σ.next + 1
      rw [hn]
    · intro hno
      obtain ⟨h5, h6, h7⟩ := hd.idle fun u k q r => by
        by_cases hut : u = t
        · subst hut; rw [pc]; simp
        · rw [← hs'.other hut]; exact hno u k q r
      refine ⟨by omega, ?_, h7⟩
      show σ.ready ++ [a] = _
      rw [h6, ha, range'_succ_last h5, List.map_append, hn]
      rfl
    · intro u k q r hu
      have hut : u ≠ t := by
        intro hut; subst hut
        rw [PipeState.goto_self] at hu; cases hu
      rw [hs'.other hut] at hu
      obtain ⟨h5, h6, h7⟩ := hd.busy u k q r hu
      refine ⟨by omega, ?_, h7⟩
      show σ.ready ++ [a] = _
      rw [h6, ha, range'_succ_last h5, List.map_append, hn]
      rfl
  | advance i pc =>
    have hn := hd.handed1 t i pc
    refine ⟨h, m, ?_, ?_, ?_, ?_, hd.errs⟩
    · intro _; exact hn
    · intro u j hu
      exfalso
      by_cases hut : u = t
      · subst hut; rw [PipeState.goto_self] at hu; cases hu
      · rw [hs'.other hut] at hu
        exact hut (hl.reorder_unique (t := t) (u := u) (by rw [pc]; rfl) (by rw [hu]; rfl))
    · intro hno
      refine hd.idle fun u k q r => ?_
      by_cases hut : u = t
      · subst hut; rw [pc]; simp
      · rw [← hs'.other hut]; exact hno u k q r
    · intro u k q r hu
      have hut : u ≠ t := by
        intro hut; subst hut
        rw [PipeState.goto_self] at hu; cases hu
      rw [hs'.other hut] at hu
      exact hd.busy u k q r hu
  | takeSome a as pc h4 =>
    obtain ⟨h5, h6, h7⟩ := hd.idle fun u k q r hu => by
      have := hl.qr_unique (t := t) (u := u) (by rw [pc]; rfl) (by rw [hu]; rfl)
      subst this
      rw [pc] at hu; cases hu
    have hlt : m < h := by
      rcases Nat.lt_or_ge m h with h8 | h8
      · exact h8
      · rw [show h - m = 0 by omega, h4] at h6
        simp at h6
    rw [range'_cons_of_lt hlt, List.map_cons, h4] at h6
    obtain ⟨h8, h9⟩ := List.cons.inj h6
    refine ⟨h, m, ?_, ?_, ?_, ?_, hd.errs⟩
    · intro hno
      refine hd.handed0 fun u i => ?_
      by_cases hut : u = t
      · subst hut; rw [pc]; simp
      · rw [← hs'.other hut]; exact hno u i
    · intro u i hu
      have hut : u ≠ t := by
        intro hut; subst hut
        rw [PipeState.goto_self] at hu; cases hu
      rw [hs'.other hut] at hu
      exact hd.handed1 u i hu
    · intro hno
      exact absurd (PipeState.goto_self _ t _) (hno t 0 a.rest a)
    · intro u k q r hu
      have hut : u = t := by
        by_contra hut
        rw [hs'.other hut] at hu
        exact hut (hl.qr_unique (t := t) (u := u) (by rw [pc]; rfl) (by rw [hu]; rfl))
      subst hut
      rw [PipeState.goto_self] at hu
      cases hu
      exact ⟨hlt, h9, h8, Nat.zero_le _, by rw [FrameJobs.adding_zero, h8], h7⟩
  | addColumn k rest r s rest' pc h4 h5 =>
    obtain ⟨h6, h7, h8, h9, h10, h11⟩ := hd.busy t k rest r pc
    refine ⟨h, m, ?_, ?_, ?_, ?_, hd.errs⟩
    · intro hno
      refine hd.handed0 fun u i => ?_
      by_cases hut : u = t
      · subst hut; rw [pc]; simp
      · rw [← hs'.other hut]; exact hno u i
    · intro u i hu
      have hut : u ≠ t := by
        intro hut; subst hut
        rw [PipeState.goto_self] at hu; cases hu
      rw [hs'.other hut] at hu
      exact hd.handed1 u i hu
    · intro hno
      exact absurd (PipeState.goto_self _ t _) (hno t (k + 1) rest' r)
    · intro u k' q r' hu
      have hut : u = t := by
        by_contra hut
        rw [hs'.other hut] at hu
        exact hut (hl.qr_unique (t := t) (u := u) (by rw [pc]; rfl) (by rw [hu]; rfl))
      subst hut
      rw [PipeState.goto_self] at hu
      cases hu
      rw [h10] at h5
      have := hJ.addReads k _ _ _ _ _ _ _ h4 h11 h5 (hJ.adding_succ s0 h4)
      exact ⟨h6, h7, h8, h4, this.1, this.2⟩
  | addEnd k rest r pc h4 =>
    obtain ⟨h6, h7, h8, h9, h10, h11⟩ := hd.busy t k rest r pc
    have hk : k = J.addSteps := by omega
    subst hk
    refine ⟨h, m + 1, ?_, ?_, ?_, ?_, ?_⟩
    · intro hno
      refine hd.handed0 fun u i => ?_
      by_cases hut : u = t
      · subst hut; rw [pc]; simp
      · rw [← hs'.other hut]; exact hno u i
    · intro u i hu
      have hut : u ≠ t := by
        intro hut; subst hut
        rw [PipeState.goto_self] at hu; cases hu
      rw [hs'.other hut] at hu
      exact hd.handed1 u i hu
    · intro _
      exact ⟨h6, h7, h11⟩
    · intro u k' q r' hu
      exfalso
      by_cases hut : u = t
      · subst hut; rw [PipeState.goto_self] at hu; cases hu
      · rw [hs'.other hut] at hu
        exact hut (hl.qr_unique (t := t) (u := u) (by rw [pc]; rfl) (by rw [hu]; rfl))
    · show σ.errorSum + r.error = _
      rw [hd.errs, h8]; rfl
  | past i pc h4 h5 =>
    exact ⟨h, m, hs'.drainInv_same hd rfl rfl rfl rfl (by simp [pc]) (by simp [pc])
      (fun i => by rw [PipeState.goto_self]; simp) (fun k q r => by rw [PipeState.goto_self]; simp)⟩
  | begin i pc h4 h5 =>
    exact ⟨h, m, hs'.drainInv_same hd rfl rfl rfl rfl (by simp [pc]) (by simp [pc])
      (fun i => by rw [PipeState.goto_self]; simp) (fun k q r => by rw [PipeState.goto_self]; simp)⟩
  | leave i pc h4 =>
    exact ⟨h, m, hs'.drainInv_same hd rfl rfl rfl rfl (by simp [pc]) (by simp [pc])
      (fun i => by rw [PipeState.goto_self]; simp) (fun k q r => by rw [PipeState.goto_self]; simp)⟩
  | finishWork i k l pc h4 =>
    exact ⟨h, m, hs'.drainInv_same hd rfl rfl rfl rfl (by simp [pc]) (by simp [pc])
      (fun i => by rw [PipeState.goto_self]; simp) (fun k q r => by rw [PipeState.goto_self]; simp)⟩
  | lockReorder i r pc h4 =>
    exact ⟨h, m, hs'.drainInv_same hd rfl rfl rfl rfl (by simp [pc]) (by simp [pc])
      (fun i => by rw [PipeState.goto_self]; simp) (fun k q r => by rw [PipeState.goto_self]; simp)⟩
  | push i r pc =>
    exact ⟨h, m, hs'.drainInv_same hd rfl rfl rfl rfl (by simp [pc]) (by simp [pc])
      (fun i => by rw [PipeState.goto_self]; simp) (fun k q r => by rw [PipeState.goto_self]; simp)⟩
  | scanHit i a as pc h4 h5 =>
    exact ⟨h, m, hs'.drainInv_same hd rfl rfl rfl rfl (by simp [pc]) (by simp [pc])
      (fun i => by rw [PipeState.goto_self]; simp) (fun k q r => by rw [PipeState.goto_self]; simp)⟩
  | scanMiss i pc h4 =>
    exact ⟨h, m, hs'.drainInv_same hd rfl rfl rfl rfl (by simp [pc]) (by simp [pc])
      (fun i => by rw [PipeState.goto_self]; simp) (fun k q r => by rw [PipeState.goto_self]; simp)⟩
  | lockReady i pc h4 =>
    exact ⟨h, m, hs'.drainInv_same hd rfl rfl rfl rfl (by simp [pc]) (by simp [pc])
      (fun i => by rw [PipeState.goto_self]; simp) (fun k q r => by rw [PipeState.goto_self]; simp)⟩
  | tryOk pc h4 =>
    exact ⟨h, m, hs'.drainInv_same hd rfl rfl rfl rfl (by simp [pc]) (by simp [pc])
      (fun i => by rw [PipeState.goto_self]; simp) (fun k q r => by rw [PipeState.goto_self]; simp)⟩
  | tryFail pc =>
    exact ⟨h, m, hs'.drainInv_same hd rfl rfl rfl rfl (by simp [pc]) (by simp [pc])
      (fun i => by rw [PipeState.goto_self]; simp) (fun k q r => by rw [PipeState.goto_self]; simp)⟩
  | lockTake pc h4 =>
    exact ⟨h, m, hs'.drainInv_same hd rfl rfl rfl rfl (by simp [pc]) (by simp [pc])
      (fun i => by rw [PipeState.goto_self]; simp) (fun k q r => by rw [PipeState.goto_self]; simp)⟩
  | takeNone pc h4 =>
    exact ⟨h, m, hs'.drainInv_same hd rfl rfl rfl rfl (by simp [pc]) (by simp [pc])
      (fun i => by rw [PipeState.goto_self]; simp) (fun k q r => by rw [PipeState.goto_self]; simp)⟩

/-! ## All together -/

/-- The invariant. -/
structure PipeInv [Add K] [Zero K] (J : FrameJobs S L R K) (view : Option Nat → S → P) (s0 : S) (tasks : List (Nat × Nat))
    (own : Nat → Nat) (σ : PipeState S L R K) : Prop where
  outside : ∀ t, tasks[t]? = none → ∃ i, σ.pcs t = .head i
  locks : σ.Locks
  frames : FramesInv J view s0 tasks own σ
  buffer : BufferInv J s0 own σ
  drain : ∃ h m, DrainInv J view s0 σ h m

theorem PipeInv.step [Add K] [Zero K] {J : FrameJobs S L R K} {view : Option Nat → S → P} (hJ : J.Separated view)
    {s0 : S} {tasks : List (Nat × Nat)} {own : Nat → Nat} (ho : Owns J.nFrames tasks own)
    {σ σ' : PipeState S L R K} {t : Nat} {b : Bool} (h : σ.step J tasks t b = some σ')
    (hi : PipeInv J view s0 tasks own σ) : PipeInv J view s0 tasks own σ' := by
  obtain ⟨range, ht, hs⟩ := PipeState.step_cases h
  obtain ⟨hh, m, hd⟩ := hi.drain
  refine ⟨fun u hu => ?_, hs.locks hi.locks, hs.framesInv hJ ho ht hi.frames,
    hs.bufferInv ho ht hi.locks hi.frames hi.buffer, hs.drainInv hJ ht hi.locks hi.frames hi.buffer hd⟩
  have hut : u ≠ t := by
    rintro rfl
    rw [ht] at hu; cases hu
  rw [hs.other hut]
  exact hi.outside u hu

theorem PipeInv.init [Add K] [Zero K] (J : FrameJobs S L R K) (view : Option Nat → S → P)
    (s0 : S) {tasks : List (Nat × Nat)} {own : Nat → Nat} (ho : Owns J.nFrames tasks own) :
    PipeInv J view s0 tasks own (PipeState.init s0 tasks) := by
  have hfresh : ∀ f, f < J.nFrames → ((PipeState.init s0 tasks : PipeState S L R K).pcs (own f)).phase f = .fresh := by
    intro f hf
    obtain ⟨⟨r, h1, h2, h3⟩, _⟩ := ho f hf
    simp only [PipeState.init, PipePc.phase, List.getD_eq_getElem?_getD, h1, Option.getD_some]
    rw [if_neg (by omega)]
  refine ⟨fun t _ => ⟨_, rfl⟩, ?_, ⟨?_, ?_⟩, ⟨?_, ?_, ?_, ?_, ?_⟩, 0, 0, ⟨?_, ?_, ?_, ?_, rfl⟩⟩
  · intro t
    simp [PipeState.init, PipePc.inReorder, PipePc.inReady, PipePc.inQr]
  · intro t range ht
    simp [PipeState.init, PipePc.Within, ht]
  · intro f hf
    rw [hfresh f hf]
    exact rfl
  · exact List.Pairwise.nil
  · intro x hx
    simp [PipeState.init] at hx
  · intro f hf hp
    rw [hfresh f hf] at hp; cases hp
  · intro f hf
    simp [PipeState.init] at hf
  · intro t ht
    simp [PipeState.init, PipePc.hasTop] at ht
  · intro _; rfl
  · intro t i ht
    simp [PipeState.init] at ht
  · intro _
    exact ⟨le_refl _, rfl, rfl⟩
  · intro t k q r ht
    simp [PipeState.init] at ht

theorem PipeInv.run [Add K] [Zero K] {J : FrameJobs S L R K} {view : Option Nat → S → P} (hJ : J.Separated view)
    {s0 : S} {tasks : List (Nat × Nat)} {own : Nat → Nat} (ho : Owns J.nFrames tasks own) :
    ∀ (schedule : List (Nat × Bool)) {σ σ' : PipeState S L R K}, σ.run J tasks schedule = some σ' →
      PipeInv J view s0 tasks own σ → PipeInv J view s0 tasks own σ'
  | [], σ, σ', h, hi => by
    simp only [PipeState.run, List.foldlM_nil] at h
    cases h
    exact hi
  | c :: cs, σ, σ', h, hi => by
    simp only [PipeState.run, List.foldlM_cons] at h
    cases hc : σ.step J tasks c.1 c.2 with
    | none => rw [hc] at h; simp at h
    | some σ1 =>
      rw [hc] at h
      exact PipeInv.run hJ ho cs (by simpa [PipeState.run] using h) (PipeInv.step hJ ho hc hi)

/-! ## The serial loop and the end of the pipeline -/

namespace FrameJobs
variable {J : FrameJobs S L R K} {view : Option Nat → S → P}

theorem Separated.workUpTo_from (hJ : J.Separated view) {s0 s : S} {f : Nat} (hf : f < J.nFrames)
    (hv : view (some f) s = view (some f) s0) :
    ∀ k, k ≤ J.steps f → ∃ s', J.workUpTo s f k = some (s', (J.worked s0 f k).2) ∧
      view (some f) s' = view (some f) (J.worked s0 f k).1 ∧ ∀ o, o ≠ some f → view o s' = view o s
  | 0, _ => ⟨s, rfl, hv, fun _ _ => rfl⟩
  | k + 1, hk => by
    obtain ⟨s', h1, h2, h3⟩ := hJ.workUpTo_from hf hv k (by omega)
    obtain ⟨u, l, h4⟩ := hJ.total f k s' (J.worked s0 f k).2 hf (by omega)
    obtain ⟨h5, h6⟩ := hJ.reads f k _ _ _ _ _ _ _ hf (by omega) h2 h4 (hJ.worked_succ s0 hf (by omega))
    refine ⟨u, ?_, h6, fun o ho => (hJ.writes f k _ _ _ _ hf (by omega) h4 o ho).trans (h3 o ho)⟩
    have h7 : l = (J.worked s0 f (k + 1)).2 := h5
    rw [← h7]
    unfold workUpTo at h1 ⊢
    rw [List.range_succ, List.foldlM_append, h1]
    simp [h4]

theorem Separated.addUpTo_from (hJ : J.Separated view) {s0 s : S} {m : Nat}
    (hv : view none s = view none (J.added s0 m)) :
    ∀ k, k ≤ J.addSteps → ∃ s', J.addUpTo s (J.item s0 m).rest k = some (s', (J.adding s0 m k).2) ∧
      view none s' = view none (J.adding s0 m k).1 ∧ ∀ o, o ≠ none → view o s' = view o s
  | 0, _ => ⟨s, rfl, hv, fun _ _ => rfl⟩
  | k + 1, hk => by
    obtain ⟨s', h1, h2, h3⟩ := hJ.addUpTo_from hv k (by omega)
    obtain ⟨u, l, h4⟩ := hJ.addTotal k s' (J.adding s0 m k).2 (by omega)
    obtain ⟨h5, h6⟩ := hJ.addReads k _ _ _ _ _ _ _ (by omega) h2 h4 (hJ.adding_succ s0 (by omega))
    refine ⟨u, ?_, h6, fun o ho => (hJ.addWrites k _ _ _ _ (by omega) h4 o ho).trans (h3 o ho)⟩
    have h7 : l = (J.adding s0 m (k + 1)).2 := h5
    rw [← h7]
    unfold addUpTo at h1 ⊢
    rw [List.range_succ, List.foldlM_append, h1]
    simp [h4]

theorem Separated.absorb_from [Add K] (hJ : J.Separated view) {s0 s : S} {m : Nat} (e : K)
    (hv : view none s = view none (J.added s0 m)) :
    ∃ s', J.absorb (s, e) (J.item s0 m) = some (s', e + J.error m) ∧ view none s' = view none (J.added s0 (m + 1)) ∧
      ∀ o, o ≠ none → view o s' = view o s := by
  obtain ⟨s', h1, h2, h3⟩ := hJ.addUpTo_from hv J.addSteps le_rfl
  refine ⟨s', ?_, h2, h3⟩
  unfold absorb addAll
  unfold addUpTo at h1
  rw [h1]
  rfl

theorem Separated.absorb_list [Add K] [Zero K] (hJ : J.Separated view) {s0 : S} :
    ∀ (c m : Nat) (s : S), view none s = view none (J.added s0 m) →
      ∃ s', ((List.range' m c).map (J.item s0)).foldlM J.absorb (s, J.errors m) = some (s', J.errors (m + c)) ∧
        view none s' = view none (J.added s0 (m + c)) ∧ ∀ o, o ≠ none → view o s' = view o s
  | 0, m, s, hv => ⟨s, rfl, hv, fun _ _ => rfl⟩
  | c + 1, m, s, hv => by
    obtain ⟨s1, h1, h2, h3⟩ := hJ.absorb_from (J.errors m) hv
    obtain ⟨s2, h4, h5, h6⟩ := hJ.absorb_list c (m + 1) s1 h2
    refine ⟨s2, ?_, ?_, fun o ho => (h6 o ho).trans (h3 o ho)⟩
    · rw [List.range'_succ, List.map_cons, List.foldlM_cons, h1]
      rw [show m + (c + 1) = m + 1 + c by omega, ← h4]
      rfl
    · rw [show m + (c + 1) = m + 1 + c by omega]; exact h5

theorem Separated.serial_upTo [Add K] [Zero K] (hJ : J.Separated view) (s0 : S) :
    ∀ m, m ≤ J.nFrames → ∃ s, (List.range m).foldlM J.serialStep (s0, 0) = some (s, J.errors m) ∧
      view none s = view none (J.added s0 m) ∧
      (∀ f, f < m → view (some f) s = view (some f) (J.worked s0 f (J.steps f)).1) ∧
      ∀ f, m ≤ f → view (some f) s = view (some f) s0
  | 0, _ => ⟨s0, rfl, rfl, fun _ h => absurd h (by omega), fun _ _ => rfl⟩
  | m + 1, hm => by
    obtain ⟨s, h1, h2, h3, h4⟩ := hJ.serial_upTo s0 m (by omega)
    obtain ⟨s1, h5, h6, h7⟩ := hJ.workUpTo_from (f := m) (s0 := s0) (by omega) (h4 m le_rfl) (J.steps m) le_rfl
    obtain ⟨s2, h8, h9, h10⟩ := hJ.absorb_from (s := s1) (J.errors m) ((h7 none (by simp)).trans h2)
    refine ⟨s2, ?_, h9, fun f hf => ?_, fun f hf => ?_⟩
    · rw [List.range_succ, List.foldlM_append, h1]
      simp only [Option.bind_eq_bind, Option.bind_some, List.foldlM_cons, List.foldlM_nil, serialStep, h5]
      have : J.absorb (s1, J.errors m) ⟨m, J.result m (J.worked s0 m (J.steps m)).2, J.error m⟩ = _ := h8
      rw [this]
      rfl
    · rw [h10 _ (by simp)]
      rcases Nat.lt_succ_iff_lt_or_eq.mp hf with h | h
      · rw [h7 _ (by simp; omega)]; exact h3 f h
      · subst h; exact h6
    · rw [h10 _ (by simp), h7 _ (by simp; omega)]
      exact h4 f (by omega)

end FrameJobs

theorem PipeInv.returned [Add K] [Zero K] {J : FrameJobs S L R K} {view : Option Nat → S → P} (hJ : J.Separated view)
    {s0 : S} {tasks : List (Nat × Nat)} {own : Nat → Nat} (ho : Owns J.nFrames tasks own) {σ : PipeState S L R K}
    (hi : PipeInv J view s0 tasks own σ) (hr : σ.Returned tasks) :
    ∃ s, σ.finish J = some (s, J.errors J.nFrames) ∧ J.serial s0 = some (s, J.errors J.nFrames) := by
  have hpc : ∀ t, σ.pcs t = .stop ∨ ∃ i, σ.pcs t = .head i := by
    intro t
    cases ht : tasks[t]? with
    | none => exact .inr (hi.outside t ht)
    | some r => exact .inl (hr t (List.getElem?_eq_some_iff.mp ht).1)
  have hno : ∀ t (g : PipePc L R K → Bool), (g .stop = false) → (∀ i, g (.head i) = false) → g (σ.pcs t) = false := by
    intro t g h1 h2
    rcases hpc t with h | ⟨i, h⟩ <;> rw [h]
    · exact h1
    · exact h2 i
  have hnone : ∀ (o : Option Nat) (g : PipePc L R K → Bool), (g .stop = false) → (∀ i, g (.head i) = false) →
      (∀ t, o = some t ↔ g (σ.pcs t) = true) → o = none := by
    intro o g h1 h2 h3
    cases o with
    | none => rfl
    | some t =>
      have := (h3 t).mp rfl
      rw [hno t g h1 h2] at this
      cases this
  have hl1 := hnone σ.reorderBy PipePc.inReorder rfl (fun _ => rfl) fun t => (hi.locks t).1
  have hl2 := hnone σ.readyBy PipePc.inReady rfl (fun _ => rfl) fun t => (hi.locks t).2.1
  have hl3 := hnone σ.qrBy PipePc.inQr rfl (fun _ => rfl) fun t => (hi.locks t).2.2
  have hph : ∀ f, f < J.nFrames → (σ.pcs (own f)).phase f = .pushed := by
    intro f hf
    obtain ⟨⟨r, h1, _, _⟩, _⟩ := ho f hf
    rw [hr (own f) (List.getElem?_eq_some_iff.mp h1).1]
    rfl
  have hnext : σ.next ≤ J.nFrames := by
    by_contra hlt
    have := (hi.buffer.below J.nFrames (by omega)).1
    omega
  have hre : σ.reorder = (List.range' σ.next (J.nFrames - σ.next)).map (J.item s0) := by
    have h1 : σ.reorder.map PipeItem.frame = List.range' σ.next (J.nFrames - σ.next) := by
      have hp1 : (σ.reorder.map PipeItem.frame).Pairwise (· < ·) := List.pairwise_map.mpr hi.buffer.sorted
      have hp2 : (List.range' σ.next (J.nFrames - σ.next)).Pairwise (· < ·) := List.pairwise_lt_range'
      refine List.Perm.eq_of_pairwise' hp1 hp2 ?_
      refine (List.perm_ext_iff_of_nodup (hp1.imp fun h => Nat.ne_of_lt h) (hp2.imp fun h => Nat.ne_of_lt h)).mpr fun f => ?_
      rw [List.mem_range'_1, List.mem_map]
      constructor
      · rintro ⟨x, hx, rfl⟩
        have := hi.buffer.mem x hx
        omega
      · rintro ⟨h3, h4⟩
        rcases hi.buffer.pushed f (by omega) (hph f (by omega)) with h5 | h5
        · omega
        · exact ⟨_, h5, rfl⟩
    rw [← h1, List.map_map]
    refine (List.map_id _).symm.trans (List.map_congr_left fun x hx => ?_)
    exact (hi.buffer.mem x hx).2.1
  obtain ⟨h, m, hd⟩ := hi.drain
  have hh := hd.handed0 fun t i => by rcases hpc t with h | ⟨i, h⟩ <;> rw [h] <;> simp
  obtain ⟨hm, hready, hv⟩ := hd.idle fun t k q r => by rcases hpc t with h | ⟨i, h⟩ <;> rw [h] <;> simp
  subst hh
  obtain ⟨s1, h1, h2, h3⟩ := hJ.absorb_list (σ.next - m) m σ.solver hv
  obtain ⟨s2, h4, h5, h6⟩ := hJ.absorb_list (J.nFrames - σ.next) σ.next s1 (by rw [h2]; congr 2; omega)
  obtain ⟨s3, h7, h8, h9, _⟩ := hJ.serial_upTo s0 J.nFrames le_rfl
  rw [show m + (σ.next - m) = σ.next by omega] at h1
  rw [show σ.next + (J.nFrames - σ.next) = J.nFrames by omega] at h4 h5
  refine ⟨s2, ?_, ?_⟩
  · unfold PipeState.finish
    rw [if_pos ⟨hl1, hl2, hl3⟩, hready, hre, hd.errs, h1]
    exact h4
  · have : s3 = s2 := by
      refine hJ.ext _ _ (fun f hf => ?_) ?_
      · rw [h9 f hf, h6 _ (by simp), h3 _ (by simp)]
        have := hi.frames.frames f hf
        rw [hph f hf] at this
        exact this.symm
      · rw [h8, h5]
    rw [← this]
    exact h7

theorem PipeInv.progress [Add K] [Zero K] {J : FrameJobs S L R K} {view : Option Nat → S → P} (hJ : J.Separated view)
    {s0 : S} {tasks : List (Nat × Nat)} {own : Nat → Nat} {σ : PipeState S L R K}
    (hi : PipeInv J view s0 tasks own σ) (hr : ¬ σ.Returned tasks) :
    ∃ t b σ', σ.step J tasks t b = some σ' := by
  have htask : ∀ t, (∀ i, σ.pcs t ≠ .head i) → ∃ range, tasks[t]? = some range := by
    intro t ht
    cases h : tasks[t]? with
    | none => obtain ⟨i, h⟩ := hi.outside t h; exact absurd h (ht i)
    | some r => exact ⟨r, rfl⟩
  cases hq : σ.readyBy with
  | some t =>
    have ht := (hi.locks t).2.1.mp hq
    obtain ⟨range, hrange⟩ := htask t fun i h => by rw [h] at ht; cases ht
    refine ⟨t, false, ?_⟩
    unfold PipeState.step
    simp only [hrange, Option.bind_eq_bind, Option.bind_some]
    cases hpc : σ.pcs t with
    | move i =>
      have htop := hi.buffer.top t (by rw [hpc]; rfl)
      simp [htop]
    | take => cases hre : σ.ready <;> simp
    | _ => rw [hpc] at ht; simp [PipePc.inReady] at ht
  | none =>
    cases hq2 : σ.reorderBy with
    | some t =>
      have ht := (hi.locks t).1.mp hq2
      obtain ⟨range, hrange⟩ := htask t fun i h => by rw [h] at ht; cases ht
      refine ⟨t, false, ?_⟩
      unfold PipeState.step
      simp only [hrange, Option.bind_eq_bind, Option.bind_some]
      cases hpc : σ.pcs t with
      | push i r => simp
      | scan i =>
        cases hre : σ.reorder with
        | nil => simp
        | cons a as => simp only []; split_ifs <;> simp
      | readyWait i => simp [hq]
      | move i =>
        have htop := hi.buffer.top t (by rw [hpc]; rfl)
        simp [htop]
      | advance i => simp
      | _ => rw [hpc] at ht; simp [PipePc.inReorder] at ht
    | none =>
      unfold PipeState.Returned at hr
      push_neg at hr
      obtain ⟨t, ht, hns⟩ := hr
      have hrange : tasks[t]? = some tasks[t] := List.getElem?_eq_getElem ht
      have hw := hi.frames.within t _ hrange
      refine ⟨t, false, ?_⟩
      unfold PipeState.step
      simp only [hrange, Option.bind_eq_bind, Option.bind_some]
      cases hpc : σ.pcs t with
      | head i => simp only []; split_ifs <;> simp
      | work i k l =>
        simp only []
        split_ifs with h1
        · rw [hpc] at hw
          obtain ⟨s', l', h2⟩ := hJ.total i k σ.solver l hw.2.2 h1
          simp [h2]
        · simp
      | pushWait i r => simp [hq2]
      | push i r => simp
      | scan i =>
        cases hre : σ.reorder with
        | nil => simp
        | cons a as => simp only []; split_ifs <;> simp
      | readyWait i => simp [hq]
      | move i =>
        have htop := hi.buffer.top t (by rw [hpc]; rfl)
        simp [htop]
      | advance i => simp
      | tryDrain => simp only []; split_ifs <;> simp
      | takeWait => simp [hq]
      | take => cases hre : σ.ready <;> simp
      | add k rest r =>
        simp only []
        split_ifs with h1
        · obtain ⟨s', l', h2⟩ := hJ.addTotal k σ.solver rest h1
          simp [h2]
        · simp
      | stop => exact absurd hpc hns

end Momentum
