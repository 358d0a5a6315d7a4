import Verif.Lemmas.SequencePipeline4
import Verif.Model.SequencePipeline

/-!
# C64: the parallel solver computes what the serial one computes

A task may be anywhere when another one takes a step: the theorems are about every schedule.  `TasksCover` says that the ranges
`parallel_for` hands out contain every frame once.
-/

namespace Momentum

variable {S L R K P : Type}

/-- **C64.**  Whatever the schedule: when all tasks have returned, the calling thread finishes with the solver and the error
sum of the serial loop, entry by entry and in the same order of additions (nothing is assumed of the addition).  Before that,
some task can always take a step. -/
theorem C64_pipeline [Add K] [Zero K] (J : FrameJobs S L R K) (view : Option Nat → S → P) (hJ : J.Separated view) (s0 : S)
    (tasks : List (Nat × Nat)) (hc : TasksCover J.nFrames tasks) (schedule : List (Nat × Bool)) (σ : PipeState S L R K)
    (h : (PipeState.init s0 tasks).run J tasks schedule = some σ) :
    (σ.Returned tasks → σ.finish J = J.serial s0 ∧ ∃ p, J.serial s0 = some p) ∧
      (¬ σ.Returned tasks → ∃ t b σ', σ.step J tasks t b = some σ') := by
  obtain ⟨own, ho⟩ := hc.owns
  have hi := PipeInv.run hJ ho schedule h (PipeInv.init J view s0 ho)
  refine ⟨fun hr => ?_, fun hr => hi.progress hJ hr⟩
  obtain ⟨s, h1, h2⟩ := hi.returned hJ ho hr
  exact ⟨h1.trans h2.symm, _, h2⟩

/-- **C64.**  No schedule goes on for ever: there is a bound on the number of steps all tasks together can take. -/
theorem C64_ends [Add K] [Zero K] (J : FrameJobs S L R K) (view : Option Nat → S → P) (hJ : J.Separated view) (s0 : S)
    (tasks : List (Nat × Nat)) (hc : TasksCover J.nFrames tasks) :
    ∃ N, ∀ (schedule : List (Nat × Bool)) (σ : PipeState S L R K),
      (PipeState.init s0 tasks).run J tasks schedule = some σ → schedule.length ≤ N := by
  obtain ⟨own, ho⟩ := hc.owns
  refine ⟨(PipeState.init s0 tasks : PipeState S L R K).toGo J tasks, fun schedule σ h => ?_⟩
  have := PipeInv.run_length hJ ho schedule h (PipeInv.init J view s0 ho)
  omega

/-- **C64.**  At no time have two tasks the same mutex. -/
theorem C64_exclusion [Add K] [Zero K] (J : FrameJobs S L R K) (view : Option Nat → S → P) (hJ : J.Separated view) (s0 : S)
    (tasks : List (Nat × Nat)) (hc : TasksCover J.nFrames tasks) (schedule : List (Nat × Bool)) (σ : PipeState S L R K)
    (h : (PipeState.init s0 tasks).run J tasks schedule = some σ) (t u : Nat) :
    ((σ.pcs t).inReorder = true → (σ.pcs u).inReorder = true → u = t) ∧
      ((σ.pcs t).inReady = true → (σ.pcs u).inReady = true → u = t) ∧
      ((σ.pcs t).inQr = true → (σ.pcs u).inQr = true → u = t) := by
  obtain ⟨own, ho⟩ := hc.owns
  have hi := PipeInv.run hJ ho schedule h (PipeInv.init J view s0 ho)
  exact ⟨fun h1 h2 => hi.locks.reorder_unique h1 h2, fun h1 h2 => hi.locks.ready_unique h1 h2,
    fun h1 h2 => hi.locks.qr_unique h1 h2⟩

/-- **C64.**  At any time the error sum is that of the serial loop after some number of frames; and when no task is in the last
stage, so is the part of the solver that all frames share: frames are absorbed in order and none is left out. -/
theorem C64_in_order [Add K] [Zero K] (J : FrameJobs S L R K) (view : Option Nat → S → P) (hJ : J.Separated view) (s0 : S)
    (tasks : List (Nat × Nat)) (hc : TasksCover J.nFrames tasks) (schedule : List (Nat × Bool)) (σ : PipeState S L R K)
    (h : (PipeState.init s0 tasks).run J tasks schedule = some σ) :
    ∃ m s, m ≤ J.nFrames ∧ (List.range m).foldlM J.serialStep (s0, 0) = some (s, σ.errorSum) ∧
      ((∀ t k q r, σ.pcs t ≠ .add k q r) → view none σ.solver = view none s) := by
  obtain ⟨own, ho⟩ := hc.owns
  have hi := PipeInv.run hJ ho schedule h (PipeInv.init J view s0 ho)
  obtain ⟨n, m, hd⟩ := hi.drain
  have hn : n ≤ J.nFrames := by
    by_cases ha : ∃ t i, σ.pcs t = .advance i
    · obtain ⟨t, i, ha⟩ := ha
      have h1 := hd.handed1 t i ha
      have h2 := hi.buffer.top t (by rw [ha]; rfl)
      have h3 : σ.next < J.nFrames := (hi.buffer.mem _ (List.mem_of_head? h2)).1
      omega
    · have h1 := hd.handed0 fun t i h => ha ⟨t, i, h⟩
      by_contra hlt
      have := (hi.buffer.below J.nFrames (by omega)).1
      omega
  have hm : m ≤ n := by
    by_cases ha : ∃ t k q r, σ.pcs t = .add k q r
    · obtain ⟨t, k, q, r, ha⟩ := ha
      exact (hd.busy t k q r ha).1.le
    · exact (hd.idle fun t k q r h => ha ⟨t, k, q, r, h⟩).1
  obtain ⟨s, h1, h2, _⟩ := hJ.serial_upTo s0 m (by omega)
  refine ⟨m, s, by omega, by rw [hd.errs]; exact h1, fun hno => ?_⟩
  rw [(hd.idle hno).2.2, h2]

/-- **C64 (sequence solver).**  The multithreaded pass over the frames gives the banded solver and the error sum of the serial
pass, whatever the schedule; a schedule can always be continued to the end, and there is a bound on its length. -/
theorem C64_sequence [Add K] [Zero K] (Q : SequenceBlocks K) (hu : Q.universal.Nodup) (s : BandQr)
    (h1 : s.nBand = Q.nFrames * Q.perFrame.length) (h2 : s.nCommon = Q.universal.length) (h3 : Q.perFrame.length ≤ s.bw)
    (tasks : List (Nat × Nat)) (hc : TasksCover Q.nFrames tasks) :
    (∃ p, Q.serial s = some p) ∧
    (∀ schedule σ, (PipeState.init s.entries tasks).run (Q.jobs s.bw) tasks schedule = some σ →
      (σ.Returned tasks → Q.parallel tasks schedule s = Q.serial s) ∧
      (¬ σ.Returned tasks → ∃ t b σ', σ.step (Q.jobs s.bw) tasks t b = some σ')) ∧
    ∃ N, ∀ schedule σ, (PipeState.init s.entries tasks).run (Q.jobs s.bw) tasks schedule = some σ → schedule.length ≤ N := by
  have hJ := Q.separated h3
  have hser := Q.serial_eq hu s h1 h2 h3
  refine ⟨?_, fun schedule σ h => ⟨fun hr => ?_, fun hr => ?_⟩, C64_ends _ _ hJ _ _ hc⟩
  · obtain ⟨q, hq, _⟩ := hJ.serial_upTo s.entries Q.nFrames le_rfl
    have hq : (Q.jobs s.bw).serial s.entries = _ := hq
    rw [hser, hq]
    exact ⟨_, rfl⟩
  · have h4 := ((C64_pipeline _ _ hJ _ _ hc schedule σ h).1 hr).1
    unfold SequenceBlocks.parallel
    have h : (PipeState.init (⟨s.Rb, s.Rc, s.y⟩ : BandRows) tasks).run (Q.jobs s.bw) tasks schedule = some σ := h
    rw [h, hser]
    simp only [Option.bind_eq_bind, Option.bind_some]
    rw [h4]
    cases (Q.jobs s.bw).serial s.entries <;> rfl
  · exact (C64_pipeline _ _ hJ _ _ hc schedule σ h).2 hr

/-- Three frames in two tasks: the hypotheses are met. -/
example : TasksCover 3 [(1, 3), (0, 1)] := by
  intro f hf
  rcases f with _ | _ | _ | f
  · refine ⟨1, ⟨(0, 1), rfl, by decide, by decide⟩, ?_⟩
    rintro t ⟨range, h1, h2, h3⟩
    rcases t with _ | _ | t
    · simp at h1; subst h1; simp at h2
    · rfl
    · simp at h1
  · refine ⟨0, ⟨(1, 3), rfl, by decide, by decide⟩, ?_⟩
    rintro t ⟨range, h1, h2, h3⟩
    rcases t with _ | _ | t
    · rfl
    · simp at h1; subst h1; simp at h3
    · simp at h1
  · refine ⟨0, ⟨(1, 3), rfl, by decide, by decide⟩, ?_⟩
    rintro t ⟨range, h1, h2, h3⟩
    rcases t with _ | _ | t
    · rfl
    · simp at h1; subst h1; simp at h3
    · simp at h1
  · omega

/-- A small pipeline: the part of frame `f` is a list of the columns done, the common part a list of the frames absorbed. -/
def exJobs : FrameJobs ((Nat → List Nat) × List Nat) Nat Nat Nat where
  nFrames := 3
  start := fun f => 10 * f
  steps := fun _ => 2
  step := fun f k s l => some ((Function.update s.1 f (s.1 f ++ [k]), s.2), l + (s.1 f).length + 1)
  result := fun _ l => l
  error := fun f => f + 1
  addSteps := 1
  addStep := fun _ s r => some ((s.1, s.2 ++ [r]), r)

/-- Its parts. -/
def exView (o : Option Nat) (s : (Nat → List Nat) × List Nat) : List Nat × Option (Nat → List Nat) :=
  match o with
  | some f => (s.1 f, none)
  | none => (s.2, some fun g => if g < 3 then [] else s.1 g)

example : exJobs.Separated exView := by
  refine ⟨?_, fun f k s l _ _ => ⟨_, _, rfl⟩, ?_, ?_, fun k s r _ => ⟨_, _, rfl⟩, ?_, ?_⟩
  · intro s s' h1 h2
    simp only [exView, Prod.mk.injEq, Option.some.injEq, and_true] at h1 h2
    refine Prod.ext (funext fun f => ?_) h2.1
    by_cases hf : f < 3
    · exact h1 f hf
    · have := congrFun h2.2 f
      simpa [hf] using this
  · intro f k s l s' l' hf _ h o ho
    simp only [exJobs, Option.some.injEq, Prod.mk.injEq] at h hf
    obtain ⟨rfl, _⟩ := h
    cases o with
    | some g =>
      have : g ≠ f := fun e => ho (by rw [e])
      simp [exView, Function.update_of_ne this]
    | none =>
      simp only [exView, Prod.mk.injEq, Option.some.injEq, true_and]
      funext g
      split_ifs with hg
      · rfl
      · rw [Function.update_of_ne (by omega)]
  · intro f k s u l s' l' u' m' _ _ hv h h'
    simp only [exJobs, Option.some.injEq, Prod.mk.injEq] at h h'
    obtain ⟨rfl, rfl⟩ := h
    obtain ⟨rfl, rfl⟩ := h'
    simp only [exView, Prod.mk.injEq, and_true] at hv
    simp [exView, hv]
  · intro k s r s' r' _ h o ho
    simp only [exJobs, Option.some.injEq, Prod.mk.injEq] at h
    obtain ⟨rfl, _⟩ := h
    cases o with
    | some g => rfl
    | none => exact absurd rfl ho
  · intro k s u r s' r' u' q' _ hv h h'
    simp only [exJobs, Option.some.injEq, Prod.mk.injEq] at h h'
    obtain ⟨rfl, rfl⟩ := h
    obtain ⟨rfl, rfl⟩ := h'
    simp only [exView, Prod.mk.injEq, Option.some.injEq] at hv
    simp [exView, hv]

/-- A schedule in which the task of frames 1 and 2 goes ahead and waits in the buffer for frame 0, whose task moves all three to
the queue, fails to get the solver and returns; the first task then drains.  The universal parts are absorbed in the order of
the frames. -/
example :
    let schedule : List (Nat × Bool) := List.replicate 15 (0, false) ++ List.replicate 21 (1, true) ++ List.replicate 15 (0, false)
    ((PipeState.init ((fun _ => []), []) [(1, 3), (0, 1)]).run exJobs [(1, 3), (0, 1)] schedule).map
      (fun σ => (σ.next, σ.solver.2, σ.errorSum, σ.ready.length, σ.qrBy)) = some (3, [3, 13, 23], 6, 0, none) := by
  decide +kernel

/-- One in which nobody drains: the calling thread does. -/
example :
    ((PipeState.init ((fun _ => []), []) [(1, 3), (0, 1)]).run exJobs [(1, 3), (0, 1)]
      (List.replicate 13 (1, true) ++ List.replicate 24 (0, true))).map
      (fun σ => (σ.next, σ.solver.2, σ.errorSum, σ.ready.length)) = some (3, [], 0, 3) ∧
    (((PipeState.init ((fun _ => []), []) [(1, 3), (0, 1)]).run exJobs [(1, 3), (0, 1)]
      (List.replicate 13 (1, true) ++ List.replicate 24 (0, true))).bind
      fun σ => (σ.finish exJobs).map fun p => (p.1.2, p.2)) = some ([3, 13, 23], 6) := by
  decide +kernel

/-- Two frames with one parameter each and one universal parameter: the hypotheses of `C64_sequence` are met. -/
example : ∃ (Q : SequenceBlocks Nat) (s : BandQr), Q.universal.Nodup ∧ s.nBand = Q.nFrames * Q.perFrame.length ∧
    s.nCommon = Q.universal.length ∧ Q.perFrame.length ≤ s.bw ∧ Q.nFrames = 2 ∧ Q.universal = [1] :=
  ⟨⟨2, [0], [1], 2, fun _ => 8, fun f c t => f + c + t, fun f t => f * t, fun f => f⟩,
    ⟨2, 1, 1, 1, fun _ _ => 1, fun _ _ => 1, fun _ => 0⟩, by simp, rfl, rfl, le_rfl, rfl, rfl⟩

end Momentum
