import Verif.Lemmas.SequencePipeline3
import Verif.Props.HouseholderQr

/-!
# The serial loop in terms of the solver as a whole
-/

namespace Momentum
open Finset

variable {K : Type}

theorem reflectCols_rel (n m : Nat) (beta : ℝ) (v : Nat → ℝ) (idx : Nat → Nat)
    (hidx : ∀ j < n, ∀ k < n, idx j = idx k → j = k) :
    ∀ (js : List Nat), (∀ j ∈ js, j < n) → ∀ (row : Nat → ℝ) (A A' : Nat → Nat → ℝ), (∀ j < n, A' j = A (idx j)) →
      (reflectCols m beta v (fun j => j) js row A').1 = (reflectCols m beta v idx js row A).1 ∧
      ∀ j < n, (reflectCols m beta v (fun j => j) js row A').2 j = (reflectCols m beta v idx js row A).2 (idx j)
  | [], _, row, A, A', h => ⟨rfl, h⟩
  | j :: js, hjs, row, A, A', h => by
    have hj := hjs j (by simp)
    have := reflectCols_rel n m beta v idx hidx js (fun k hk => hjs k (by simp [hk]))
      (Function.update row j (applyHouseholder m beta v (row j) (A (idx j))).1)
      (Function.update A (idx j) (applyHouseholder m beta v (row j) (A (idx j))).2)
      (Function.update A' j (applyHouseholder m beta v (row j) (A (idx j))).2) (by
        intro k hk
        by_cases hkj : k = j
        · subst hkj; simp
        · rw [Function.update_of_ne hkj, Function.update_of_ne fun e => hkj (hidx k hk j hj e)]
          exact h k hk)
    unfold reflectCols at this ⊢
    simp only [List.foldl_cons]
    rw [h j hj]
    exact this

theorem qrPivot_rel (n m : Nat) (idx : Nat → Nat) (hidx : ∀ j < n, ∀ k < n, idx j = idx k → j = k) {i : Nat} (hi : i < n)
    (R A A' : Nat → Nat → ℝ) (y b : Nat → ℝ) (h : ∀ j < n, A' j = A (idx j)) :
    (qrPivot n m (fun j => j) ⟨R, y, A', b⟩ i).R = (qrPivot n m idx ⟨R, y, A, b⟩ i).R ∧
    (qrPivot n m (fun j => j) ⟨R, y, A', b⟩ i).y = (qrPivot n m idx ⟨R, y, A, b⟩ i).y ∧
    (qrPivot n m (fun j => j) ⟨R, y, A', b⟩ i).b = (qrPivot n m idx ⟨R, y, A, b⟩ i).b ∧
    ∀ j < n, (qrPivot n m (fun j => j) ⟨R, y, A', b⟩ i).A j = (qrPivot n m idx ⟨R, y, A, b⟩ i).A (idx j) := by
  unfold qrPivot
  simp only []
  rw [h i hi]
  generalize householderVec m (R i i) (A (idx i)) = v
  have hu : ∀ j < n, Function.update A' i v.2.2 j = Function.update A (idx i) v.2.2 (idx j) := by
    intro k hk
    by_cases hkj : k = i
    · subst hkj; simp
    · rw [Function.update_of_ne hkj, Function.update_of_ne fun e => hkj (hidx k hk i hi e)]
      exact h k hk
  by_cases h0 : v.1 = 0
  · rw [if_pos h0, if_pos h0]
    exact ⟨rfl, rfl, rfl, hu⟩
  · rw [if_neg h0, if_neg h0]
    have hrel := reflectCols_rel n m v.1 (Function.update A (idx i) v.2.2 (idx i)) idx hidx
      (List.range' (i + 1) (n - (i + 1))) (fun j hj => by rw [List.mem_range'_1] at hj; omega)
      (Function.update (R i) i v.2.1) (Function.update A (idx i) v.2.2) (Function.update A' i v.2.2) hu
    rw [hu i hi]
    refine ⟨?_, ?_, ?_, hrel.2⟩
    · simp only []
      rw [hrel.1]
    · simp only []
      rw [hrel.2 i hi]
    · simp only []
      rw [hrel.2 i hi]

/-- The loop of the last stage on copied columns is the loop of `addMutating(A_common, b)`. -/
theorem commonLoop_rel (nBand n : Nat) (idx : Nat → Nat) (hidx : ∀ j < n, ∀ k < n, idx j = idx k → j = k) (s : BandRows)
    (m : Nat) (A A' : Nat → Nat → ℝ) (b : Nat → ℝ) (h : ∀ j < n, A' j = A (idx j)) :
    ∀ k, k ≤ n → ∃ p : BandRows × CommonBlock,
      (List.range k).foldlM (fun p k => some (commonPivot nBand n k p.1 p.2)) (s, (⟨m, A', b⟩ : CommonBlock)) = some p ∧
      p.1.Rb = s.Rb ∧ p.2.rows = m ∧
      (∀ i j, p.1.Rc i j = if i < nBand then s.Rc i j else ((List.range k).foldl (qrPivot n m idx)
        ⟨fun i j => s.Rc (i + nBand) j, fun i => s.y (nBand + i), A, b⟩).R (i - nBand) j) ∧
      (∀ i, p.1.y i = if i < nBand then s.y i else ((List.range k).foldl (qrPivot n m idx)
        ⟨fun i j => s.Rc (i + nBand) j, fun i => s.y (nBand + i), A, b⟩).y (i - nBand)) ∧
      p.2.b = ((List.range k).foldl (qrPivot n m idx)
        ⟨fun i j => s.Rc (i + nBand) j, fun i => s.y (nBand + i), A, b⟩).b ∧
      ∀ j < n, p.2.A j = ((List.range k).foldl (qrPivot n m idx)
        ⟨fun i j => s.Rc (i + nBand) j, fun i => s.y (nBand + i), A, b⟩).A (idx j)
  | 0, _ => by
    refine ⟨_, rfl, rfl, rfl, fun i j => ?_, fun i => ?_, rfl, h⟩
    · simp only [List.range_zero, List.foldl_nil]
      split_ifs with hi
      · rfl
      · rw [Nat.sub_add_cancel (by omega)]
    · simp only [List.range_zero, List.foldl_nil]
      split_ifs with hi
      · rfl
      · rw [Nat.add_sub_cancel' (by omega)]
  | k + 1, hk => by
    obtain ⟨p, e, p1, p2, p3, p4, p5, p6⟩ := commonLoop_rel nBand n idx hidx s m A A' b h k (by omega)
    rw [List.range_succ, List.foldlM_append, e]
    simp only [List.foldl_append, List.foldl_cons, List.foldl_nil]
    generalize (List.range k).foldl (qrPivot n m idx) ⟨fun i j => s.Rc (i + nBand) j, fun i => s.y (nBand + i), A, b⟩ = w
      at p3 p4 p5 p6
    have e1 : (fun i j => p.1.Rc (i + nBand) j) = w.R := by
      funext i j
      rw [p3, if_neg (by omega), Nat.add_sub_cancel]
    have e2 : (fun i => p.1.y (nBand + i)) = w.y := by
      funext i
      rw [p4, if_neg (by omega), Nat.add_sub_cancel_left]
    obtain ⟨q1, q2, q3, q4⟩ := qrPivot_rel n m idx hidx (i := k) (by omega) w.R w.A p.2.A w.y w.b p6
    refine ⟨commonPivot nBand n k p.1 p.2, rfl, ?_, ?_, ?_, ?_, ?_, ?_⟩
    · exact p1
    · exact p2
    · intro i j
      simp only [commonPivot, e1, e2, p2, p5, q1]
      split_ifs with hi
      · rw [p3, if_pos hi]
      · rfl
    · intro i
      simp only [commonPivot, e1, e2, p2, p5, q2]
      split_ifs with hi
      · rw [p4, if_pos hi]
      · rfl
    · simp only [commonPivot, e1, e2, p2, p5, q3]
    · intro j hj
      simp only [commonPivot, e1, e2, p2, p5]
      exact q4 j hj

/-- The loop over the columns of a frame is the loop of `zeroBandedPart`. -/
theorem SequenceBlocks.workUpTo_eq (Q : SequenceBlocks K) (bw f : Nat) (ks : List Nat) :
    ∀ (w : BandWork), ks.foldlM (fun p i => (Q.jobs bw).step f i p.1 p.2)
        ((⟨w.Rb, w.Rc, w.y⟩ : BandRows), (⟨w.Ab, w.Ac, w.b⟩ : BandBlock)) =
      (ks.foldlM (bandPivot bw Q.universal.length Q.perFrame.length (Q.rows f) (f * Q.perFrame.length) (Q.band f).idx
        (Q.common f).idx) w).map fun w => (⟨w.Rb, w.Rc, w.y⟩, ⟨w.Ab, w.Ac, w.b⟩) := by
  induction ks with
  | nil => intro w; rfl
  | cons k ks ih =>
    intro w
    simp only [List.foldlM_cons]
    cases h : bandPivot bw Q.universal.length Q.perFrame.length (Q.rows f) (f * Q.perFrame.length) (Q.band f).idx
        (Q.common f).idx w k with
    | none => simp [SequenceBlocks.jobs, h]
    | some w' =>
      have : (Q.jobs bw).step f k ⟨w.Rb, w.Rc, w.y⟩ ⟨w.Ab, w.Ac, w.b⟩ =
          some (⟨w'.Rb, w'.Rc, w'.y⟩, ⟨w'.Ab, w'.Ac, w'.b⟩) := by
        simp [SequenceBlocks.jobs, h]
      simp only [this, Option.bind_eq_bind, Option.bind_some]
      exact ih w'

/-- The entries of a solver that change. -/
def BandQr.entries (s : BandQr) : BandRows := ⟨s.Rb, s.Rc, s.y⟩

/-- A solver with other entries. -/
def BandQr.withEntries (s : BandQr) (r : BandRows) : BandQr := { s with Rb := r.Rb, Rc := r.Rc, y := r.y }

theorem SequenceBlocks.serialStep_eq [Add K] (Q : SequenceBlocks K) (hu : Q.universal.Nodup) (s : BandQr)
    (h1 : s.nBand = Q.nFrames * Q.perFrame.length) (h2 : s.nCommon = Q.universal.length) (h3 : Q.perFrame.length ≤ s.bw)
    {f : Nat} (hf : f < Q.nFrames) (e : K) :
    (do
      let s' ← s.add (f * Q.perFrame.length) (Q.band f) (Q.common f) (Q.rows f) (Q.residual f)
      some (s', e + Q.error f)) =
    ((Q.jobs s.bw).serialStep (s.entries, e) f).map fun p => (s.withEntries p.1, p.2) := by
  have hbc : (Q.band f).cols = Q.perFrame.length := rfl
  have hcc : (Q.common f).cols = Q.universal.length := rfl
  have hfit : f * Q.perFrame.length + Q.perFrame.length ≤ s.nBand := by
    rw [h1]
    calc f * Q.perFrame.length + Q.perFrame.length = (f + 1) * Q.perFrame.length := by ring
      _ ≤ _ := Nat.mul_le_mul_right _ hf
  have hidx : ∀ j < Q.universal.length, ∀ k < Q.universal.length, (Q.common f).idx j = (Q.common f).idx k → j = k :=
    ColMat.idx_inj (A := Q.common f) fun _ => hu
  obtain ⟨q, hq⟩ := (Q.separated h3).workUpTo_some s.entries (f := f) hf Q.perFrame.length le_rfl
  have hq' := hq
  unfold FrameJobs.workUpTo at hq'
  have hw := Q.workUpTo_eq s.bw f (List.range Q.perFrame.length) ⟨s.Rb, s.Rc, s.y, Q.jacobian f, Q.jacobian f, Q.residual f⟩
  have hst : ((s.entries, (Q.jobs s.bw).start f) : BandRows × BandBlock) =
    (⟨s.Rb, s.Rc, s.y⟩, ⟨Q.jacobian f, Q.jacobian f, Q.residual f⟩) := rfl
  rw [hst] at hq'
  rw [hq'] at hw
  cases hz : (List.range Q.perFrame.length).foldlM (bandPivot s.bw Q.universal.length Q.perFrame.length (Q.rows f)
      (f * Q.perFrame.length) (Q.band f).idx (Q.common f).idx) ⟨s.Rb, s.Rc, s.y, Q.jacobian f, Q.jacobian f, Q.residual f⟩ with
  | none => rw [hz] at hw; simp at hw
  | some w =>
    rw [hz] at hw
    simp only [Option.map_some, Option.some.injEq] at hw
    subst hw
    have hzero : s.zeroBandedPart (f * Q.perFrame.length) (Q.band f) (Q.common f) (Q.rows f) (Q.residual f) =
        some ({ s with Rb := w.Rb, Rc := w.Rc, y := w.y }, { Q.common f with e := w.Ac }, w.b) := by
      unfold BandQr.zeroBandedPart
      rw [if_neg (by simp [SequenceBlocks.band, SequenceBlocks.common]), if_neg (by rw [hbc]; omega),
        if_neg (by rw [hbc]; omega), if_neg (by rw [hcc]; omega), hbc, h2]
      have : (Q.band f).rows = Q.rows f := rfl
      rw [this]
      have he1 : (Q.band f).e = Q.jacobian f := rfl
      have he2 : (Q.common f).e = Q.jacobian f := rfl
      rw [he1, he2, hz]
      rfl
    have hstep : (Q.jobs s.bw).serialStep (s.entries, e) f =
        (Q.jobs s.bw).absorb (⟨w.Rb, w.Rc, w.y⟩, e) ⟨f, (Q.jobs s.bw).result f ⟨w.Ab, w.Ac, w.b⟩, Q.error f⟩ := by
      unfold FrameJobs.serialStep
      have : (Q.jobs s.bw).steps f = Q.perFrame.length := rfl
      simp only [this, hq, Option.bind_eq_bind, Option.bind_some]
      rfl
    rw [hstep]
    unfold BandQr.add
    rw [hzero]
    simp only [Option.bind_eq_bind, Option.bind_some]
    unfold BandQr.addCommon
    have hcols : ({ Q.common f with e := w.Ac } : ColMat).cols = Q.universal.length := rfl
    rw [if_neg (by rw [hcols]; simp [h2]), if_neg (by simp [SequenceBlocks.common])]
    simp only [Option.bind_some]
    unfold FrameJobs.absorb FrameJobs.addAll
    by_cases hU : Q.universal = []
    · have hl : Q.universal.length = 0 := by rw [hU]; rfl
      have hadd : (Q.jobs s.bw).addSteps = 0 := hl
      simp only [hadd, List.range_zero, List.foldlM_nil, h2, hl, List.foldl_nil]
      simp only [Option.pure_def, Option.bind_eq_bind, Option.bind_some, Option.map_some, BandQr.withEntries,
        Option.some.injEq, Prod.mk.injEq, and_true]
      congr 1
      · omega
      · funext i j
        split_ifs with hi
        · rfl
        · rw [Nat.sub_add_cancel (by omega)]
      · funext i
        split_ifs with hi
        · rfl
        · rw [Nat.add_sub_cancel' (by omega)]
    · have hres : (Q.jobs s.bw).result f ⟨w.Ab, w.Ac, w.b⟩ = ⟨Q.rows f, fun j => w.Ac ((Q.common f).idx j), w.b⟩ := by
        simp [SequenceBlocks.jobs, hU]
      obtain ⟨p, e1, p1, p2, p3, p4, p5, p6⟩ := commonLoop_rel (Q.nFrames * Q.perFrame.length) Q.universal.length
        (Q.common f).idx hidx ⟨w.Rb, w.Rc, w.y⟩ (Q.rows f) w.Ac (fun j => w.Ac ((Q.common f).idx j)) w.b (fun _ _ => rfl)
        Q.universal.length le_rfl
      have hloop : (List.range (Q.jobs s.bw).addSteps).foldlM (fun p k => (Q.jobs s.bw).addStep k p.1 p.2)
          ((⟨w.Rb, w.Rc, w.y⟩ : BandRows), (Q.jobs s.bw).result f ⟨w.Ab, w.Ac, w.b⟩) = some p := by
        rw [hres]
        exact e1
      simp only [hloop, Option.bind_eq_bind, Option.bind_some, Option.map_some, BandQr.withEntries, Option.some.injEq,
        Prod.mk.injEq, and_true, h1, h2]
      congr 1
      · exact p1.symm
      · funext i j
        rw [p3]
        rfl
      · funext i
        rw [p4]
        rfl

theorem SequenceBlocks.serial_eq [Add K] [Zero K] (Q : SequenceBlocks K) (hu : Q.universal.Nodup) (s : BandQr)
    (h1 : s.nBand = Q.nFrames * Q.perFrame.length) (h2 : s.nCommon = Q.universal.length)
    (h3 : Q.perFrame.length ≤ s.bw) :
    Q.serial s = ((Q.jobs s.bw).serial s.entries).map fun p => (s.withEntries p.1, p.2) := by
  have key : ∀ (fs : List Nat), (∀ f ∈ fs, f < Q.nFrames) → ∀ (u : BandRows) (e : K),
      fs.foldlM (fun (p : BandQr × K) f => do
        let s' ← p.1.add (f * Q.perFrame.length) (Q.band f) (Q.common f) (Q.rows f) (Q.residual f)
        some (s', p.2 + Q.error f)) (s.withEntries u, e) =
      (fs.foldlM (Q.jobs s.bw).serialStep (u, e)).map fun p => (s.withEntries p.1, p.2) := by
    intro fs
    induction fs with
    | nil => intro _ u e; rfl
    | cons f fs ih =>
      intro hfs u e
      simp only [List.foldlM_cons]
      have := Q.serialStep_eq hu (s.withEntries u) h1 h2 h3 (hfs f (by simp)) e
      have hbw : (s.withEntries u).bw = s.bw := rfl
      have hen : (s.withEntries u).entries = u := rfl
      rw [this, hbw, hen]
      cases hq : (Q.jobs s.bw).serialStep (u, e) f with
      | none => rfl
      | some p =>
        simp only [Option.map_some, Option.bind_eq_bind, Option.bind_some]
        exact ih (fun g hg => hfs g (by simp [hg])) p.1 p.2
  exact key (List.range Q.nFrames) (fun f hf => List.mem_range.mp hf) s.entries 0

end Momentum
