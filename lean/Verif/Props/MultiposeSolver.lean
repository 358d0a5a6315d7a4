import Verif.Lemmas.Multipose3
import Verif.Props.Multipose
import Verif.Props.SequenceSolver

/-!
# C66: an iteration of the multipose solver
-/

namespace Momentum
open Finset

namespace MultiposeSolver
variable {s : MultiposeSolver}

/-- The Jacobian and residual of all poses at the solver's parameters, as `getJacobian` reports them into new matrices. -/
noncomputable def jacobian (s : MultiposeSolver) : JacobianResult :=
  let r := s.fn.getJacobian s.parameters ⟨0, 0, fun _ _ => 0, fun _ => 0⟩
  ⟨r.1, r.2.1, r.2.2.1.e, r.2.2.1.residual⟩

/-- What an iteration relies on: the lists of parameters are those of the constructor, Jacobians fit into the rows announced, and
every pose has an error function with positive weight. -/
structure Ready (s : MultiposeSolver) : Prop where
  laid : s.fn.Laid
  rows : s.fn.RowsFit s.parameters
  everyPose : ∀ f < s.fn.nFrames, ∃ F ∈ s.fn.frameErrors f, 0 < F.weight
  regularization : 0 ≤ s.regularization

theorem multi_fresh (M : MultiposeFunction) : M.Fresh ⟨0, 0, fun _ _ => 0, fun _ => 0⟩ := Or.inl ⟨fun _ _ => rfl, fun _ => rfl⟩

theorem setJoined_setJoined_multi {M : MultiposeFunction} (h : M.Laid) (v w : Nat → ℝ) :
    (M.setJoined v).setJoined w = M.setJoined w := by
  have e1 := MultiposeFunction.setJoined_asSequence (MultiposeFunction.setJoined_laid h v) w
  rw [MultiposeFunction.setJoined_asSequence h, SequenceSolver.setJoined_setJoined h.sets,
    ← MultiposeFunction.setJoined_asSequence h] at e1
  have e2 : ((M.setJoined v).setJoined w).frames = (M.setJoined w).frames := congrArg SequenceFunction.frames e1
  unfold MultiposeFunction.setJoined at e2 ⊢
  dsimp only at e2 ⊢
  rw [e2]

section
variable {q : BlockQr}

theorem Ready.sum (h : s.Ready) (htot : q.total = s.fn.generic.length * s.fn.nFrames)
    (hsz : ∀ f < s.fn.nFrames, q.size f = s.fn.generic.length) {φ : (Nat → ℝ) → ℝ → ℝ} (h0 : φ (fun _ => 0) 0 = 0)
    (hφ : SequenceFunction.LooksAt s.fn.numParameters φ) :
    SequenceFunction.histSum φ (blockHistory q (s.fn.calls s.parameters)) =
      ∑ t ∈ range s.jacobian.rows, φ (fun j => s.jacobian.e j t) (s.jacobian.residual t) :=
  MultiposeFunction.calls_sum h.laid h.rows (multi_fresh s.fn) htot hsz h0 hφ

theorem Ready.objective (h : s.Ready) (htot : q.total = s.fn.generic.length * s.fn.nFrames)
    (hsz : ∀ f < s.fn.nFrames, q.size f = s.fn.generic.length) (x : Nat → ℝ) :
    Momentum.objective s.fn.numParameters (Real.sqrt s.regularization) (blockHistory q (s.fn.calls s.parameters)) x =
      dampedSquares s.fn.numParameters s.regularization s.jacobian x := by
  rw [SequenceFunction.objective_hist, h.sum htot hsz, Real.sq_sqrt h.regularization]
  · rfl
  · simp
  · intro a a' b hab
    dsimp only
    rw [sum_congr rfl fun j hj => by rw [hab j (mem_range.1 hj)]]

theorem Ready.fullRank (h : s.Ready) (htot : q.total = s.fn.generic.length * s.fn.nFrames)
    (hsz : ∀ f < s.fn.nFrames, q.size f = s.fn.generic.length)
    (hd : Determined s.fn.numParameters s.regularization s.jacobian) :
    FullRank s.fn.numParameters (Real.sqrt s.regularization) (blockHistory q (s.fn.calls s.parameters)) := by
  rcases hd with hd | hd
  · exact C27_regularised _ _ (Real.sqrt_pos.2 hd).ne' _
  · intro x _ hx
    apply hd x
    have key := h.sum htot hsz (φ := fun a _ => (∑ j ∈ range s.fn.numParameters, a j * x j) ^ 2) (by simp) (by
      intro a a' b hab
      dsimp only
      rw [sum_congr rfl fun j hj => by rw [hab j (mem_range.1 hj)]])
    have hz : SequenceFunction.histSum (fun a _ => (∑ j ∈ range s.fn.numParameters, a j * x j) ^ 2)
        (blockHistory q (s.fn.calls s.parameters)) = 0 := by
      unfold SequenceFunction.histSum
      apply List.sum_eq_zero
      intro y hy
      obtain ⟨r, hr, rfl⟩ := List.mem_map.1 hy
      apply sum_eq_zero
      intro t ht
      show (∑ j ∈ range s.fn.numParameters, r.a t j * x j) ^ 2 = 0
      rw [hx r hr t (mem_range.1 ht)]
      ring
    rw [hz] at key
    have := (sum_eq_zero_iff_of_nonneg fun t _ => sq_nonneg _).1 key.symm
    intro t ht
    exact pow_eq_zero_iff (two_ne_zero) |>.1 (this t (mem_range.2 ht))

end

/-- **C66 (step), partial.**  If every pose has an error function with positive weight, and skipping columns by the absolute
tolerance `tol` made no difference, an iteration subtracts from the joined parameters the only minimiser of
`ρ |d|² + |J d - r|²` for the Jacobian and residual of all poses, and reports the error before the step.  Afterwards the parameters
of the poses are those of the new joined vector.  Missing: poses without error function, for which the iteration fails
(`C66_idle_pose_counterexample`), and columns of tiny entries (`C28_block_tolerance_counterexample`). -/
theorem C66_step_partial (tol : ℝ) (h : s.Ready) (htol : s.assemble tol = s.assemble 0)
    (hd : Determined s.fn.numParameters s.regularization s.jacobian) :
    ∃ s' d, s.doIteration tol = some (s', s.jacobian.error) ∧
      OnlyMinimiser s.fn.numParameters s.regularization s.jacobian d ∧
      (∀ j, s'.parameters j = s.parameters j - d j) ∧ s'.fn = s.fn.setJoined s'.parameters := by
  obtain ⟨q, hq⟩ := MultiposeFunction.calls_defined s.fn s.parameters 0 (Real.sqrt s.regularization)
  obtain ⟨n1, n2, n3, n4, n5, n6⟩ := MultiposeFunction.calls_shape h.laid s.parameters h.everyPose hq
  have hass := MultiposeFunction.assemble_eq 0 s
  rw [hq, MultiposeFunction.calls_error h.laid h.rows (multi_fresh s.fn)] at hass
  have hn : q.total + s.fn.universal.length = s.fn.numParameters := by rw [n3]; rfl
  obtain ⟨m1, -⟩ := C28_block_minimiser_partial 0 s.fn.universal.length (Real.sqrt s.regularization) _
    (MultiposeFunction.calls_distinct h.laid s.parameters) q hq rfl (by rw [hn]; exact h.fullRank n3 n2 hd)
  rw [hn] at m1
  simp only [h.objective n3 n2] at m1
  refine ⟨{ s with
    parameters := fun j => s.parameters j - q.xDense j
    fn := (s.fn.setJoined s.parameters).setJoined fun j => s.parameters j - q.xDense j }, q.xDense, ?_, m1, fun _ => rfl,
    setJoined_setJoined_multi h.laid s.parameters fun j => s.parameters j - q.xDense j⟩
  classical
  unfold doIteration
  rw [htol, hass]
  show (if ¬ q.NoGap then none else if q.off q.nBlocks + q.nCommon ≠ s.fn.numParameters then none else _) = _
  rw [if_neg (not_not.2 n6), if_neg (not_not.2 (by rw [n4, n5]; rfl))]
  rfl

/-! ### What is not true -/

/-- The shape of the solver after a history, with any tolerance. -/
theorem blockRun_shape {tol : ℝ} {nCommon : Nat} {lambda : ℝ} {calls : List BlockCall} {q : BlockQr}
    (hrun : blockRun tol nCommon lambda calls = some q) (n : Nat) (hn : ∀ c ∈ calls, c.i < n) : q.nBlocks ≤ n ∧
      ∀ i, (q.blk i).n = 0 ∨ ∃ c ∈ calls, c.i = i ∧ (q.blk i).n = c.Ai.cols := by
  induction calls using List.reverseRecOn generalizing q with
  | nil => cases hrun; exact ⟨Nat.zero_le _, fun i => Or.inl rfl⟩
  | append_singleton calls c ih =>
    rw [blockRun_snoc] at hrun
    obtain ⟨s0, h0, hadd⟩ := Option.bind_eq_some_iff.1 hrun
    obtain ⟨n1, n2⟩ := ih h0 fun c hc => hn c (by simp [hc])
    unfold BlockQr.add at hadd
    split at hadd
    · cases hadd
    split at hadd
    · cases hadd
    split at hadd
    · cases hadd
    obtain ⟨B, hB, hadd⟩ := Option.bind_eq_some_iff.1 hadd
    simp only [Option.some.injEq] at hadd
    subst hadd
    have hBn : B.n = c.Ai.cols := by
      unfold BlockQr.open at hB
      split_ifs at hB with g1 g2
      · rw [← Option.some.inj hB]
      · rw [← Option.some.inj hB]; exact g2
    refine ⟨max_le n1 (hn c (by simp)), fun i => ?_⟩
    by_cases hic : i = c.i
    · subst hic
      refine Or.inr ⟨c, by simp, rfl, ?_⟩
      show (Function.update s0.blk c.i _ c.i).n = _
      rw [Function.update_self]; exact hBn
    · have : (Function.update s0.blk c.i { B with
          Rii := ((List.range c.Ai.cols).foldl (blockPivot tol s0.nCommon c.Ai.cols c.Ai.rows c.Ai.idx c.An.idx)
            ⟨B.Rii, B.Rin, B.y, c.Ai.e, c.An.e, c.b⟩).Rii
          Rin := ((List.range c.Ai.cols).foldl (blockPivot tol s0.nCommon c.Ai.cols c.Ai.rows c.Ai.idx c.An.idx)
            ⟨B.Rii, B.Rin, B.y, c.Ai.e, c.An.e, c.b⟩).Rin
          y := ((List.range c.Ai.cols).foldl (blockPivot tol s0.nCommon c.Ai.cols c.Ai.rows c.Ai.idx c.An.idx)
            ⟨B.Rii, B.Rin, B.y, c.Ai.e, c.An.e, c.b⟩).y } i).n = (s0.blk i).n := by
        rw [Function.update_of_ne hic]
      rcases n2 i with h0 | ⟨c', hc', e1, e2⟩
      · exact Or.inl (this.trans h0)
      · exact Or.inr ⟨c', by simp [hc'], e1, this.trans e2⟩

/-- **C66 (step) fails for a pose without error functions.**  The block solver does not know of that pose and returns too few
unknowns, or its blocks do not fit; either way a size check fails. -/
theorem C66_idle_pose_counterexample (tol : ℝ) (s : MultiposeSolver) (f : Nat) (hf : f < s.fn.nFrames)
    (hidle : ∀ F ∈ s.fn.frameErrors f, ¬ 0 < F.weight) (hg : s.fn.generic ≠ []) : s.doIteration tol = none := by
  obtain ⟨q, hq⟩ := MultiposeFunction.calls_defined s.fn s.parameters tol (Real.sqrt s.regularization)
  have hlt : ∀ c ∈ s.fn.calls s.parameters, c.i < s.fn.nFrames ∧ c.i ≠ f ∧ c.Ai.cols = s.fn.generic.length := by
    intro c hc
    obtain ⟨T, hT, rfl⟩ := List.mem_map.1 hc
    obtain ⟨m1, m2, m3⟩ := MultiposeFunction.mem_pairs hT
    refine ⟨m1, fun e => hidle T.2 ?_ m3, rfl⟩
    have e : T.1 = f := e
    rw [← e]; exact m2
  obtain ⟨n1, n2⟩ := blockRun_shape hq s.fn.nFrames fun c hc => (hlt c hc).1
  have nC := (MultiposeFunction.blockRun_nIn hq).1
  have hsize : ∀ i, (q.blk i).n ≤ if i = f then 0 else s.fn.generic.length := by
    intro i
    rcases n2 i with h0 | ⟨c, hc, e1, e2⟩
    · rw [h0]; exact Nat.zero_le _
    · rw [if_neg (by rw [← e1]; exact (hlt c hc).2.1), e2, (hlt c hc).2.2]
  have hoff : q.off q.nBlocks < s.fn.generic.length * s.fn.nFrames := by
    calc q.off q.nBlocks ≤ ∑ i ∈ range s.fn.nFrames, (q.blk i).n :=
          sum_le_sum_of_subset (range_subset_range.2 n1)
      _ ≤ ∑ i ∈ range s.fn.nFrames, if i = f then 0 else s.fn.generic.length := sum_le_sum fun i _ => hsize i
      _ < ∑ i ∈ range s.fn.nFrames, s.fn.generic.length := by
          refine sum_lt_sum (fun i _ => ?_) ⟨f, mem_range.2 hf, ?_⟩
          · split_ifs
            · exact Nat.zero_le _
            · exact le_rfl
          · rw [if_pos rfl]; exact List.length_pos_iff.2 hg
      _ = s.fn.generic.length * s.fn.nFrames := by rw [sum_const, card_range, smul_eq_mul, Nat.mul_comm]
  classical
  unfold doIteration
  rw [MultiposeFunction.assemble_eq, hq]
  show (if ¬ q.NoGap then none else if q.off q.nBlocks + q.nCommon ≠ s.fn.numParameters then none else _) = none
  split_ifs with h1 h2
  · rfl
  · exfalso
    rw [nC] at h2
    unfold MultiposeFunction.numParameters at h2
    omega
  · rfl

/-! ### When the tolerance makes no difference -/

theorem blockPivot_tol {tol : ℝ} {nCommon k m : Nat} {idxI idxC : Nat → Nat} {w : BlockWork} {i : Nat}
    (h : (∃ t < m, tol < |w.Ai (idxI i) t| ∧ 0 < |w.Ai (idxI i) t|)) :
    blockPivot tol nCommon k m idxI idxC w i = blockPivot 0 nCommon k m idxI idxC w i := by
  obtain ⟨t, ht, h1, h2⟩ := h
  unfold blockPivot
  have g1 : ¬ ∀ t < m, |w.Ai (idxI i) t| ≤ tol := fun hc => absurd (hc t ht) (not_le.2 h1)
  have g2 : ¬ ∀ t < m, |w.Ai (idxI i) t| ≤ 0 := fun hc => absurd (hc t ht) (not_le.2 h2)
  rw [if_neg g1, if_neg g2]

/-- With one generic parameter, the tolerance makes no difference if every error function has an entry above it in the column of
that parameter. -/
theorem assemble_tol (tol : ℝ) (h0 : 0 ≤ tol) (g : Nat) (hg : s.fn.generic = [g])
    (hrow : ∀ f < s.fn.nFrames, ∀ F ∈ s.fn.frameErrors f, 0 < F.weight →
      ∃ t < (F.getJacobian ((s.fn.setJoined s.parameters).frames f)).rows,
        t < F.jacobianSize ∧ tol < |(F.getJacobian ((s.fn.setJoined s.parameters).frames f)).e g t|) :
    s.assemble tol = s.assemble 0 := by
  rw [MultiposeFunction.assemble_eq, MultiposeFunction.assemble_eq]
  congr 1
  unfold blockRun
  apply SequenceFunction.foldlM_congr_mem
  intro q c hc
  obtain ⟨T, hT, rfl⟩ := List.mem_map.1 hc
  obtain ⟨m1, m2, m3⟩ := MultiposeFunction.mem_pairs hT
  obtain ⟨t, t1, t2, t3⟩ := hrow T.1 m1 T.2 m2 m3
  have hpad := SequenceFunction.pad_ge T.2.jacobianSize
  unfold BlockQr.add
  have hcols : (s.fn.call s.parameters T).Ai.cols = 1 := by
    show s.fn.generic.length = 1
    rw [hg]; rfl
  rw [hcols]
  have hk : ∀ B : Blk, (List.range 1).foldl (blockPivot tol q.nCommon 1 (s.fn.call s.parameters T).Ai.rows
      (s.fn.call s.parameters T).Ai.idx (s.fn.call s.parameters T).An.idx)
      ⟨B.Rii, B.Rin, B.y, (s.fn.call s.parameters T).Ai.e, (s.fn.call s.parameters T).An.e, (s.fn.call s.parameters T).b⟩ =
    (List.range 1).foldl (blockPivot 0 q.nCommon 1 (s.fn.call s.parameters T).Ai.rows
      (s.fn.call s.parameters T).Ai.idx (s.fn.call s.parameters T).An.idx)
      ⟨B.Rii, B.Rin, B.y, (s.fn.call s.parameters T).Ai.e, (s.fn.call s.parameters T).An.e, (s.fn.call s.parameters T).b⟩ := by
    intro B
    show blockPivot tol q.nCommon 1 _ _ _ _ 0 = blockPivot 0 q.nCommon 1 _ _ _ _ 0
    apply blockPivot_tol
    have hidx : (s.fn.call s.parameters T).Ai.idx 0 = g := by
      show s.fn.generic.getD 0 0 = g
      rw [hg]; rfl
    have he : (s.fn.call s.parameters T).Ai.e g t = (T.2.getJacobian ((s.fn.setJoined s.parameters).frames T.1)).e g t := if_pos t1
    refine ⟨t, Nat.lt_of_lt_of_le t2 hpad, ?_⟩
    show tol < |(s.fn.call s.parameters T).Ai.e ((s.fn.call s.parameters T).Ai.idx 0) t| ∧
      0 < |(s.fn.call s.parameters T).Ai.e ((s.fn.call s.parameters T).Ai.idx 0) t|
    rw [hidx, he]
    exact ⟨t3, lt_of_le_of_lt h0 t3⟩
  simp only [hk]

/-! ### Examples -/

/-- The square of the sum of two parameters, less `c`. -/
noncomputable def exPair (c : ℝ) : ErrorFunction where
  weight := 1
  jacobianSize := 1
  getError p := (p 0 + p 1 - c) ^ 2
  getGradient p := ((p 0 + p 1 - c) ^ 2, fun i => if i < 2 then 2 * (p 0 + p 1 - c) else 0)
  getJacobian p := ⟨(p 0 + p 1 - c) ^ 2, 1, fun i _ => if i < 2 then 1 else 0, fun _ => p 0 + p 1 - c⟩

theorem exPair_sum (p : Nat → ℝ) (i : Nat) (c : ℝ) :
    HasDerivAt (fun u : ℝ => Function.update p i u 0 + Function.update p i u 1 - c) (if i < 2 then 1 else 0) (p i) := by
  rcases i with _ | _ | i
  · simpa [Function.update_of_ne] using ((hasDerivAt_id' (p 0)).add_const (p 1)).sub_const c
  · simpa [Function.update_of_ne] using ((hasDerivAt_id' (p 1)).const_add (p 0)).sub_const c
  · rw [if_neg (by omega)]
    simpa [Function.update_of_ne] using hasDerivAt_const (p (i + 1 + 1)) (p 0 + p 1 - c)

theorem exPair_jacobian (c : ℝ) (p : Nat → ℝ) (i : Nat) : (exPair c).JacobianIsDerivative p i :=
  ⟨rfl, le_rfl, fun _ => rfl, fun u => by simp [exPair], fun t _ => exPair_sum p i c⟩

theorem exPair_gradient (c : ℝ) (p : Nat → ℝ) (i : Nat) : (exPair c).GradientIsDerivative p i := by
  refine ⟨rfl, ?_⟩
  have := (exPair_sum p i c).pow 2
  refine this.congr_deriv ?_
  rw [Function.update_eq_self]
  show _ = if i < 2 then 2 * (p 0 + p 1 - c) else 0
  split_ifs <;> push_cast <;> ring

/-- Two poses of two parameters, the second universal, with the joined vector `(7, 8, 9)`.  The terms are `g₀ + u - 1`,
`g₁ + u - 3` and `g₁`. -/
noncomputable def exPoses : MultiposeSolver :=
  ⟨0, fun j => 7 + j, { MultiposeFunction.make 2 (fun i => i == 1) 2 with
    frameErrors := fun f => if f = 0 then [exPair 1] else [exPair 3, SequenceFunction.exSq] }⟩

theorem exPoses_mem {f : Nat} {F : ErrorFunction} (hF : F ∈ exPoses.fn.frameErrors f) :
    F = exPair 1 ∨ F = exPair 3 ∨ F = SequenceFunction.exSq := by
  by_cases hf : f = 0
  · left; simpa [exPoses, hf] using hF
  · right; simpa [exPoses, hf] using hF

theorem exPoses_laid : exPoses.fn.Laid := by
  obtain ⟨⟨h1, h2, h3, h4⟩, h5⟩ := MultiposeFunction.make_laid 2 (fun i => i == 1) 2
  exact ⟨⟨h1, h2, h3, h4⟩, h5⟩

theorem exPoses_ready : exPoses.Ready := by
  refine ⟨exPoses_laid, ?_, ?_, le_rfl⟩
  · intro f _ F hF _
    rcases exPoses_mem hF with rfl | rfl | rfl <;> exact le_rfl
  · intro f _
    by_cases hf : f = 0
    · exact ⟨exPair 1, by simp [exPoses, hf], by norm_num [exPair]⟩
    · exact ⟨exPair 3, by simp [exPoses, hf], by norm_num [exPair]⟩

open MultiposeFunction in
theorem exPoses_jacobian : exPoses.jacobian.rows = 8 ∧ exPoses.jacobian.error = 225 + 196 + 64 ∧
    (∀ t, exPoses.jacobian.e 0 t = if t = 0 then 1 else 0) ∧ (∀ t, exPoses.jacobian.e 1 t = if t = 1 ∨ t = 2 then 1 else 0) ∧
    (∀ t, exPoses.jacobian.e 2 t = if t = 0 ∨ t = 1 then 1 else 0) ∧
    ∀ t, exPoses.jacobian.residual t = if t = 0 then 15 else if t = 1 then 14 else if t = 2 then 8 else 0 := by
  refine ⟨?_, ?_, fun t => ?_, fun t => ?_, fun t => ?_, fun t => ?_⟩
  · simp [exPoses, jacobian, MultiposeFunction.getJacobian, jacobianSize, make, mapStep, MultiposeFunction.setJoined,
      List.range_succ, weighted, exPair, SequenceFunction.exSq, padForSSE]
  · simp [exPoses, jacobian, MultiposeFunction.getJacobian, jacobianSize, make, mapStep, MultiposeFunction.setJoined,
      List.range_succ, weighted, exPair, SequenceFunction.exSq, padForSSE, jacFrame, jacTermStep, slot]
    norm_num
  all_goals
    rcases t with _ | _ | _ | t <;>
    · simp [exPoses, jacobian, MultiposeFunction.getJacobian, jacobianSize, make, mapStep, MultiposeFunction.setJoined,
        List.range_succ, weighted, exPair, SequenceFunction.exSq, padForSSE, jacFrame, jacTermStep, slot, resizeBuffers,
        MultiposeFunction.numParameters, SequenceFunction.setColumn, Function.update]
      try norm_num

theorem exPoses_determined : Determined exPoses.fn.numParameters exPoses.regularization exPoses.jacobian := by
  obtain ⟨h0, -, h1, h2, h3, -⟩ := exPoses_jacobian
  right
  intro x hx j hj
  have hj : j < 3 := hj
  rw [h0] at hx
  have e0 := hx 0 (by norm_num)
  have e1 := hx 1 (by norm_num)
  have e2 := hx 2 (by norm_num)
  rw [show exPoses.fn.numParameters = 3 from rfl] at e0 e1 e2
  simp only [sum_range_succ, sum_range_zero, h1, h2, h3] at e0 e1 e2
  norm_num at e0 e1 e2
  rcases (by omega : j = 0 ∨ j = 1 ∨ j = 2) with rfl | rfl | rfl <;> linarith

theorem exPoses_tol (tol : ℝ) (h0 : 0 ≤ tol) (h1 : tol < 1) : exPoses.assemble tol = exPoses.assemble 0 := by
  refine assemble_tol tol h0 0 (by rfl) fun f _ F hF _ => ⟨0, ?_⟩
  rcases exPoses_mem hF with rfl | rfl | rfl
  · exact ⟨Nat.one_pos, Nat.one_pos, by simpa [exPair] using h1⟩
  · exact ⟨Nat.one_pos, Nat.one_pos, by simpa [exPair] using h1⟩
  · exact ⟨Nat.one_pos, Nat.one_pos, by simpa [SequenceFunction.exSq] using h1⟩

/-- The hypotheses of the theorems hold in the example with the tolerance of double precision: an iteration goes to the minimum
`(-2, 0, 3)`. -/
example : exPoses.Ready ∧ exPoses.fn.np ≠ 0 ∧ exPoses.fn.nFrames = 2 ∧ exPoses.fn.numParameters = 3 ∧
    (∀ f, ∀ F ∈ exPoses.fn.frameErrors f, ∀ p i, F.GradientIsDerivative p i ∧ F.JacobianIsDerivative p i) ∧
    ∃ s', exPoses.doIteration (1 / 10 ^ 12) = some (s', 225 + 196 + 64) ∧
      s'.parameters 0 = -2 ∧ s'.parameters 1 = 0 ∧ s'.parameters 2 = 3 := by
  refine ⟨exPoses_ready, by decide, rfl, rfl, fun f F hF p i => ?_, ?_⟩
  · rcases exPoses_mem hF with rfl | rfl | rfl
    · exact ⟨exPair_gradient _ _ _, exPair_jacobian _ _ _⟩
    · exact ⟨exPair_gradient _ _ _, exPair_jacobian _ _ _⟩
    · exact ⟨SequenceFunction.exSq_gradient _ _, SequenceFunction.exSq_jacobian _ _⟩
  · obtain ⟨s', d, h1, h2, h3, -⟩ := C66_step_partial (1 / 10 ^ 12) exPoses_ready (exPoses_tol _ (by norm_num) (by norm_num))
      exPoses_determined
    obtain ⟨a0, a1, a2, a3, a4, a5⟩ := exPoses_jacobian
    rw [a1] at h1
    refine ⟨s', h1, ?_⟩
    have hd := (h2 fun j => if j = 0 then 9 else if j = 1 then 8 else 6).2 ?_
    · have h4 := hd 0 (show 0 < 3 by norm_num)
      have h5 := hd 1 (show 1 < 3 by norm_num)
      have h6 := hd 2 (show 2 < 3 by norm_num)
      rw [h3, h3, h3, ← h4, ← h5, ← h6]
      norm_num [exPoses]
    · have : dampedSquares exPoses.fn.numParameters exPoses.regularization exPoses.jacobian
          (fun j => if j = 0 then 9 else if j = 1 then 8 else 6) = 0 := by
        unfold dampedSquares
        rw [a0, show exPoses.fn.numParameters = 3 from rfl, show exPoses.regularization = 0 from rfl]
        simp only [sum_range_succ, sum_range_zero, a2, a3, a4, a5]
        norm_num
      rw [this]
      unfold dampedSquares
      rw [show exPoses.regularization = 0 from rfl, zero_mul, zero_add]
      exact sum_nonneg fun _ _ => sq_nonneg _

/-- A pose without error function: the first pose of the example has none. -/
example (tol : ℝ) : ({ exPoses with fn := { exPoses.fn with frameErrors := fun f => if f = 0 then [] else [exPair 3] } } :
    MultiposeSolver).doIteration tol = none :=
  C66_idle_pose_counterexample tol _ 0 (show 0 < 2 by norm_num) (by simp)
    (show exPoses.fn.generic ≠ [] by simp [exPoses, MultiposeFunction.make, MultiposeFunction.mapStep, List.range_succ])

end MultiposeSolver

namespace MultiposeFunction

/-- **C66 (enabled parameters) is false** if the last enabled parameter is generic and a universal one is enabled too: the joined
vector `(p₁, p₀)` of one pose with `p₀` universal has its universal entry beyond the number of actual parameters.  It is also false
if only the first parameter is enabled: the number is 0. -/
theorem C66_enabled_counterexample :
    (∃ (M : MultiposeFunction) (ps : Nat → Bool), M.Laid ∧ ps 0 = true ∧ M.StandsFor 1 0 0 ∧
      (M.setEnabledParameters ps id).actualParameters = 1) ∧
    ∃ (M : MultiposeFunction) (ps : Nat → Bool), M.Laid ∧ ps 0 = true ∧ M.StandsFor 0 0 0 ∧
      (M.setEnabledParameters ps id).actualParameters = 0 := by
  refine ⟨⟨make 2 (fun i => i == 0) 1, fun _ => true, make_laid _ _ _, rfl, ⟨by decide, Or.inr ⟨0, by decide, by decide⟩⟩, by decide⟩,
    ⟨make 1 (fun _ => false) 1, fun _ => true, make_laid _ _ _, rfl, ⟨by decide, Or.inl ⟨0, by decide, by decide⟩⟩, by decide⟩⟩

/-- The hypotheses of `C66_enabled_partial` hold if all parameters of the example are enabled; the entries are 0, 1 and 2. -/
example : MultiposeSolver.exPoses.fn.Laid ∧ MultiposeSolver.exPoses.fn.flag 1 = true ∧ MultiposeSolver.exPoses.fn.np = 2 ∧
    (MultiposeSolver.exPoses.fn.setEnabledParameters (fun _ => true) id).actualParameters = 3 := by
  exact ⟨MultiposeSolver.exPoses_laid, rfl, rfl, by rfl⟩

/-- **C66 (universal parameters):** after `setFrameParameters`, `getUniversalParameters` has those of the first pose, and the
joined vector has those of the last. -/
theorem C66_universal_counterexample : ∃ (M : MultiposeFunction) (p : Nat → ℝ), M.Laid ∧
    M.getUniversalParameters = some p ∧ M.flag 0 = true ∧ M.StandsFor 0 0 0 ∧ ∀ init, M.joined init 0 ≠ p 0 := by
  have hl : ({ make 1 (fun _ => true) 2 with frames := fun f _ => (f : ℝ) } : MultiposeFunction).Laid := by
    obtain ⟨⟨h1, h2, h3, h4⟩, h5⟩ := make_laid 1 (fun _ => true) 2
    exact ⟨⟨h1, h2, h3, h4⟩, h5⟩
  have hs : ({ make 1 (fun _ => true) 2 with frames := fun f _ => (f : ℝ) } : MultiposeFunction).StandsFor 0 0 0 :=
    ⟨by decide, Or.inr ⟨0, by decide, by decide⟩⟩
  refine ⟨_, fun _ => 0, hl, ?_, rfl, hs, fun init => ?_⟩
  · unfold getUniversalParameters
    rw [if_neg (by decide)]
    congr 1
    funext i
    simp
  · rw [C66_join hl init 0 0 0 hs]
    simp [make]

/-- **C66 (Jacobian) is false** for matrices that are used again after a weight has become zero: the rows of the error function
are not cleared. -/
theorem C66_jacobian_reused_counterexample : ∃ (M M' : MultiposeFunction) (v : Nat → ℝ), M.Laid ∧ M'.Laid ∧
    M'.getError v = (0, M') ∧
    (M'.getJacobian v (M.getJacobian v ⟨0, 0, fun _ _ => 0, fun _ => 0⟩).2.2.1).2.2.1.residual 0 = 1 ∧
    0 < (M'.getJacobian v (M.getJacobian v ⟨0, 0, fun _ _ => 0, fun _ => 0⟩).2.2.1).2.1 := by
  have hl : ∀ E : Nat → List ErrorFunction,
      ({ make 1 (fun _ => false) 1 with frameErrors := E, frames := fun _ _ => 1 } : MultiposeFunction).Laid := by
    intro E
    obtain ⟨⟨h1, h2, h3, h4⟩, h5⟩ := make_laid 1 (fun _ => false) 1
    exact ⟨⟨h1, h2, h3, h4⟩, h5⟩
  refine ⟨_, _, fun _ => 1, hl fun _ => [SequenceFunction.exSq], hl fun _ => [{ SequenceFunction.exSq with weight := 0 }], ?_, ?_, ?_⟩
  · simp [getError, setJoined, make, mapStep, List.range_succ, weighted, SequenceFunction.exSq]
  all_goals
    simp [getJacobian, jacobianSize, make, mapStep, setJoined, List.range_succ, weighted, SequenceFunction.exSq, padForSSE,
      jacFrame, jacTermStep, slot, resizeBuffers, numParameters, SequenceFunction.setColumn]

/-- The hypotheses of the theorems on parameter sets hold in the example, where the second parameter is universal. -/
example : MultiposeSolver.exPoses.fn.numParameters ≤ 2048 ∧ MultiposeSolver.exPoses.fn.StandsFor 2 1 1 := by
  exact ⟨show 3 ≤ 2048 by norm_num, show 1 < 2 by norm_num, Or.inr ⟨0, by rfl, by rfl⟩⟩

/-- With 2048 poses the set of universal parameters throws. -/
example : (make 2 (fun i => i == 1) 2048).getUniversalParameterSet = none :=
  (C66_universal_set (make_laid _ _ _) (by decide)).2 (by decide) (by decide)

end MultiposeFunction
end Momentum
