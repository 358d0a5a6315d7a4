import Verif.Props.BodyIk2

/-!
# C81: examples, and what goes wrong
-/

namespace Momentum
open Finset Matrix

/-- All parameters. -/
def exIkAll : ParameterSet := fun _ => true

theorem exIkAll_active {i : Nat} : IsActive 1 exIkAll i ↔ i = 0 := by
  unfold IsActive exIkAll ParameterSet.test kMaxModelParams
  constructor
  · intro h; omega
  · rintro rfl; simp

theorem exIkAll_indices : computeSubsetParameterIndices 1 exIkAll = some [0] := by
  rw [subset_indices 1 exIkAll (by decide)]
  simp [exIkAll, ParameterSet.test, kMaxModelParams]

/-! ## Second derivatives of the residuals -/

/-- One parameter `θ` with the residuals `θ - (s + 2 s³)` and `θ²`, where `s` is an input: the solution is `θ = s`. -/
def exIkCurved : MemberOps ℝ (Nat → ℝ) where
  jacobianSize _ := 2
  getError s p := (p 0 - (s + 2 * s ^ 3)) ^ 2 + (p 0 ^ 2) ^ 2
  addGradient s p g := some ((p 0 - (s + 2 * s ^ 3)) ^ 2 + (p 0 ^ 2) ^ 2,
    fun i => g i + if i = 0 then 2 * (p 0 - (s + 2 * s ^ 3)) + 4 * p 0 ^ 3 else 0)
  getJacobian s p := ⟨(p 0 - (s + 2 * s ^ 3)) ^ 2 + (p 0 ^ 2) ^ 2, 2, fun i t => if i = 0 then (if t = 0 then 1 else 2 * p 0) else 0,
    fun t => if t = 0 then p 0 - (s + 2 * s ^ 3) else p 0 ^ 2⟩
  inputs _ := some ["s"]
  getInputSize _ name := if name = "s" then some 1 else none
  getInput s name := if name = "s" then some [s] else none
  setInput s name y := if name = "s" ∧ y.length = 1 then some (y.getD 0 s) else none
  dGradientDot s name _ v := if name = "s" then some [-(2 + 12 * s ^ 2) * v 0] else none

theorem exIkCurved_rows (s : ℝ) (p : Nat → ℝ) : (skeletonJacobian (exIkCurved.solverFunctions (fun _ => 1) [s]) p).rows = 8 := by
  simp [skeletonJacobian, jacobianRows, weighted, MemberOps.solverFunctions, exIkCurved]

theorem exIkCurved_e (s : ℝ) (p : Nat → ℝ) (i t : Nat) : (skeletonJacobian (exIkCurved.solverFunctions (fun _ => 1) [s]) p).e i t =
    if t < 2 then (if i = 0 then (if t = 0 then 1 else 2 * p 0) else 0) else 0 := by
  simp [skeletonJacobian, weighted, MemberOps.solverFunctions, exIkCurved, stackStep]

/-- The error function gives the derivatives of its error and of its residuals, the derivative of the gradient in the input is right,
`θ` solves the problem for all values of the input, and the Jacobian is well conditioned; but the reported derivative of the loss `θ` in
the input is `7/5`, and the derivative is 1. -/
theorem C81_curvature_wrong : ∃ (θ : ℝ → Nat → ℝ) (θ' : Nat → ℝ),
    (∀ s p, ∀ f ∈ exIkCurved.solverFunctions (fun _ => 1) [s], f.GradientIsDerivative p 0 ∧ f.JacobianIsDerivative p 0) ∧
    (∀ s p v d, exIkCurved.dGradientDot s "s" p v = some d → IsInputDerivative (exIkCurved.setInput s "s")
      (fun e => (exIkCurved.addGradient e p fun _ => 0).map (·.2)) 1 v [s] d) ∧
    SolvedCurve 1 exIkAll (fun u => exIkCurved.total (fun _ => 1) [u]) 1 θ θ' ∧
    WellPosed 1 exIkAll (skeletonJacobian (exIkCurved.solverFunctions (fun _ => 1) [1]) (θ 1)).rows
      (skeletonJacobian (exIkCurved.solverFunctions (fun _ => 1) [1]) (θ 1)).e ∧
    θ' 0 = 1 ∧
    ∀ svd : ∀ m n, Matrix (Fin m) (Fin n) ℝ → ThinSvd n,
      IsThinSvd (activeJacobian exIkCurved (fun _ => 1) [1] (θ 1) [0]) (svd _ _ (activeJacobian exIkCurved (fun _ => 1) [1] (θ 1) [0])) →
      ∃ g w, dModelParamsDInputs exIkCurved (fun _ => 1) svd 1 exIkAll (θ 1) [1] [1] = some (g, [⟨w, [("s", [7 / 5])]⟩]) := by
  have hwp : WellPosed 1 exIkAll (skeletonJacobian (exIkCurved.solverFunctions (fun _ => 1) [1]) fun i => if i = 0 then 1 else 0).rows
      (skeletonJacobian (exIkCurved.solverFunctions (fun _ => 1) [1]) fun i => if i = 0 then 1 else 0).e := by
    intro x _
    rw [exIkCurved_rows]
    simp only [exIkCurved_e, sum_range_succ, sum_range_zero]
    norm_num
    nlinarith [sq_nonneg (x 0)]
  refine ⟨fun u i => if i = 0 then u else 0, fun i => if i = 0 then 1 else 0, ?_, ?_, ⟨?_, ?_, ?_⟩, hwp, rfl, ?_⟩
  · intro s p f hf
    simp only [MemberOps.solverFunctions, List.map_cons, List.map_nil, List.mem_singleton] at hf
    subst hf
    have h1 : HasDerivAt (fun u : ℝ => u - (s + 2 * s ^ 3)) 1 (p 0) := (hasDerivAt_id' _).sub_const _
    have h2 : HasDerivAt (fun u : ℝ => u ^ 2) (2 * p 0) (p 0) := by simpa using hasDerivAt_pow 2 (p 0)
    refine ⟨⟨rfl, ?_⟩, rfl, le_refl _, fun _ => rfl, fun u => ?_, fun t ht => ?_⟩
    · have h3 := (h1.pow 2).add (h2.pow 2)
      simp only [exIkCurved, Option.getD_some, Function.update_self, if_true, zero_add]
      refine h3.congr_deriv ?_
      push_cast
      ring
    · simp [exIkCurved, sum_range_succ]
    · have : t = 0 ∨ t = 1 := by change t < 2 at ht; omega
      rcases this with rfl | rfl
      · simpa [exIkCurved] using h1
      · simpa [exIkCurved] using h2
  · intro s p v d hd
    have : d = [-(2 + 12 * s ^ 2) * v 0] := by
      simp only [exIkCurved, if_true] at hd
      exact (Option.some.inj hd).symm
    subst this
    refine ⟨rfl, fun c hc => ?_⟩
    have hc0 : c = 0 := by simpa using hc
    subst hc0
    refine ⟨fun u => (2 * (p 0 - (u + 2 * u ^ 3)) + 4 * p 0 ^ 3) * v 0, fun u => ⟨u, _, by simp [exIkCurved], by
      simp only [exIkCurved, Option.map_some]; rfl, by simp⟩, ?_⟩
    have h1 : HasDerivAt (fun u : ℝ => u + 2 * u ^ 3) (1 + 6 * s ^ 2) s := by
      refine ((hasDerivAt_id' s).add ((hasDerivAt_pow 3 s).const_mul 2)).congr_deriv ?_
      push_cast
      ring
    refine ((((h1.const_sub (p 0)).const_mul 2).add_const (4 * p 0 ^ 3)).mul_const (v 0)).congr_deriv ?_
    simp only [List.getD_cons_zero]
    ring
  · intro i
    by_cases hi : i = 0
    · simpa [hi] using hasDerivAt_id' (1 : ℝ)
    · simpa [hi] using hasDerivAt_const (1 : ℝ) (0 : ℝ)
  · intro i hi u
    have : i ≠ 0 := fun h => hi (exIkAll_active.2 h)
    simp [this]
  · refine Filter.Eventually.of_forall fun u i hi => ?_
    obtain rfl := exIkAll_active.1 hi
    simp [MemberOps.total, skeletonGradient_sum, weighted, MemberOps.solverFunctions, exIkCurved]
    ring
  · intro svd hsvd
    obtain ⟨res, hres, -⟩ := C81_result exIkCurved (fun _ => 1) svd 1 exIkAll (by decide) [1] rfl [1]
      (fun i => if i = 0 then 1 else 0) (fun e _ => ⟨_, rfl⟩) (fun e _ name hn v => by
        have : name = "s" := by simpa [MemberOps.Has, exIkCurved] using hn
        subst this
        exact ⟨[-(2 + 12 * e ^ 2) * v 0], rfl⟩)
    obtain ⟨w, h1, h2, h3⟩ := dModelParams_inv exIkCurved (fun _ => 1) (n := 1) (active := exIkAll) (dLoss := [1]) (fun ids hids => by
      rw [exIkAll_indices] at hids
      obtain rfl := Option.some.inj hids
      exact hsvd) (by decide) rfl hwp hres
    have h4 := h3 0 (exIkAll_active.2 rfl)
    rw [exIkCurved_rows] at h4
    simp only [exIkCurved_e, sum_range_succ, sum_range_zero] at h4
    norm_num at h4
    have hw : w.getD 0 0 = 1 / 10 := by
      rw [List.getD_eq_getElem?_getD]
      linarith
    rw [List.mapM_cons, List.mapM_nil] at h1
    obtain ⟨r, h5, h6⟩ := Option.bind_eq_some_iff.1 h1
    have h7 : res.2 = [r] := by simpa using h6.symm
    have h8 : errorDerivatives exIkCurved (fun _ => 1) 1 (fun i => if i = 0 then 1 else 0) w 1 =
        some ⟨-∑ i ∈ range 1, dGradDWeight 1 (0 + if i = 0 then 2 * ((if (0 : Nat) = 0 then (1 : ℝ) else 0) - (1 + 2 * 1 ^ 3)) +
          4 * (if (0 : Nat) = 0 then (1 : ℝ) else 0) ^ 3 else 0) * w.getD i 0, [("s", [-(2 + 12 * 1 ^ 2) * -w.getD 0 0])]⟩ := rfl
    rw [h8] at h5
    refine ⟨res.1, r.gradWeight, hres.trans (congrArg some (Prod.ext rfl (h7.trans ?_)))⟩
    rw [← Option.some.inj h5, hw]
    norm_num

/-! ## The weight zero, and problems that meet the hypotheses -/

/-- Error functions `w (θ - t)²` of one parameter, given by weight and target. -/
noncomputable def exIkLinear : MemberOps (ℝ × ℝ) (Nat → ℝ) where
  jacobianSize _ := 1
  getError e p := e.1 * (p 0 - e.2) ^ 2
  addGradient e p g := some (e.1 * (p 0 - e.2) ^ 2, fun i => g i + if i = 0 then e.1 * (2 * (p 0 - e.2)) else 0)
  getJacobian e p := ⟨e.1 * (p 0 - e.2) ^ 2, 1, fun i _ => if i = 0 then Real.sqrt e.1 else 0, fun _ => Real.sqrt e.1 * (p 0 - e.2)⟩
  inputs _ := some ["target"]
  getInputSize _ name := if name = "target" then some 1 else none
  getInput e name := if name = "target" then some [e.2] else none
  setInput e name y := if name = "target" ∧ y.length = 1 then some (e.1, y.getD 0 e.2) else none
  dGradientDot e name _ v := if name = "target" then some [-(2 * e.1) * v 0] else none

/-- The solution of `θ² + w (θ - t)²`. -/
noncomputable def exIkSolution (w t : ℝ) (i : Nat) : ℝ := if i = 0 then w * t / (1 + w) else 0

theorem exIkLinear_result (svd : ∀ m n, Matrix (Fin m) (Fin n) ℝ → ThinSvd n) (dLoss : ℝ) (fs : List (ℝ × ℝ)) (p : Nat → ℝ) :
    ∃ res, dModelParamsDInputs exIkLinear (·.1) svd 1 exIkAll p fs [dLoss] = some res := by
  obtain ⟨res, h, -⟩ := C81_result exIkLinear (·.1) svd 1 exIkAll (by decide) [dLoss] rfl fs p (fun e _ => ⟨_, rfl⟩)
    (fun e _ name hn v => by
      have : name = "target" := by simpa [MemberOps.Has, exIkLinear] using hn
      subst this
      exact ⟨[-(2 * e.1) * v 0], rfl⟩)
  exact ⟨res, h⟩

/-- Two error functions, the second of weight zero: as its weight grows from zero, the solution moves with speed one, but the reported
derivative is zero. -/
theorem C81_weight_wrong :
    (∀ u, 0 ≤ u → exIkLinear.total (·.1) [(1, 0), (u, 1)] (exIkSolution u 1) 0 = 0) ∧
    HasDerivWithinAt (fun u => exIkSolution u 1 0) 1 (Set.Ici 0) 0 ∧
    ∀ (svd : ∀ m n, Matrix (Fin m) (Fin n) ℝ → ThinSvd n) (res : ℝ × List ErrorFunctionDerivatives),
      dModelParamsDInputs exIkLinear (·.1) svd 1 exIkAll (exIkSolution 0 1) [(1, 0), (0, 1)] [1] = some res →
      ∃ r, res.2[1]? = some r ∧ r.gradWeight = 0 := by
  refine ⟨fun u hu => ?_, ?_, fun svd res h => ?_⟩
  · have h1 : (1 + u) ≠ 0 := by positivity
    rcases hu.eq_or_lt with rfl | hu
    · simp [MemberOps.total, skeletonGradient_sum, weighted, MemberOps.solverFunctions, exIkLinear, exIkSolution]
    · simp [MemberOps.total, skeletonGradient_sum, weighted, MemberOps.solverFunctions, exIkLinear, exIkSolution, hu]
      field_simp
      ring
  · have h1 : HasDerivAt (fun u : ℝ => u * 1 / (1 + u)) 1 0 := by
      have := ((hasDerivAt_id' (0 : ℝ)).mul_const 1).div ((hasDerivAt_id' (0 : ℝ)).const_add 1) (by norm_num)
      refine this.congr_deriv (by norm_num)
    simpa [exIkSolution] using h1.hasDerivWithinAt
  · unfold dModelParamsDInputs at h
    obtain ⟨ids, -, h⟩ := Option.bind_eq_some_iff.1 h
    obtain ⟨dl, -, h⟩ := Option.bind_eq_some_iff.1 h
    obtain ⟨l, h1, rfl⟩ := Option.map_eq_some_iff.1 h
    obtain ⟨r, h2, h3⟩ := mapM_middle _ [((1 : ℝ), (0 : ℝ))] [] (0, 1) l h1
    refine ⟨r, h3, ?_⟩
    unfold errorDerivatives at h2
    obtain ⟨g, h4, h5⟩ := Option.bind_eq_some_iff.1 h2
    obtain ⟨l', -, rfl⟩ := Option.map_eq_some_iff.1 h5
    have : g = (0 * (exIkSolution 0 1 0 - 1) ^ 2, fun i => 0 + if i = 0 then 0 * (2 * (exIkSolution 0 1 0 - 1)) else 0) :=
      (Option.some.inj h4).symm
    subst this
    simp [dGradDWeight]

/-! The two error functions `θ²` and `w (θ - t)²`. -/

theorem exIkLinear_weighted {w : ℝ} (hw : 0 < w) (t : ℝ) :
    weighted (exIkLinear.solverFunctions (·.1) [(1, 0), (w, t)]) = exIkLinear.solverFunctions (·.1) [(1, 0), (w, t)] := by
  unfold weighted
  exact List.filter_eq_self.2 (by simp [MemberOps.solverFunctions, hw])

theorem exIkLinear_rows {w : ℝ} (hw : 0 < w) (t : ℝ) : jacobianRows (exIkLinear.solverFunctions (·.1) [(1, 0), (w, t)]) = 8 := by
  unfold jacobianRows
  rw [exIkLinear_weighted hw]
  rfl

theorem exIkLinear_e {w : ℝ} (hw : 0 < w) (t : ℝ) (p : Nat → ℝ) (i r : Nat) :
    (skeletonJacobian (exIkLinear.solverFunctions (·.1) [(1, 0), (w, t)]) p).e i r =
      if i = 0 then (if r = 0 then 1 else if r = 1 then Real.sqrt w else 0) else 0 := by
  unfold skeletonJacobian
  rw [exIkLinear_weighted hw]
  match r with
  | 0 => simp [MemberOps.solverFunctions, exIkLinear, stackStep]
  | 1 => simp [MemberOps.solverFunctions, exIkLinear, stackStep]
  | r + 2 => simp [MemberOps.solverFunctions, exIkLinear, stackStep]

theorem exIkLinear_residual {w : ℝ} (hw : 0 < w) (t : ℝ) (p : Nat → ℝ) (r : Nat) :
    (skeletonJacobian (exIkLinear.solverFunctions (·.1) [(1, 0), (w, t)]) p).residual r =
      if r = 0 then p 0 else if r = 1 then Real.sqrt w * (p 0 - t) else 0 := by
  unfold skeletonJacobian
  rw [exIkLinear_weighted hw]
  match r with
  | 0 => simp [MemberOps.solverFunctions, exIkLinear, stackStep]
  | 1 => simp [MemberOps.solverFunctions, exIkLinear, stackStep]
  | r + 2 => simp [MemberOps.solverFunctions, exIkLinear, stackStep]

theorem exIkLinear_svd {w : ℝ} (hw : 0 < w) (t : ℝ) (p : Nat → ℝ) :
    IsThinSvd (activeJacobian exIkLinear (·.1) [(1, 0), (w, t)] p [0]) ⟨1, fun _ => Real.sqrt (1 + w), Matrix.of fun _ _ => 1⟩ := by
  have hs : Real.sqrt (1 + w) ≠ 0 := (Real.sqrt_pos.2 (by linarith)).ne'
  refine ⟨?_, fun _ => Real.sqrt_nonneg _, ?_, Matrix.of fun r _ =>
    (skeletonJacobian (exIkLinear.solverFunctions (·.1) [(1, 0), (w, t)]) p).e 0 r / Real.sqrt (1 + w), ?_, ?_⟩
  · show 1 = min (jacobianRows (exIkLinear.solverFunctions (·.1) [(1, 0), (w, t)])) 1
    rw [exIkLinear_rows hw]
    rfl
  · ext i j
    have : i = j := Subsingleton.elim (α := Fin 1) _ _
    subst this
    simp [Matrix.mul_apply]
  · ext i j
    have : i = j := Subsingleton.elim (α := Fin 1) _ _
    subst this
    have h1 : ∀ f : Nat → ℝ, ∑ r : Fin (skeletonJacobian (exIkLinear.solverFunctions (·.1) [(1, 0), (w, t)]) p).rows, f r =
        ∑ r ∈ range 8, f r := by
      intro f
      rw [Finset.sum_range f, ← exIkLinear_rows hw t]
      rfl
    rw [Matrix.one_apply_eq, Matrix.mul_apply]
    refine (h1 fun r => (skeletonJacobian (exIkLinear.solverFunctions (·.1) [(1, 0), (w, t)]) p).e 0 r / Real.sqrt (1 + w) *
      ((skeletonJacobian (exIkLinear.solverFunctions (·.1) [(1, 0), (w, t)]) p).e 0 r / Real.sqrt (1 + w))).trans ?_
    simp only [exIkLinear_e hw, sum_range_succ, sum_range_zero]
    norm_num
    have h2 := Real.mul_self_sqrt hw.le
    have h3 := Real.mul_self_sqrt (show 0 ≤ 1 + w by linarith)
    field_simp
    nlinarith
  · ext r j
    have : j = 0 := Subsingleton.elim (α := Fin 1) _ _
    subst this
    rw [Matrix.mul_apply]
    simp [Matrix.mul_diagonal, activeJacobian, extractSubsetMat]
    field_simp

theorem exIkLinear_wellPosed {w : ℝ} (hw : 0 < w) (t : ℝ) (p : Nat → ℝ) :
    WellPosed 1 exIkAll (skeletonJacobian (exIkLinear.solverFunctions (·.1) [(1, 0), (w, t)]) p).rows
      (skeletonJacobian (exIkLinear.solverFunctions (·.1) [(1, 0), (w, t)]) p).e := by
  intro x _
  rw [show (skeletonJacobian (exIkLinear.solverFunctions (·.1) [(1, 0), (w, t)]) p).rows = 8 from exIkLinear_rows hw t]
  simp only [exIkLinear_e hw, sum_range_succ, sum_range_zero]
  norm_num
  nlinarith [sq_nonneg (x 0), sq_nonneg (Real.sqrt w * x 0)]

theorem exIkLinear_solved {w : ℝ} (hw : 0 < w) (t : ℝ) :
    (skeletonGradient (exIkLinear.solverFunctions (·.1) [(1, 0), (w, t)]) (exIkSolution w t)).2 0 = 0 := by
  have h1 : (1 + w) ≠ 0 := by positivity
  rw [skeletonGradient_sum, exIkLinear_weighted hw]
  simp [MemberOps.solverFunctions, exIkLinear, exIkSolution]
  field_simp
  ring

theorem exIkLinear_consistent (w t : ℝ) (hw : 0 < w) (f : ErrorFunction) (hf : f ∈ exIkLinear.solverFunctions (·.1) [(1, 0), (w, t)])
    (p : Nat → ℝ) (i : Nat) : f.GradientIsDerivative p i ∧ f.JacobianIsDerivativeNear p i := by
  have key : ∀ e : ℝ × ℝ, 0 ≤ e.1 → ∀ f ∈ exIkLinear.solverFunctions (·.1) [e], f.GradientIsDerivative p i ∧
      f.JacobianIsDerivativeNear p i := by
    intro e he f hf
    simp only [MemberOps.solverFunctions, List.map_cons, List.map_nil, List.mem_singleton] at hf
    subst hf
    have hsq : ∀ x : ℝ, e.1 * x ^ 2 = (Real.sqrt e.1 * x) ^ 2 := by intro x; rw [mul_pow, Real.sq_sqrt he]
    by_cases hi : i = 0
    · subst hi
      have h1 : HasDerivAt (fun u : ℝ => u - e.2) 1 (p 0) := (hasDerivAt_id' _).sub_const _
      refine ⟨⟨rfl, ?_⟩, rfl, le_refl _, Filter.Eventually.of_forall fun _ => rfl, Filter.Eventually.of_forall fun u => ?_,
        fun r _ => ?_⟩
      · have h2 := (h1.pow 2).const_mul e.1
        simp only [exIkLinear, Option.getD_some, Function.update_self, if_true, zero_add]
        refine h2.congr_deriv ?_
        push_cast
        ring
      · simp [exIkLinear, hsq]
      · simpa [exIkLinear] using h1.const_mul (Real.sqrt e.1)
    · have hu : ∀ u, Function.update p i u 0 = p 0 := fun u => Function.update_of_ne (Ne.symm hi) _ _
      refine ⟨⟨rfl, ?_⟩, rfl, le_refl _, Filter.Eventually.of_forall fun _ => rfl, Filter.Eventually.of_forall fun u => ?_,
        fun r _ => ?_⟩
      · simp only [exIkLinear, Option.getD_some, hu, if_neg hi, zero_add]
        exact hasDerivAt_const _ _
      · simp [exIkLinear, hsq]
      · simp only [exIkLinear, hu, if_neg hi]
        exact hasDerivAt_const _ _
  have : f ∈ exIkLinear.solverFunctions (·.1) [((1 : ℝ), (0 : ℝ))] ∨ f ∈ exIkLinear.solverFunctions (·.1) [(w, t)] := by
    simpa [MemberOps.solverFunctions] using hf
  rcases this with h | h
  · exact key _ (by norm_num) f h
  · exact key _ hw.le f h

/-- A curve of weights and targets with the solutions. -/
theorem exIkLinear_exact (w t : ℝ → ℝ) (u₀ θ' : ℝ) (hw : 0 < w u₀) (hc : ContinuousAt w u₀)
    (hd : HasDerivAt (fun u => exIkSolution (w u) (t u) 0) θ' u₀) :
    SolvedCurve 1 exIkAll (fun u => exIkLinear.total (·.1) [(1, 0), (w u, t u)]) u₀ (fun u => exIkSolution (w u) (t u))
      (fun i => if i = 0 then θ' else 0) ∧
    GaussNewtonExact 1 exIkAll (fun u => exIkLinear.total (·.1) [(1, 0), (w u, t u)])
      (skeletonJacobian (exIkLinear.solverFunctions (·.1) [(1, 0), (w u₀, t u₀)]) (exIkSolution (w u₀) (t u₀))) u₀
      (fun u => exIkSolution (w u) (t u)) (fun i => if i = 0 then θ' else 0) := by
  have hpos : ∀ᶠ u in nhds u₀, 0 < w u := hc.eventually (lt_mem_nhds hw)
  have hcurve : SolvedCurve 1 exIkAll (fun u => exIkLinear.total (·.1) [(1, 0), (w u, t u)]) u₀
      (fun u => exIkSolution (w u) (t u)) (fun i => if i = 0 then θ' else 0) := by
    refine ⟨fun i => ?_, fun i hi u => ?_, ?_⟩
    · by_cases hi : i = 0
      · subst hi
        simpa using hd
      · simpa [exIkSolution, hi] using hasDerivAt_const u₀ (0 : ℝ)
    · have : i ≠ 0 := fun h => hi (exIkAll_active.2 h)
      simp [exIkSolution, this]
    · filter_upwards [hpos] with u hu i hi
      obtain rfl := exIkAll_active.1 hi
      exact exIkLinear_solved hu _
  refine ⟨hcurve, C81_exact_linear (fun u => exIkLinear.solverFunctions (·.1) [(1, 0), (w u, t u)]) 1 exIkAll u₀ _ _ hcurve
    (fun u f hf p => ?_) ?_ ?_ (fun u r => if r = 1 then -(Real.sqrt (w u) * t u) else 0)
    (fun u i r => if i = 0 then (if r = 0 then 1 else if r = 1 then Real.sqrt (w u) else 0) else 0) (fun i r => ?_) ?_ ?_⟩
  · simp only [MemberOps.solverFunctions, List.map_cons, List.map_nil, List.mem_cons, List.not_mem_nil, or_false] at hf
    rcases hf with rfl | rfl <;> exact le_refl _
  · filter_upwards [hpos] with u hu
    rw [exIkLinear_rows hu, exIkLinear_rows hw]
  · filter_upwards [hpos] with u hu f hf p i
    exact exIkLinear_consistent _ _ hu f hf p i
  · split_ifs
    · exact continuousAt_const
    · exact hc.sqrt
    · exact continuousAt_const
    · exact continuousAt_const
  · filter_upwards [hpos] with u hu p i r
    exact exIkLinear_e hu _ _ _ _
  · filter_upwards [hpos] with u hu p r
    rw [exIkLinear_residual hu]
    match r with
    | 0 => simp
    | 1 => simp; ring
    | r + 2 => simp

/-- The hypotheses of `C81_inputs_partial` are met by the target of the second error function, and the derivative of the loss `3 θ` is
`3/2`. -/
example : ∃ svd res r d, dModelParamsDInputs exIkLinear (·.1) svd 1 exIkAll (exIkSolution 1 1) [(1, 0), (1, 1)] [3] = some res ∧
    res.2[1]? = some r ∧ ("target", d) ∈ r.gradInputs ∧ d.getD 0 0 = 3 / 2 := by
  obtain ⟨res, hres⟩ := exIkLinear_result (fun _ _ _ => ⟨1, fun _ => Real.sqrt (1 + 1), Matrix.of fun _ _ => 1⟩) 3 [(1, 0), (1, 1)]
    (exIkSolution 1 1)
  have hd : HasDerivAt (fun u : ℝ => exIkSolution 1 u 0) (1 / 2) 1 := by
    have := ((hasDerivAt_id' (1 : ℝ)).const_mul 1).div_const (1 + 1)
    refine HasDerivAt.congr_deriv (f := fun u : ℝ => exIkSolution 1 u 0) (by simpa [exIkSolution] using this) (by norm_num)
  obtain ⟨h1, h2⟩ := exIkLinear_exact (fun _ => 1) (fun u => u) 1 (1 / 2) one_pos continuousAt_const hd
  obtain ⟨r, d, h3, h4, -, h5⟩ := C81_inputs_partial exIkLinear (·.1) (fun _ _ _ => ⟨1, fun _ => Real.sqrt (1 + 1),
    Matrix.of fun _ _ => 1⟩) 1 exIkAll (by decide) [3] rfl [(1, 0)] [] (fun u => (1, u)) "target" [1] 0 (by decide) 1 rfl
    (fun u => by simp [exIkLinear]) (fun _ => rfl) (by norm_num) (by simp [MemberOps.Has, exIkLinear]) (fun u => exIkSolution 1 u) _
    (fun v d hd => by
      have : d = [-(2 * 1) * v 0] := by
        simp only [exIkLinear, if_true] at hd
        exact (Option.some.inj hd).symm
      subst this
      refine ⟨rfl, fun c hc => ?_⟩
      have hc0 : c = 0 := by simpa using hc
      subst hc0
      refine ⟨fun u => (1 * (2 * (exIkSolution 1 1 0 - u))) * v 0, fun u => ⟨(1, u), _, by simp [exIkLinear], by
        simp only [exIkLinear, Option.map_some]; rfl, by simp⟩, ?_⟩
      have h1 := ((((hasDerivAt_id' (1 : ℝ)).const_sub (exIkSolution 1 1 0)).const_mul 2).const_mul 1).mul_const (v 0)
      exact h1.congr_deriv (by norm_num))
    h1 h2 (exIkLinear_wellPosed one_pos 1 _) (fun ids hids => by
      rw [exIkAll_indices] at hids
      obtain rfl := Option.some.inj hids
      exact exIkLinear_svd one_pos 1 _) res hres
  refine ⟨_, res, r, d, hres, h3, h4, ?_⟩
  rw [h5]
  norm_num

/-- The hypotheses of `C81_weight_partial` are met by the weight of the second error function. -/
example : ∃ svd res r, dModelParamsDInputs exIkLinear (·.1) svd 1 exIkAll (exIkSolution 1 1) [(1, 0), (1, 1)] [3] = some res ∧
    res.2[1]? = some r ∧ r.gradWeight = 3 / 4 := by
  obtain ⟨res, hres⟩ := exIkLinear_result (fun _ _ _ => ⟨1, fun _ => Real.sqrt (1 + 1), Matrix.of fun _ _ => 1⟩) 3 [(1, 0), (1, 1)]
    (exIkSolution 1 1)
  have hd : HasDerivAt (fun u : ℝ => exIkSolution u 1 0) (1 / 4) 1 := by
    have h1 : HasDerivAt (fun u : ℝ => u * 1 / (1 + u)) (1 / 4) 1 := by
      have := ((hasDerivAt_id' (1 : ℝ)).mul_const 1).div ((hasDerivAt_id' (1 : ℝ)).const_add 1) (by norm_num)
      exact this.congr_deriv (by norm_num)
    simpa [exIkSolution] using h1
  obtain ⟨h1, h2⟩ := exIkLinear_exact (fun u => u) (fun _ => 1) 1 (1 / 4) one_pos continuousAt_id hd
  obtain ⟨r, h3, h4⟩ := C81_weight_partial exIkLinear (·.1) (fun _ _ _ => ⟨1, fun _ => Real.sqrt (1 + 1),
    Matrix.of fun _ _ => 1⟩) 1 exIkAll (by decide) [3] rfl [(1, 0)] [] (fun u => (u, 1)) 1 (fun _ => rfl) one_pos
    (fun u => exIkSolution u 1) _ ⟨(exIkSolution 1 1 0 - 1) ^ 2, fun i => if i = 0 then 2 * (exIkSolution 1 1 0 - 1) else 0, fun u => by
      simp [exIkLinear]⟩
    h1 h2 (exIkLinear_wellPosed one_pos 1 _) (fun ids hids => by
      rw [exIkAll_indices] at hids
      obtain rfl := Option.some.inj hids
      exact exIkLinear_svd one_pos 1 _) res hres
  refine ⟨_, res, r, hres, h3, ?_⟩
  rw [h4]
  norm_num

/-- The hypotheses of `C81_exact_fit` are met by the error `(θ - u)²` with the target `u`, which is fitted exactly. -/
example : GaussNewtonExact 1 exIkAll
    (fun u p i => (skeletonGradient (exUnionOps.solverFunctions (fun _ => 1) [u]) p).2 i)
    (skeletonJacobian (exUnionOps.solverFunctions (fun _ => 1) [5]) fun i => if i = 0 then 5 else 0) 5
    (fun u i => if i = 0 then u else 0) (fun i => if i = 0 then 1 else 0) := by
  have he : ∀ (s : ℝ) (p : Nat → ℝ) (i t : Nat), (skeletonJacobian (exUnionOps.solverFunctions (fun _ => 1) [s]) p).e i t =
      if t < 1 then (if i = 0 then 1 else 0) else 0 := by
    intro s p i t
    simp [skeletonJacobian, weighted, MemberOps.solverFunctions, exUnionOps, stackStep]
  have hr : ∀ (s : ℝ) (p : Nat → ℝ) (t : Nat), (skeletonJacobian (exUnionOps.solverFunctions (fun _ => 1) [s]) p).residual t =
      if t < 1 then p 0 - s else 0 := by
    intro s p t
    simp [skeletonJacobian, weighted, MemberOps.solverFunctions, exUnionOps, stackStep]
  refine C81_exact_fit (fun u => exUnionOps.solverFunctions (fun _ => 1) [u]) 1 exIkAll 5 (fun u i => if i = 0 then u else 0)
    (fun i => if i = 0 then 1 else 0) ⟨fun i => ?_, fun i hi u => ?_, ?_⟩ (fun u f hf p => ?_) (fun u => ?_) (fun u f hf p i => ?_)
    (fun t _ => ?_) (fun i t => ?_) fun t _ => ?_
  · by_cases hi : i = 0
    · simpa [hi] using hasDerivAt_id' (5 : ℝ)
    · simpa [hi] using hasDerivAt_const (5 : ℝ) (0 : ℝ)
  · have : i ≠ 0 := fun h => hi (exIkAll_active.2 h)
    simp [this]
  · refine Filter.Eventually.of_forall fun u i hi => ?_
    obtain rfl := exIkAll_active.1 hi
    simp [skeletonGradient_sum, weighted, MemberOps.solverFunctions, exUnionOps]
  · simp only [MemberOps.solverFunctions, List.map_cons, List.map_nil, List.mem_singleton] at hf
    subst hf
    exact le_refl _
  · simp [jacobianRows, weighted, MemberOps.solverFunctions, exUnionOps]
  · simp only [MemberOps.solverFunctions, List.map_cons, List.map_nil, List.mem_singleton] at hf
    subst hf
    by_cases hi : i = 0
    · subst hi
      have h1 : HasDerivAt (fun v : ℝ => v - u) 1 (p 0) := (hasDerivAt_id' _).sub_const _
      refine ⟨⟨rfl, ?_⟩, rfl, le_refl _, Filter.Eventually.of_forall fun _ => rfl, Filter.Eventually.of_forall fun v => ?_,
        fun r _ => ?_⟩
      · have h2 := h1.pow 2
        simp only [exUnionOps, Option.getD_some, Function.update_self, if_true, zero_add]
        refine h2.congr_deriv ?_
        push_cast
        ring
      · simp [exUnionOps]
      · simpa [exUnionOps] using h1
    · have hu : ∀ v, Function.update p i v 0 = p 0 := fun v => Function.update_of_ne (Ne.symm hi) _ _
      refine ⟨⟨rfl, ?_⟩, rfl, le_refl _, Filter.Eventually.of_forall fun _ => rfl, Filter.Eventually.of_forall fun v => ?_,
        fun r _ => ?_⟩
      · simp only [exUnionOps, Option.getD_some, hu, if_neg hi, zero_add]
        exact hasDerivAt_const _ _
      · simp [exUnionOps]
      · simp only [exUnionOps, hu, if_neg hi]
        exact hasDerivAt_const _ _
  · rw [hr]
    simp
  · simp only [he]
    exact ⟨continuousAt_const, continuousAt_const⟩
  · by_cases ht : t < 1
    · refine ⟨(ContinuousLinearMap.proj (0 : Fin 1)).comp (ContinuousLinearMap.fst ℝ (Fin 1 → ℝ) ℝ) -
        ContinuousLinearMap.snd ℝ (Fin 1 → ℝ) ℝ, ?_, fun j => ?_⟩
      · simp only [hr, if_pos ht]
        exact ContinuousLinearMap.hasFDerivAt ((ContinuousLinearMap.proj (0 : Fin 1)).comp (ContinuousLinearMap.fst ℝ (Fin 1 → ℝ) ℝ) -
          ContinuousLinearMap.snd ℝ (Fin 1 → ℝ) ℝ)
      · have : j = 0 := Subsingleton.elim _ _
        subst this
        rw [he]
        simp [ht]
    · refine ⟨0, ?_, fun j => ?_⟩
      · simp only [hr, if_neg ht]
        exact hasFDerivAt_const _ _
      · rw [he]
        simp [ht]

end Momentum
