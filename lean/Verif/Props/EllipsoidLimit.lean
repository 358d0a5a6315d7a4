import Verif.Lemmas.EllipsoidLimit2

/-!
# C73: ellipsoid limits
-/

namespace Momentum
open Skeleton

/-- No weight is negative. -/
structure EllipsoidLimits.Weighted (E : EllipsoidLimits) : Prop where
  weight : 0 ≤ E.weight
  limits : ∀ c ∈ E.limits, 0 ≤ c.weight

namespace EllipsoidLimits

theorem along {E : EllipsoidLimits} {pt : ParameterTransform ℝ} (hF : E.Fits pt) (hW : ∀ c ∈ E.limits, c.Wellformed E.skeleton)
    (p : Nat → ℝ) {i : Nat} (hi : i < pt.transform.cols) :
    ∃ (θ : ℝ → List ℝ) (S : ℝ → List JointState), (∀ u, FKGood E.skeleton (θ u) true (S u)) ∧
      (∀ u, (S u).length = E.skeleton.joints.length) ∧
      (∀ r t, HasDerivAt (fun u => (θ u).getD r 0) (pt.transform.coeff r i) t) ∧
      (∀ u, E.stateFor pt (paramVec pt.transform.cols (Function.update p i u)) true = some (S u)) ∧
      (∀ u, (E.toErrorFunction pt).getError (Function.update p i u) = E.total (S u)) := by
  obtain ⟨θ, S, S', h1, h2, h3, h4, h5, h6, h7⟩ := ErrorBase.states_curve hF (p := paramVec pt.transform.cols p)
    (StateError.paramVec_length _ _) hi
  refine ⟨θ, S, h3, h4, h6, fun u => by rw [StateError.paramVec_update]; exact h1 u, fun u => ?_⟩
  have hs : E.stateFor pt (paramVec pt.transform.cols (Function.update p i u)) false = some (S' u) := by
    rw [StateError.paramVec_update]; exact h2 u
  have hgood : FKGood E.skeleton (θ u) true (S u) := h3 u
  simp only [EllipsoidLimits.toErrorFunction, hs, Option.bind_some]
  -- the states with and without derivatives have the same transforms
  have key : ∀ c ∈ E.limits, evaluate c (S' u) = evaluate c (S u) := by
    intro c hc
    have w1 := (hW c hc).parent
    have w2 := (hW c hc).ellipsoidParent
    have a1 : (S u)[c.parent]? = some ((S u)[c.parent]'(by rw [h4]; exact w1)) := List.getElem?_eq_getElem _
    have a2 : (S u)[c.ellipsoidParent]? = some ((S u)[c.ellipsoidParent]'(by rw [h4]; exact w2)) := List.getElem?_eq_getElem _
    have b1 : (S' u)[c.parent]? = some ((S' u)[c.parent]'(by rw [h5]; exact w1)) := List.getElem?_eq_getElem _
    have b2 : (S' u)[c.ellipsoidParent]? = some ((S' u)[c.ellipsoidParent]'(by rw [h5]; exact w2)) := List.getElem?_eq_getElem _
    have e1 := h7 u c.parent
    have e2 := h7 u c.ellipsoidParent
    simp only [worldOf, a1, b1] at e1
    simp only [worldOf, a2, b2] at e2
    unfold evaluate
    rw [a1, a2, b1, b2]
    simp only [Option.bind_eq_bind, Option.bind_some, e1, e2]
  have hge : E.getError (S' u) = E.getError (S u) := by
    have : ∀ (l : List EllipsoidLimit), (∀ c ∈ l, c ∈ E.limits) → ∀ x : ℝ,
        l.foldlM (errorStep (S' u)) x = l.foldlM (errorStep (S u)) x := by
      intro l
      induction l with
      | nil => intro _ x; rfl
      | cons c l ih =>
        intro h x
        rw [List.foldlM_cons, List.foldlM_cons]
        have : errorStep (S' u) x c = errorStep (S u) x c := by unfold errorStep; rw [key c (h c (by simp))]
        rw [this]
        cases errorStep (S u) x c with
        | none => rfl
        | some y => exact ih (fun c' h' => h c' (by simp [h'])) y
    unfold getError
    rw [this _ (fun _ h => h)]
  rw [hge, getError_eq hF.skeleton hF.unit (h3 u) (h4 u) hW]; rfl

theorem point_on {c : EllipsoidLimit} {st : List JointState} (hi : c.ellipsoid.AreInverse c.ellipsoidInv)
    (hu : (worldOf st (some c.ellipsoidParent)).rotation.normSq = 1) (hs : (worldOf st (some c.ellipsoidParent)).scale ≠ 0) :
    c.diffIn st = 0 ↔ c.surfaceIn st (c.pointIn st) ∨ c.pointIn st = c.centreIn st := by
  have hw := EllipsoidLimit.world_unitPoint hi hu hs
  unfold EllipsoidLimit.diffIn
  constructor
  · intro h
    by_cases h1 : (c.unitPoint st).norm = 1
    · left
      refine ⟨c.unitPoint st, ?_, hw.symm⟩
      have : Real.sqrt (c.unitPoint st).sqNorm = 1 := h1
      rw [Real.sqrt_eq_one] at this; exact this
    · right
      have hk : 1 - (c.unitPoint st).norm⁻¹ ≠ 0 := by
        intro h2
        have : (c.unitPoint st).norm⁻¹ = 1 := by linarith
        exact h1 (inv_eq_one.1 this)
      have hsq : (c.pointIn st - c.centreIn st).sqNorm = 0 := by
        have := sqNorm_smul' (1 - (c.unitPoint st).norm⁻¹) (c.pointIn st - c.centreIn st)
        rw [h] at this
        have h0 : (0 : Vec3 ℝ).sqNorm = 0 := by simp [Vec3.sqNorm, Vec3.dot]
        rw [h0] at this
        rcases mul_eq_zero.1 this.symm with h3 | h3
        · exact absurd (pow_eq_zero_iff (two_ne_zero) |>.1 h3) hk
        · exact h3
      exact sub_eq_zero.1 (vec_eq_of_sqNorm hsq)
  · rintro (⟨n, hn, hq⟩ | h)
    · have : c.unitPoint st = n := by
        have h2 := congrArg (fun v => c.ellipsoidInv.apply ((worldOf st (some c.ellipsoidParent)).inverse.transformPoint v)) hq
        rw [(C02_inverse _ hu hs).2.2.1, hi.1] at h2
        exact h2
      rw [this]
      unfold Vec3.norm
      rw [hn]; ext <;> simp
    · rw [h, sub_self]; ext <;> simp

theorem weight_sq {E : EllipsoidLimits} (hw : E.Weighted) {c : EllipsoidLimit} (hc : c ∈ E.limits) :
    E.jwgt c * E.jwgt c = kLimitWeight * kEllipsoidWeight * E.weight * c.weight := by
  have := hw.weight
  have := hw.limits c hc
  unfold jwgt
  exact Real.mul_self_sqrt (by unfold kLimitWeight kEllipsoidWeight; positivity)

end EllipsoidLimits

open EllipsoidLimits in
/-- **C73**: the error of ellipsoid limits is never negative, and it is zero exactly when every limited point is on the
surface of its ellipsoid, or exactly at the centre (which `ellipsoidPosition.normalized()` leaves there). -/
theorem C73_error_zero_iff (E : EllipsoidLimits) (pt : ParameterTransform ℝ) (hF : E.Fits pt)
    (hW : ∀ c ∈ E.limits, c.Wellformed E.skeleton) (hw : 0 < E.weight) (hl : ∀ c ∈ E.limits, 0 < c.weight)
    (p : Nat → ℝ) (hcols : 0 < pt.transform.cols) :
    ∃ st, E.stateFor pt (paramVec pt.transform.cols p) true = some st ∧ 0 ≤ (E.toErrorFunction pt).getError p ∧
      ((E.toErrorFunction pt).getError p = 0 ↔
        ∀ c ∈ E.limits, c.surfaceIn st (c.pointIn st) ∨ c.pointIn st = c.centreIn st) := by
  obtain ⟨θ, S, hG, hlen, -, hs, herr⟩ := along hF hW p hcols
  have hs := hs (p 0); have herr := herr (p 0)
  rw [Function.update_eq_self] at hs herr
  have hnn : ∀ c ∈ E.limits, 0 ≤ E.limitError (S (p 0)) c := by
    intro c hc
    have := hl c hc
    unfold limitError kLimitWeight kEllipsoidWeight
    have := vec_sqNorm_nonneg (c.diffIn (S (p 0)))
    positivity
  refine ⟨_, hs, ?_, ?_⟩
  · rw [herr]
    exact List.sum_nonneg fun x hx => by obtain ⟨c, hc, rfl⟩ := List.mem_map.1 hx; exact hnn c hc
  · rw [herr]
    have hz : E.total (S (p 0)) = 0 ↔ ∀ c ∈ E.limits, E.limitError (S (p 0)) c = 0 := by
      unfold total
      have : ∀ l : List EllipsoidLimit, (∀ c ∈ l, 0 ≤ E.limitError (S (p 0)) c) →
          ((l.map (E.limitError (S (p 0)))).sum = 0 ↔ ∀ c ∈ l, E.limitError (S (p 0)) c = 0) := by
        intro l
        induction l with
        | nil => simp
        | cons c l ih =>
          intro h
          have h1 := h c (by simp)
          have h2 : 0 ≤ (l.map (E.limitError (S (p 0)))).sum := List.sum_nonneg fun x hx => by
            obtain ⟨c', hc', rfl⟩ := List.mem_map.1 hx; exact h c' (by simp [hc'])
          have ih := ih fun c' h' => h c' (by simp [h'])
          simp only [List.map_cons, List.sum_cons, List.forall_mem_cons]
          rw [← ih]
          constructor
          · intro h3; exact ⟨by linarith, by linarith⟩
          · rintro ⟨h3, h4⟩; rw [h3, h4, add_zero]
      exact this _ hnn
    rw [hz]
    refine forall_congr' fun c => forall_congr' fun hc => ?_
    obtain ⟨hu, hsc⟩ := (hG (p 0)).worldOf_unit hF.skeleton hF.unit (some c.ellipsoidParent)
    rw [← point_on (hW c hc).inverse hu hsc]
    unfold limitError
    have h0 : kEllipsoidWeight * (kLimitWeight * E.weight) * c.weight ≠ 0 := by
      have := hl c hc
      unfold kLimitWeight kEllipsoidWeight; positivity
    constructor
    · intro h
      apply vec_eq_of_sqNorm
      have : (c.diffIn (S (p 0))).sqNorm * (kEllipsoidWeight * (kLimitWeight * E.weight) * c.weight) = 0 := by
        rw [← h]; ring
      exact (mul_eq_zero.1 this).resolve_right h0
    · intro h; rw [h]; simp [Vec3.sqNorm, Vec3.dot]

open EllipsoidLimits in
/-- **C73**: the gradient of ellipsoid limits is the derivative of the error in every enabled parameter that does not move
the ellipsoid, or that moves it together with the limited point without scaling it, if the ellipsoids are balls and the
points are not at their centres.  The full claim, that it always is, is refuted by `C73_ellipsoid_wrong`, `C73_scale_wrong`
and `C73_other_branch_wrong`. -/
theorem C73_gradient_partial (E : EllipsoidLimits) (pt : ParameterTransform ℝ) (hF : E.Fits pt)
    (hW : ∀ c ∈ E.limits, c.Wellformed E.skeleton) (hb : ∀ c ∈ E.limits, ∃ r, c.IsBall r) (p : Nat → ℝ) (st : List JointState)
    (hst : E.stateFor pt (paramVec pt.transform.cols p) true = some st) (hne : ∀ c ∈ E.limits, c.pointIn st ≠ c.centreIn st)
    (i : Nat) (hi : i < pt.transform.cols) (hen : E.enabledParameters.mem i = true)
    (hfix : ∀ c ∈ E.limits, c.Fixes E.skeleton pt.transform i ∨ c.Carries E.skeleton pt.transform i) :
    (E.toErrorFunction pt).GradientIsDerivative p i := by
  obtain ⟨θ, S, hG, hlen, hθ, hs, herr⟩ := along hF hW p hi
  have hs0 := hs (p i)
  rw [Function.update_eq_self, hst] at hs0
  have hst' : st = S (p i) := Option.some.inj hs0
  subst hst'
  obtain ⟨g, g1, g2⟩ := getGradient_eq hF (hG (p i)) (hlen (p i)) hW (fun _ => 0)
  have hgr : (E.toErrorFunction pt).getGradient p = (E.total (S (p i)), g) := by
    simp only [EllipsoidLimits.toErrorFunction, hst, Option.bind_some, g1, Option.getD_some]
  have h0 : (E.toErrorFunction pt).getError p = E.total (S (p i)) := by
    have := herr (p i); rwa [Function.update_eq_self] at this
  refine ⟨by rw [hgr, h0], ?_⟩
  have hfun : (fun u => (E.toErrorFunction pt).getError (Function.update p i u)) = fun u => E.total (S u) := funext herr
  rw [hfun, hgr]
  simp only
  rw [g2 i hen, zero_add]
  unfold total
  refine hasDerivAt_list_sum _ (fun c u => E.limitError (S u) c) _ _ fun c hc => ?_
  obtain ⟨r, hr⟩ := hb c hc
  have hd := diff_deriv hF.skeleton hF.unit hG hlen (fun r => hθ r (p i)) (hW c hc) hr (hne c hc) (by
    rcases hfix c hc with h | h
    · exact Or.inl h
    · exact Or.inr h)
  refine (((hd.mul_const kEllipsoidWeight).mul_const (kLimitWeight * E.weight)).mul_const c.weight).congr_deriv ?_
  unfold limitGrad; ring

open EllipsoidLimits in
/-- **C73**: for all ellipsoid limits with weights that are not negative, the three calls agree: `getJacobian` reports the
error, fills the announced number of rows, the squares of its residuals add up to the error, and twice the transposed Jacobian
times the residual is the gradient. -/
theorem C73_jacobian (E : EllipsoidLimits) (pt : ParameterTransform ℝ) (hF : E.Fits pt)
    (hW : ∀ c ∈ E.limits, c.Wellformed E.skeleton) (hw : E.Weighted) (p : Nat → ℝ) (i : Nat) (hi : i < pt.transform.cols)
    (hen : E.enabledParameters.mem i = true) :
    let f := E.toErrorFunction pt
    (f.getJacobian p).error = f.getError p ∧ (f.getGradient p).1 = f.getError p ∧ (f.getJacobian p).rows = f.jacobianSize ∧
      ∑ t ∈ Finset.range f.jacobianSize, (f.getJacobian p).residual t ^ 2 = f.getError p ∧
      2 * ∑ t ∈ Finset.range f.jacobianSize, (f.getJacobian p).e i t * (f.getJacobian p).residual t = (f.getGradient p).2 i := by
  obtain ⟨θ, S, hG, hlen, hθ, hs, herr⟩ := along hF hW p hi
  have hs := hs (p i); have herr := herr (p i)
  rw [Function.update_eq_self] at hs herr
  obtain ⟨g, g1, g2⟩ := getGradient_eq hF (hG (p i)) (hlen (p i)) hW (fun _ => 0)
  obtain ⟨J, j1, j2, j3, j4⟩ := getJacobian_eq hF (hG (p i)) (hlen (p i)) hW (fun _ _ => 0) (fun _ => 0)
  have hgr : (E.toErrorFunction pt).getGradient p = (E.total (S (p i)), g) := by
    simp only [EllipsoidLimits.toErrorFunction, hs, Option.bind_some, g1, Option.getD_some]
  have hj : (E.toErrorFunction pt).getJacobian p = J := by
    simp only [EllipsoidLimits.toErrorFunction, hs, Option.bind_some, j1, Option.getD_some]
  have hsize : (E.toErrorFunction pt).jacobianSize = 3 * E.limits.length := rfl
  have hEr : ∀ c ∈ E.limits, E.jwgt c * E.jwgt c * (c.diffIn (S (p i))).sqNorm = E.limitError (S (p i)) c := by
    intro c hc; rw [weight_sq hw hc]; unfold limitError; ring
  have hsum : (E.limits.map fun c => E.jwgt c * E.jwgt c * (c.diffIn (S (p i))).sqNorm).sum = E.total (S (p i)) := by
    unfold total; congr 1; exact List.map_congr_left hEr
  have h3 : ∀ f : Fin 3 → ℝ, ∑ b : Fin 3, f b = f 0 + f 1 + f 2 := fun f => Fin.sum_univ_three f
  simp only
  rw [hgr, hj, hsize, herr]
  refine ⟨by rw [j2, hsum], rfl, j3, ?_, ?_⟩
  · rw [sum_blocks (m := 3) E.limits (fun t => J.residual t ^ 2) (fun c => E.jwgt c * E.jwgt c * (c.diffIn (S (p i))).sqNorm) ?_,
      hsum]
    intro k c hk
    have := fun b => (j4 k c hk b).1
    simp only [this]
    rw [h3]
    simp only [Vec3.toFn, Vec3.sqNorm, Vec3.dot]; ring
  · rw [sum_blocks (m := 3) E.limits (fun t => J.e i t * J.residual t) (fun c => E.jwgt c * E.jwgt c *
      (c.diffIn (S (p i))).dot (posVel (S (p i)) (walk E.skeleton c) (fun r => pt.transform.coeff r i) (c.pointIn (S (p i))))) ?_]
    · simp only
      rw [g2 i hen, zero_add]
      have : ∀ l : List EllipsoidLimit, (∀ c ∈ l, c ∈ E.limits) → 2 * (l.map fun c => E.jwgt c * E.jwgt c *
          (c.diffIn (S (p i))).dot (posVel (S (p i)) (walk E.skeleton c) (fun r => pt.transform.coeff r i)
            (c.pointIn (S (p i))))).sum =
          (l.map (E.limitGrad (S (p i)) fun r => pt.transform.coeff r i)).sum := by
        intro l
        induction l with
        | nil => intro _; simp
        | cons c l ih =>
          intro h
          simp only [List.map_cons, List.sum_cons]
          rw [← ih fun c' h' => h c' (by simp [h']), weight_sq hw (h c (by simp))]
          unfold limitGrad; ring
      exact this _ fun _ h => h
    · intro k c hk
      have e1 := fun b => (j4 k c hk b).1
      have e2 := fun b => (j4 k c hk b).2 i hen
      simp only [e1, e2, zero_add]
      rw [h3]
      simp only [Vec3.toFn, Vec3.dot]; ring

open EllipsoidLimits in
/-- **C73**: if a parameter does not move the ellipsoid of limit `k`, its column in the three rows of that limit is the
derivative of the weighted difference between the limited point and the projected point, with the projected point held where
it is. -/
theorem C73_jacobian_frozen (E : EllipsoidLimits) (pt : ParameterTransform ℝ) (hF : E.Fits pt)
    (hW : ∀ c ∈ E.limits, c.Wellformed E.skeleton) (p : Nat → ℝ) (i : Nat) (hi : i < pt.transform.cols)
    (hen : E.enabledParameters.mem i = true) (k : Nat) (c : EllipsoidLimit) (hk : E.limits[k]? = some c)
    (hfix : c.Fixes E.skeleton pt.transform i) :
    ∃ S : ℝ → List JointState, (∀ u, E.stateFor pt (paramVec pt.transform.cols (Function.update p i u)) true = some (S u)) ∧
      ∃ q : Vec3 ℝ, (c.pointIn (S (p i)) ≠ c.centreIn (S (p i)) → c.surfaceIn (S (p i)) q) ∧ ∀ b : Fin 3,
        ((E.toErrorFunction pt).getJacobian p).residual (3 * k + b) =
          Real.sqrt (kLimitWeight * kEllipsoidWeight * E.weight * c.weight) * (c.pointIn (S (p i)) - q).toFn b ∧
        HasDerivAt (fun u => Real.sqrt (kLimitWeight * kEllipsoidWeight * E.weight * c.weight) * (c.pointIn (S u) - q).toFn b)
          (((E.toErrorFunction pt).getJacobian p).e i (3 * k + b)) (p i) := by
  obtain ⟨θ, S, hG, hlen, hθ, hs, herr⟩ := along hF hW p hi
  have hs0 := hs (p i)
  rw [Function.update_eq_self] at hs0
  obtain ⟨J, j1, j2, j3, j4⟩ := getJacobian_eq hF (hG (p i)) (hlen (p i)) hW (fun _ _ => 0) (fun _ => 0)
  have hj : (E.toErrorFunction pt).getJacobian p = J := by
    simp only [EllipsoidLimits.toErrorFunction, hs0, Option.bind_some, j1, Option.getD_some]
  have hc := hW c (List.mem_of_getElem? hk)
  obtain ⟨hu, hsc⟩ := (hG (p i)).worldOf_unit hF.skeleton hF.unit (some c.ellipsoidParent)
  have hworld := EllipsoidLimit.world_unitPoint hc.inverse hu hsc
  refine ⟨S, hs, c.pointIn (S (p i)) - c.diffIn (S (p i)), fun hne => ?_, fun b => ⟨?_, ?_⟩⟩
  · have hn0 : (c.unitPoint (S (p i))).sqNorm ≠ 0 := by
      intro h0
      apply hne
      rw [← hworld, vec_eq_of_sqNorm h0]; rfl
    have hn : (c.unitPoint (S (p i))).norm ^ 2 = (c.unitPoint (S (p i))).sqNorm := Real.sq_sqrt (vec_sqNorm_nonneg _)
    refine ⟨(c.unitPoint (S (p i))).norm⁻¹ • c.unitPoint (S (p i)), ?_, ?_⟩
    · rw [sqNorm_smul', inv_pow, hn]; exact inv_mul_cancel₀ hn0
    · rw [affine_apply_smul, transformPoint_line, hworld]
      show _ = c.centreIn (S (p i)) + _ • (c.pointIn (S (p i)) - c.centreIn (S (p i)))
      unfold EllipsoidLimit.diffIn
      ext <;> simp <;> ring
  · rw [hj, (j4 k c hk b).1]
    have : c.pointIn (S (p i)) - (c.pointIn (S (p i)) - c.diffIn (S (p i))) = c.diffIn (S (p i)) := by ext <;> simp
    rw [this]; rfl
  · rw [hj, (j4 k c hk b).2 i hen, zero_add]
    have hp := point_deriv hF.skeleton hF.unit hG hlen (fun r => hθ r (p i)) hc hfix
    have hq := hp.sub (HasVecDerivAt.const (c.pointIn (S (p i)) - c.diffIn (S (p i))) (p i))
    have hb : HasDerivAt (fun u => (c.pointIn (S u) - (c.pointIn (S (p i)) - c.diffIn (S (p i)))).toFn b)
        ((posVel (S (p i)) (walk E.skeleton c) (fun r => pt.transform.coeff r i) (c.pointIn (S (p i))) - 0).toFn b) (p i) := by
      fin_cases b
      · exact hq.1
      · exact hq.2.1
      · exact hq.2.2
    refine (hb.const_mul _).congr_deriv ?_
    rw [sub_zero]; rfl

end Momentum
