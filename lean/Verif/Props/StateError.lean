import Verif.Lemmas.StateError2

/-!
# C58: the state error function
-/

namespace Momentum
open Skeleton

/-- The state error function as the solver function sees it (skeleton_solver_function.cpp:48-86,108-162): the parameters
`p 0, p 1, …`, the skeleton state computed from them, zeros in the outputs, and `rows` set to zero before `getJacobian`.
The values for parameters whose state cannot be computed do not matter. -/
noncomputable def StateError.toErrorFunction (E : StateError) (pt : ParameterTransform ℝ) : ErrorFunction where
  weight := E.weight
  jacobianSize := E.getJacobianSize
  getError p := ((E.stateFor pt (paramVec pt.transform.cols p) false).bind fun st =>
    E.getError (paramVec pt.transform.cols p) st).getD 0
  getGradient p := ((E.stateFor pt (paramVec pt.transform.cols p) true).bind fun st =>
    E.getGradient (paramVec pt.transform.cols p) st fun _ => 0).getD (0, fun _ => 0)
  getJacobian p := ((E.stateFor pt (paramVec pt.transform.cols p) true).bind fun st =>
    E.getJacobian (paramVec pt.transform.cols p) st (fun _ _ => 0) (fun _ => 0) 0).getD ⟨0, 0, fun _ _ => 0, fun _ => 0⟩

/-- None of the weights is negative. -/
structure StateError.Weighted (E : StateError) : Prop where
  weight : 0 ≤ E.weight
  pos : 0 ≤ E.posWgt
  rot : 0 ≤ E.rotWgt
  poss : ∀ w ∈ E.targetPositionWeights, 0 ≤ w
  rots : ∀ w ∈ E.targetRotationWeights, 0 ≤ w

namespace StateError

theorem pwgt_nonneg {E : StateError} (h : E.Weighted) (j : Nat) : 0 ≤ E.pwgt j := by
  have h1 : 0 ≤ E.pw' j := by
    unfold pw'
    rw [List.getD_eq_getElem?_getD]
    cases e : E.targetPositionWeights[j]? with
    | none => simp
    | some w => exact h.poss w (List.mem_of_getElem? e)
  unfold pwgt kStatePositionWeight
  have := h.weight; have := h.pos
  positivity

theorem rwgt_nonneg {E : StateError} (h : E.Weighted) (j : Nat) : 0 ≤ E.rwgt j := by
  have h1 : 0 ≤ E.rw' j := by
    unfold rw'
    rw [List.getD_eq_getElem?_getD]
    cases e : E.targetRotationWeights[j]? with
    | none => simp
    | some w => exact h.rots w (List.mem_of_getElem? e)
  unfold rwgt kStateOrientationWeight
  have := h.weight; have := h.rot
  positivity

theorem total_cd {E : StateError} {p : List ℝ} {st st' : List JointState} (h : st.length = E.skeleton.joints.length)
    (h' : st'.length = E.skeleton.joints.length) (hw : ∀ j, worldOf st (some j) = worldOf st' (some j)) :
    E.total p st = E.total p st' := by
  unfold total
  congr 2
  refine List.map_congr_left fun j hj => ?_
  have hj := List.mem_range.1 hj
  have e : (stateAt st j).transform = (stateAt st' j).transform := by
    rw [worldOf_stateAt (by omega), worldOf_stateAt (by omega), hw]
  simp only [jointErr, rotDiff, posDiff, e]

theorem pd_set {E : StateError} {p : List ℝ} {i : Nat} (u : ℝ) (hi : i < p.length) (k : Nat) :
    E.pd (p.set i u) k = if k = i then (u - E.targetParameters.getD i 0) * E.targetParameterWeights.getD i 0
      else E.pd p k := by
  unfold pd
  by_cases h : k = i
  · subst h; simp [List.getD_eq_getElem?_getD, hi]
  · rw [if_neg h]; simp [List.getD_eq_getElem?_getD, Ne.symm h]

theorem pd_deriv (E : StateError) {p : List ℝ} {i : Nat} (hi : i < p.length) (k : Nat) (t : ℝ) :
    HasDerivAt (fun u => E.pd (p.set i u) k) (if k = i then E.targetParameterWeights.getD i 0 else 0) t := by
  simp only [pd_set _ hi]
  by_cases h : k = i
  · simp only [h, if_true]
    exact (((hasDerivAt_id t).sub_const _).mul_const _).congr_deriv (one_mul _)
  · simp only [h, if_false]
    exact hasDerivAt_const _ _

theorem paramVec_update (n : Nat) (p : Nat → ℝ) (i : Nat) (u : ℝ) :
    paramVec n (Function.update p i u) = (paramVec n p).set i u := map_range_update n p i u

theorem paramVec_length (n : Nat) (p : Nat → ℝ) : (paramVec n p).length = n := by simp [paramVec]

theorem paramVec_set_self (n : Nat) (p : Nat → ℝ) (i : Nat) : (paramVec n p).set i (p i) = paramVec n p := by
  rw [← paramVec_update, Function.update_eq_self]

end StateError

open StateError in
/-- What all calls return along a motion of parameter `i`. -/
theorem StateError.along {E : StateError} {pt : ParameterTransform ℝ} (hF : E.Fits pt) (hE : E.Sized)
    (hne : E.skeleton.joints ≠ []) (p : Nat → ℝ) {i : Nat} (hi : i < pt.transform.cols) :
    ∃ (θ : ℝ → List ℝ) (S : ℝ → List JointState) (ch : Nat → List Nat),
      (∀ u, FKGood E.skeleton (θ u) true (S u)) ∧ (∀ u, (S u).length = E.skeleton.joints.length) ∧
      (∀ r t, HasDerivAt (fun u => (θ u).getD r 0) (pt.transform.coeff r i) t) ∧
      (∀ j < E.skeleton.joints.length, Chain E.skeleton (some j) (ch j)) ∧
      (∀ u, E.stateFor pt (paramVec pt.transform.cols (Function.update p i u)) true = some (S u)) ∧
      (∀ u, (E.toErrorFunction pt).getError (Function.update p i u) =
        E.total (paramVec pt.transform.cols (Function.update p i u)) (S u)) := by
  obtain ⟨θ, S, S', h1, h2, h3, h4, h5, h6, h7⟩ := ErrorBase.states_curve hF (p := paramVec pt.transform.cols p)
    (paramVec_length _ _) hi
  have hc : ∀ j, ∃ l, j < E.skeleton.joints.length → Chain E.skeleton (some j) l := by
    intro j
    by_cases hj : j < E.skeleton.joints.length
    · obtain ⟨l, hl⟩ := chain_exists hF.skeleton j hj
      exact ⟨l, fun _ => hl⟩
    · exact ⟨[], fun h => absurd h hj⟩
  choose ch hch using hc
  refine ⟨θ, S, ch, h3, h4, h6, hch, fun u => by rw [paramVec_update]; exact h1 u, fun u => ?_⟩
  have hs : E.stateFor pt (paramVec pt.transform.cols (Function.update p i u)) false = some (S' u) := by
    rw [paramVec_update]; exact h2 u
  simp only [StateError.toErrorFunction, hs, Option.bind_some]
  rw [getError_eq hE hne (h5 u) (by rw [paramVec_length, hF.transform]), Option.getD_some]
  exact (total_cd (h4 u) (h5 u) (h7 u)).symm

open StateError in
/-- **C58**: the gradient of the state error function is the derivative of its error in an enabled parameter exactly when
the weight of the parameter is zero or one, or the parameter is on target, or the whole function is switched off.  The
full claim, that it always is, is refuted by `C58_gradient_wrong`. -/
theorem C58_gradient_partial (E : StateError) (pt : ParameterTransform ℝ) (hF : E.Fits pt) (hE : E.Sized)
    (hne : E.skeleton.joints ≠ []) (p : Nat → ℝ) (i : Nat) (hi : i < pt.transform.cols)
    (hen : E.enabledParameters.mem i = true) :
    (E.toErrorFunction pt).GradientIsDerivative p i ↔
      E.targetParameterWeights.getD i 0 = 0 ∨ E.targetParameterWeights.getD i 0 = 1 ∨
        p i = E.targetParameters.getD i 0 ∨ E.weight = 0 := by
  obtain ⟨θ, S, ch, hG, hlen, hθ, hch, hs, herr⟩ := StateError.along hF hE hne p hi
  have hn : ∀ q : Nat → ℝ, (paramVec pt.transform.cols q).length = E.transform.cols := fun q => by
    rw [paramVec_length, hF.transform]
  obtain ⟨g, g1, g2⟩ := getGradient_eq hF hE (hlen (p i)) (ErrorBase.clean_of_good (hG (p i)) (hlen _)) hch hne
    (hn p) (fun _ => 0)
  have g2 := g2 i (by rw [hF.transform]; exact hi) hen
  have hgr : (E.toErrorFunction pt).getGradient p = (E.total (paramVec pt.transform.cols p) (S (p i)), g) := by
    have := hs (p i)
    rw [Function.update_eq_self] at this
    simp only [StateError.toErrorFunction, this, Option.bind_some, g1, Option.getD_some]
  have h0 : (E.toErrorFunction pt).getError p = E.total (paramVec pt.transform.cols p) (S (p i)) := by
    have := herr (p i); rwa [Function.update_eq_self] at this
  have hfun : (fun u => (E.toErrorFunction pt).getError (Function.update p i u)) = fun u =>
      E.total ((paramVec pt.transform.cols p).set i u) (S u) := by
    funext u; rw [herr, paramVec_update]
  have hpi : (paramVec pt.transform.cols p).getD i 0 = p i := by
    simp [paramVec, List.getD_eq_getElem?_getD, hi]
  -- the true derivative
  have hder : HasDerivAt (fun u => E.total ((paramVec pt.transform.cols p).set i u) (S u))
      (2 * E.pd (paramVec pt.transform.cols p) i * E.targetParameterWeights.getD i 0 * E.weight +
        ((List.range E.skeleton.joints.length).map fun j => E.jointGrad (S (p i)) (ch j) i j).sum) (p i) := by
    unfold total
    refine HasDerivAt.add ?_ ?_
    · have := (HasDerivAt.fun_sum (u := Finset.range E.transform.cols) fun k _ =>
        (E.pd_deriv (p := paramVec pt.transform.cols p) (i := i) (by rw [paramVec_length]; exact hi) k (p i)).pow 2).mul_const
          E.weight
      refine this.congr_deriv ?_
      rw [Finset.sum_eq_single i]
      · rw [if_pos rfl, paramVec_set_self]; push_cast; ring
      · intro k _ hk; rw [if_neg hk, mul_zero]
      · intro h; exact absurd (Finset.mem_range.2 (by rw [hF.transform]; exact hi)) h
    · exact hasDerivAt_list_sum _ _ _ _ fun j hj =>
        jointErr_deriv hF hG hlen (fun r => hθ r (p i)) (hch j (List.mem_range.1 hj))
  unfold ErrorFunction.GradientIsDerivative
  rw [hgr, h0, hfun]
  simp only [true_and]
  have hiff : HasDerivAt (fun u => E.total ((paramVec pt.transform.cols p).set i u) (S u)) (g i) (p i) ↔
      E.pd (paramVec pt.transform.cols p) i * E.weight * (E.targetParameterWeights.getD i 0 - 1) = 0 := by
    constructor
    · intro h
      have := h.unique hder
      rw [g2] at this
      linarith
    · intro h
      refine hder.congr_deriv ?_
      rw [g2]
      linarith
  rw [hiff]
  unfold pd
  rw [hpi, mul_eq_zero, mul_eq_zero, mul_eq_zero, sub_eq_zero, sub_eq_zero]
  tauto

open StateError in
/-- **C58**: in every enabled parameter the Jacobian of the state error function is the derivative of its residuals, the
squares of the residuals add up to the error, and exactly the announced number of rows is filled.  The weights must not
be negative, and the parameter weights either all zero or not all within the precision of Eigen's `isZero`. -/
theorem C58_jacobian (E : StateError) (pt : ParameterTransform ℝ) (hF : E.Fits pt) (hE : E.Sized) (hW : E.Weighted)
    (hne : E.skeleton.joints ≠ []) (hprec : 0 ≤ E.precision)
    (hz : (∀ w ∈ E.targetParameterWeights, w = 0) ∨ ∃ w ∈ E.targetParameterWeights, E.precision < |w|)
    (p : Nat → ℝ) (i : Nat) (hi : i < pt.transform.cols) (hen : E.enabledParameters.mem i = true) :
    (E.toErrorFunction pt).JacobianIsDerivative p i ∧
      ((E.toErrorFunction pt).getJacobian p).rows = (E.toErrorFunction pt).jacobianSize := by
  classical
  obtain ⟨θ, S, ch, hG, hlen, hθ, hch, hs, herr⟩ := StateError.along hF hE hne p hi
  have hn : ∀ q : Nat → ℝ, (paramVec pt.transform.cols q).length = E.transform.cols := fun q => by
    rw [paramVec_length, hF.transform]
  -- rows, residuals and column `i` of the part for the parameters
  obtain ⟨r0, hr0, hjp⟩ : ∃ r0, (r0 = if ∀ w ∈ E.targetParameterWeights, |w| ≤ E.precision then 0
        else E.targetParameterWeights.length) ∧ ∀ u, ∃ s, E.jacParams (paramVec pt.transform.cols (Function.update p i u))
        (fun _ _ => 0) (fun _ => 0) = some s ∧ s.rows = r0 ∧
      s.error = (∑ k ∈ Finset.range E.transform.cols, E.pd ((paramVec pt.transform.cols p).set i u) k ^ 2) * E.weight ∧
      (∑ k ∈ Finset.range r0, (E.pd ((paramVec pt.transform.cols p).set i u) k * Real.sqrt E.weight) ^ 2) = s.error ∧
      (∀ t < r0, s.residual t = E.pd ((paramVec pt.transform.cols p).set i u) t * Real.sqrt E.weight) ∧
      (∀ t < r0, s.e i t = if t = i then E.targetParameterWeights.getD i 0 * Real.sqrt E.weight else 0) ∧
      (∀ t, r0 ≤ t → s.e i t = 0) := by
    by_cases hzero : ∀ w ∈ E.targetParameterWeights, |w| ≤ E.precision
    · refine ⟨0, by rw [if_pos hzero], fun u => ⟨⟨0, 0, fun _ _ => 0, fun _ => 0⟩, ?_, rfl, ?_, by simp, by simp, by simp,
        by simp⟩⟩
      · unfold jacParams; rw [if_pos hzero]
      · have hw0 : ∀ w ∈ E.targetParameterWeights, w = 0 := by
          rcases hz with h | ⟨w, h1, h2⟩
          · exact h
          · exact absurd (hzero w h1) (not_le.2 h2)
        rw [Finset.sum_eq_zero, zero_mul]
        intro k hk
        have : E.targetParameterWeights.getD k 0 = 0 := by
          rw [List.getD_eq_getElem?_getD]
          cases e : E.targetParameterWeights[k]? with
          | none => rfl
          | some w => exact hw0 w (List.mem_of_getElem? e)
        unfold pd; rw [this]; ring
    · refine ⟨E.transform.cols, by rw [if_neg hzero, hE.weights], fun u => ?_⟩
      have hj := congrArg (fun o : Option (List ℝ) => o.bind fun pdiff => some
        (⟨0 + sqNormList pdiff * E.weight, 0 + (paramVec pt.transform.cols (Function.update p i u)).length,
          fun c t => if c = t ∧ c < pdiff.length then E.targetParameterWeights.getD c 0 * Real.sqrt E.weight else 0,
          fun t => if t < pdiff.length then pdiff.getD t 0 * Real.sqrt E.weight else 0⟩ : JacobianResult))
        (pdiff_eq hE (hn (Function.update p i u)))
      refine ⟨_, (by unfold jacParams; rw [if_neg hzero]; exact hj), ?_, ?_, ?_, ?_, ?_, ?_⟩
      · simp only; rw [hn, zero_add]
      · simp only; rw [sqNormList_range, zero_add, paramVec_update]
      · simp only; rw [sqNormList_range, zero_add, paramVec_update, Finset.sum_mul]
        exact Finset.sum_congr rfl fun k _ => by rw [mul_pow, Real.sq_sqrt hW.weight]
      · intro t ht
        simp only [List.length_map, List.length_range]
        rw [if_pos ht, List.getD_eq_getElem?_getD, List.getElem?_map, List.getElem?_range ht, paramVec_update]; rfl
      · intro t ht
        simp only [List.length_map, List.length_range]
        by_cases h : i = t
        · rw [if_pos ⟨h, by omega⟩, if_pos h.symm]
        · rw [if_neg (fun hh => h hh.1), if_neg (fun hh => h hh.symm)]
      · intro t ht
        simp only [List.length_map, List.length_range]
        rw [if_neg (by omega)]
  choose s0 hs0 hrows0 herr0 hsq0 hres0 hcol0 hcolz0 using hjp
  have hfold := fun u => jac_fold hF hE (hlen u) (ErrorBase.clean_of_good (hG u) (hlen u)) hch
    (List.range E.skeleton.joints.length) (fun j hj => List.mem_range.1 hj) (s0 u)
  choose s1 hs1 herr1 hrows1 hout1 hblk1 using hfold
  have hgj : ∀ u, (E.toErrorFunction pt).getJacobian (Function.update p i u) = s1 u := by
    intro u
    simp only [StateError.toErrorFunction, hs u, Option.bind_some, StateError.getJacobian]
    rw [if_neg (not_mismatch hE (hlen u) (hn _)), hs0]
    simp only [Option.bind_eq_bind, Option.bind_some, hs1, Option.getD_some]
  have hgp : (E.toErrorFunction pt).getJacobian p = s1 (p i) := by
    rw [← hgj, Function.update_eq_self]
  have hrows : ∀ u, (s1 u).rows = r0 + 12 * (E.acts (List.range E.skeleton.joints.length)).length := fun u => by
    rw [hrows1, hrows0]
  have htot : ∀ u, (s1 u).error = (E.toErrorFunction pt).getError (Function.update p i u) := by
    intro u
    rw [herr1, herr0, herr, paramVec_update]; rfl
  have hsize : ((E.toErrorFunction pt).getJacobian p).rows = (E.toErrorFunction pt).jacobianSize := by
    rw [hgp, hrows, hr0]
    simp only [StateError.toErrorFunction, StateError.getJacobianSize]
    rw [← acts_length hE, add_comm]
    congr 1
    rw [mul_comm]
  refine ⟨⟨?_, hsize.le, fun u => ?_, fun u => ?_, fun t ht => ?_⟩, hsize⟩
  · rw [hgp, htot, Function.update_eq_self]
  · rw [hgp, hgj, hrows, hrows]
  · rw [hgp, hgj, hrows, ← htot, herr1, Finset.sum_range_add, ← hsq0 u]
    congr 1
    · refine Finset.sum_congr rfl fun t ht => ?_
      have ht := Finset.mem_range.1 ht
      rw [(hout1 u t (Or.inl (by rw [hrows0]; exact ht))).1, hres0 u t ht]
    · have hb := sum_blocks (m := 12) (E.acts (List.range E.skeleton.joints.length))
        (fun t => (s1 u).residual (r0 + t) ^ 2) (E.jointErr (S u)) (by
          intro k j hk
          rw [← res_sq (pwgt_nonneg hW j) (rwgt_nonneg hW j)]
          refine Finset.sum_congr rfl fun b _ => ?_
          have := (hblk1 u k j hk b).1
          rw [hrows0] at this
          rw [this])
      rw [hb]
      unfold acts
      rw [list_sum_filter]
      congr 1
      refine List.map_congr_left fun j _ => ?_
      by_cases h0 : E.rw' j = 0 ∧ E.pw' j = 0
      · rw [if_neg (by simpa using h0)]
        simp [jointErr, rwgt, pwgt, h0.1, h0.2]
      · rw [if_pos (decide_eq_true h0)]
  · rw [hgp, hrows] at ht
    rw [hgp]
    have hfun : (fun u => ((E.toErrorFunction pt).getJacobian (Function.update p i u)).residual t) =
        fun u => (s1 u).residual t := by funext u; rw [hgj]
    rw [hfun]
    by_cases htr : t < r0
    · have h1 : (fun u => (s1 u).residual t) =
          fun u => E.pd ((paramVec pt.transform.cols p).set i u) t * Real.sqrt E.weight := by
        funext u
        rw [(hout1 u t (Or.inl (by rw [hrows0]; exact htr))).1, hres0 u t htr]
      rw [h1, (hout1 (p i) t (Or.inl (by rw [hrows0]; exact htr))).2 i hen, hcol0 _ t htr]
      refine ((E.pd_deriv (p := paramVec pt.transform.cols p) (i := i) (by rw [paramVec_length]; exact hi) t
        (p i)).mul_const _).congr_deriv ?_
      by_cases h : t = i
      · rw [if_pos h, if_pos h]
      · rw [if_neg h, if_neg h, zero_mul]
    · obtain ⟨k, b, hk⟩ : ∃ (k : Nat) (b : Fin 12), t = r0 + (12 * k + b) :=
        ⟨(t - r0) / 12, ⟨(t - r0) % 12, Nat.mod_lt _ (by norm_num)⟩, by simp only; omega⟩
      have hkl : k < (E.acts (List.range E.skeleton.joints.length)).length := by omega
      obtain ⟨j, hj⟩ : ∃ j, (E.acts (List.range E.skeleton.joints.length))[k]? = some j :=
        ⟨_, List.getElem?_eq_getElem hkl⟩
      have hjl : j < E.skeleton.joints.length := by
        have := List.mem_of_getElem? hj
        exact List.mem_range.1 (List.mem_of_mem_filter this)
      have h1 : (fun u => (s1 u).residual t) = fun u => E.res (S u) j b := by
        funext u
        have := (hblk1 u k j hj b).1
        rw [hrows0, ← hk] at this
        exact this
      have h2 := (hblk1 (p i) k j hj b).2 i hen
      rw [hrows0, ← hk, hcolz0 (p i) t (by omega), zero_add] at h2
      rw [h1, h2]
      exact res_deriv hF hG hlen (fun r => hθ r (p i)) (hch j hjl) b

/-- **C58**, for any error function that is a sum of squares of residuals: the derivative of the error is twice the
product of the transposed Jacobian and the residual, so a solver may use either. -/
theorem C58_two_jacobian_residual (f : ErrorFunction) (p : Nat → ℝ) (i : Nat) (h : f.JacobianIsDerivative p i) :
    HasDerivAt (fun u => f.getError (Function.update p i u))
      (2 * ∑ t ∈ Finset.range (f.getJacobian p).rows, (f.getJacobian p).e i t * (f.getJacobian p).residual t) (p i) := by
  have hfun : (fun u => f.getError (Function.update p i u)) = fun u => ∑ t ∈ Finset.range (f.getJacobian p).rows,
      (f.getJacobian (Function.update p i u)).residual t ^ 2 := funext h.squares
  rw [hfun]
  refine (HasDerivAt.fun_sum fun t ht => (h.deriv t (Finset.mem_range.1 ht)).pow 2).congr_deriv ?_
  rw [Finset.mul_sum]
  refine Finset.sum_congr rfl fun t _ => ?_
  rw [Function.update_eq_self]; push_cast; ring

/-- **C58**: with no target, or one of another size, `getJacobian` returns without writing the number of rows.  The caller
in skeleton_error_function.h:94, multipose_solver.cpp:83 and sequence_solver.cpp:119,159 passes a variable it has not
initialized, so the number of rows is then indeterminate; skeleton_solver_function.cpp:147 passes zero. -/
theorem C58_rows_unset (E : StateError) (p : List ℝ) (st : List JointState) (J : Nat → Nat → ℝ) (r : Nat → ℝ)
    (h : E.targetState.length ≠ st.length) (n : Nat) : ∃ s, E.getJacobian p st J r n = some s ∧ s.rows = n := by
  refine ⟨⟨0, n, J, r⟩, ?_, rfl⟩
  unfold StateError.getJacobian
  exact if_pos (Or.inl h)

/-! ## A concrete case -/

/-- A root and a child one unit along x; the first model parameter moves the root along x, the second turns the child
about z. -/
def exBase : ErrorBase where
  skeleton := ⟨[⟨"root", none, Quat.one, 0⟩, ⟨"child", some 0, Quat.one, ⟨1, 0, 0⟩⟩]⟩
  transform := ⟨14, 2, [⟨0, 0, 1⟩, ⟨12, 1, 1⟩]⟩
  weight := 1
  activeJointParams := (List.replicate 14 false).set 0 true |>.set 12 true
  enabledParameters := ParameterSet.all

def exBaseTransform : ParameterTransform ℝ where
  name := ["tx", "rz"]
  transform := exBase.transform
  offsets := List.replicate 14 0
  activeJointParams := []
  parameterSets := []
  poseConstraints := []
  blendShapeParameters := []
  faceExpressionParameters := []

theorem exBase_fits : exBase.Fits exBaseTransform where
  skeleton := by
    intro j jt q h h2
    rcases j with _ | _ | j
    · cases h; cases h2
    · cases h; cases h2; omega
    · simp [exBase] at h
  unit := by
    intro jt h
    simp only [exBase, List.mem_cons, List.not_mem_nil, or_false] at h
    rcases h with rfl | rfl <;> simp [Quat.one, Quat.normSq]
  transform := rfl
  wf := by
    intro e h
    simp only [exBaseTransform, exBase, List.mem_cons, List.not_mem_nil, or_false] at h
    rcases h with rfl | rfl <;> simp [exBaseTransform, exBase]
  offs := by simp [exBaseTransform, exBase]
  rows := by simp [exBaseTransform, exBase]
  cols := by simp [exBaseTransform, exBase, kMaxModelParams]
  activeLength := by simp [exBaseTransform, exBase]
  active := by
    intro r i _ h
    by_cases h0 : r = 0
    · subst h0; simp [exBase]
    · by_cases h1 : r = 12
      · subst h1; simp [exBase]
      · exfalso; apply h
        simp [SparseMat.coeff, exBaseTransform, exBase, List.filter_cons]
        rw [if_neg (fun hh => h0 hh.1.symm), if_neg (fun hh => h1 hh.1.symm)]; rfl

/-- Targets away from the rest pose for both joints, and weight `w` on the first parameter. -/
noncomputable def exState (w : ℝ) : StateError where
  toErrorBase := exBase
  targetState := [⟨⟨0, 0, 1, 0⟩, ⟨3, 4, 5⟩, 1⟩, ⟨⟨1, 0, 0, 0⟩, ⟨1, 2, 3⟩, 1⟩]
  targetParameters := [0, 0]
  targetParameterWeights := [w, 0]
  targetPositionWeights := [1, 2]
  targetRotationWeights := [1, 0]
  posWgt := 1
  rotWgt := 1
  precision := 1 / 10 ^ 12

theorem exState_sized (w : ℝ) : (exState w).Sized := by
  constructor <;> simp [exState, exBase]

/-- The hypotheses of `C58_jacobian` are met. -/
example : (exState 2).Fits exBaseTransform ∧ (exState 2).Sized ∧ (exState 2).Weighted ∧ (exState 2).skeleton.joints ≠ [] ∧
    0 ≤ (exState 2).precision ∧ (∃ w ∈ (exState 2).targetParameterWeights, (exState 2).precision < |w|) ∧
    (exState 2).enabledParameters.mem 0 = true ∧ (exState 2).enabledParameters.mem 1 = true := by
  refine ⟨exBase_fits, exState_sized 2, ⟨?_, ?_, ?_, ?_, ?_⟩, by simp [exState, exBase], by simp [exState],
    ⟨2, by simp [exState], by norm_num [exState]⟩, ?_, ?_⟩
  · norm_num [exState, exBase]
  · norm_num [exState]
  · norm_num [exState]
  · simp [exState]
  · simp [exState]
  · simp [exState, exBase, ParameterSet.all, ParameterSet.mem, kMaxModelParams]
  · simp [exState, exBase, ParameterSet.all, ParameterSet.mem, kMaxModelParams]

/-- **C58** fails for the gradient: with weight 2 on a parameter that is one off its target, the gradient is not the
derivative of the error. -/
theorem C58_gradient_wrong : ∃ (E : StateError) (pt : ParameterTransform ℝ), E.Fits pt ∧ E.Sized ∧ E.Weighted ∧
    E.skeleton.joints ≠ [] ∧ E.enabledParameters.mem 0 = true ∧
    ¬ (E.toErrorFunction pt).GradientIsDerivative (fun _ => 1) 0 := by
  have hm : (exState 2).enabledParameters.mem 0 = true := by
    simp [exState, exBase, ParameterSet.all, ParameterSet.mem, kMaxModelParams]
  refine ⟨exState 2, exBaseTransform, exBase_fits, exState_sized 2, ⟨?_, ?_, ?_, ?_, ?_⟩, by simp [exState, exBase], hm, ?_⟩
  · norm_num [exState, exBase]
  · norm_num [exState]
  · norm_num [exState]
  · simp [exState]
  · simp [exState]
  · rw [C58_gradient_partial (exState 2) exBaseTransform exBase_fits (exState_sized 2) (by simp [exState, exBase]) _ 0
      (by simp [exBaseTransform, exBase]) hm]
    norm_num [exState, exBase]

end Momentum
