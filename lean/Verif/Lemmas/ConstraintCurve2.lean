import Verif.Lemmas.ConstraintCurve

/-!
# The error and the functions of the constraints along a motion of one model parameter
-/

namespace Momentum
open Skeleton

theorem IsDerivOf.sq {m nv : Nat} {F : (Fin nv → Vec3 ℝ) → Fin m → ℝ} {y0 : Fin nv → Vec3 ℝ}
    {D : Fin nv → Fin m → Vec3 ℝ} (h : IsDerivOf F y0 D) : IsSqDerivOf F y0 D := by
  intro y y' t hy hy'
  have h1 := h y y' t hy hy'
  apply HasDerivAt.fun_sum
  intro i _
  refine ((h1 i).pow 2).congr_deriv ?_
  rw [hy]
  push_cast
  ring

theorem sum_blocks {α : Type} {m : Nat} (l : List α) (G : Nat → ℝ) (h : α → ℝ)
    (hb : ∀ (n : Nat) (c : α), l[n]? = some c → ∑ b : Fin m, G (m * n + b) = h c) :
    ∑ t ∈ Finset.range (m * l.length), G t = (l.map h).sum := by
  induction l using List.reverseRecOn with
  | nil => simp
  | append_singleton l c ih =>
    rw [List.length_append, List.length_singleton, Nat.mul_add, Nat.mul_one, Finset.sum_range_add, ih, List.map_append,
      List.sum_append]
    · congr 1
      rw [List.map_singleton, List.sum_singleton, ← hb l.length c (by simp)]
      exact Finset.sum_range fun b => G (m * l.length + b)
    · intro n c' hn
      exact hb n c' (by rw [List.getElem?_append_left (getElem?_lt hn)]; exact hn)

namespace ConstraintError
variable {m nv : Nat}

/-- The states along a motion of model parameter `i`. -/
theorem states_curve {E : ConstraintError m nv} {pt : ParameterTransform ℝ} (hE : E.Valid pt) {p : List ℝ}
    (hp : p.length = pt.transform.cols) {i : Nat} (hi : i < pt.transform.cols) :
    ∃ (θ : ℝ → List ℝ) (S S' : ℝ → List JointState), (∀ u, E.stateFor pt (p.set i u) true = some (S u)) ∧
      (∀ u, E.stateFor pt (p.set i u) false = some (S' u)) ∧
      (∀ u, FKGood E.skeleton (θ u) true (S u)) ∧ (∀ u, (S u).length = E.skeleton.joints.length) ∧
      (∀ u, (S' u).length = E.skeleton.joints.length) ∧
      (∀ r t, HasDerivAt (fun u => (θ u).getD r 0) (pt.transform.coeff r i) t) ∧
      ∀ u j, worldOf (S u) (some j) = worldOf (S' u) (some j) := by
  obtain ⟨θ, h1, h2, h3⟩ := apply_curve pt hE.wf hE.offs hp hi
  have hx := fun u => skeletonState_good hE.skeleton (params := θ u) true (by rw [h2 u, hE.rows])
  have hx' := fun u => skeletonState_good hE.skeleton (params := θ u) false (by rw [h2 u, hE.rows])
  choose S s1 s2 s3 using hx
  choose S' t1 t2 t3 using hx'
  refine ⟨θ, S, S', fun u => ?_, fun u => ?_, s2, s3, t3, h3, fun u j => worldOf_cd hE.skeleton (s2 u) (t2 u) (s3 u) (t3 u) j⟩
  · unfold stateFor; rw [h1, Option.bind_some, s1]
  · unfold stateFor; rw [h1, Option.bind_some, t1]

theorem describes_f {eval : JointState → EvalResult m nv} {np : Nat} {src : Fin nv → Vec3 ℝ}
    {F : (Fin nv → Vec3 ℝ) → Fin m → ℝ} (h : Describes eval np src F) {st : List JointState} {j : Nat}
    (hj : j < st.length) : (eval (stateAt st j)).f = F (placed np (worldOf st (some j)) src) := by
  rw [h.f, placed_world hj]

theorem describes_v {eval : JointState → EvalResult m nv} {np : Nat} {src : Fin nv → Vec3 ℝ}
    {F : (Fin nv → Vec3 ℝ) → Fin m → ℝ} (h : Describes eval np src F) {st : List JointState} {j : Nat}
    (hj : j < st.length) : (eval (stateAt st j)).v = placed np (worldOf st (some j)) src := by
  rw [h.v, placed_world hj]

/-- The error does not depend on whether the states carry derivatives. -/
theorem errorTerm_cd {E : ConstraintError m nv} {c : Constraint m nv} {st st' : List JointState}
    (hd : c.weight ≠ 0 → ∃ src F, Describes c.eval E.numPos src F) (hj : c.parent < st.length) (hj' : c.parent < st'.length)
    (hw : ∀ j, worldOf st (some j) = worldOf st' (some j)) : E.errorTerm st c = E.errorTerm st' c := by
  unfold errorTerm
  by_cases h0 : c.weight = 0
  · rw [if_pos h0, if_pos h0]
  · rw [if_neg h0, if_neg h0]
    obtain ⟨src, F, h⟩ := hd h0
    rw [describes_f h hj, describes_f h hj', hw]

theorem set_getD_self (p : List ℝ) (i : Nat) : p.set i (p.getD i 0) = p := by
  by_cases hi : i < p.length
  · rw [List.getD_eq_getElem?_getD, List.getElem?_eq_getElem hi, Option.getD_some, List.set_getElem_self]
  · rw [List.set_eq_of_length_le (by omega)]

/-- The derivative of the part of one constraint. -/
theorem errorTerm_deriv {E : ConstraintError m nv} {pt : ParameterTransform ℝ} (hE : E.Valid pt)
    (hl : ∀ s, 0 ≤ s → HasDerivAt E.loss.value (E.loss.deriv s) s) {i : Nat}
    (hen : E.enabledParameters.mem i = true) {θ : ℝ → List ℝ} {S : ℝ → List JointState}
    (hG : ∀ u, FKGood E.skeleton (θ u) true (S u)) (hlen : ∀ u, (S u).length = E.skeleton.joints.length) {t : ℝ}
    (hθ : ∀ r, HasDerivAt (fun u => (θ u).getD r 0) (pt.transform.coeff r i) t) {c : Constraint m nv}
    (hc : c ∈ E.constraints) (hw : c.weight ≠ 0) {chain : List Nat} (hch : Chain E.skeleton (some c.parent) chain)
    {src : Fin nv → Vec3 ℝ} {F : (Fin nv → Vec3 ℝ) → Fin m → ℝ} (hd : Describes c.eval E.numPos src F)
    (hD : IsSqDerivOf F (c.eval (stateAt (S t) c.parent)).v (c.eval (stateAt (S t) c.parent)).dfdv) :
    HasDerivAt (fun u => E.errorTerm (S u) c)
      (∑ b, 2 * c.weight * E.loss.deriv (sqNormFn (c.eval (stateAt (S t) c.parent)).f) *
        (c.eval (stateAt (S t) c.parent)).f b * E.dF (S t) chain (c.eval (stateAt (S t) c.parent)) i b) t := by
  have hpar : ∀ u, c.parent < (S u).length := fun u => by rw [hlen]; exact hE.parents c hc
  have hrates : E.rates i = fun r => pt.transform.coeff r i := by
    funext r; unfold rates; rw [if_pos hen, hE.transform]
  have hcurve := fun k => placed_curve (np := E.numPos) hE.skeleton hE.unit hG hlen hθ hch src k
  have hv := describes_v hd (hpar t)
  have hf := describes_f hd (hpar t)
  have h1 := hD (fun u => placed E.numPos (worldOf (S u) (some c.parent)) src) _ t hv.symm hcurve
  have hfun : (fun u => E.errorTerm (S u) c) = fun u => c.weight * E.loss.value
      (∑ b, F (placed E.numPos (worldOf (S u) (some c.parent)) src) b ^ 2) := by
    funext u
    unfold errorTerm
    rw [if_neg hw, describes_f hd (hpar u)]
    congr 2
    exact Finset.sum_congr rfl fun b _ => (sq _).symm
  rw [hfun]
  have hs : sqNormFn (c.eval (stateAt (S t) c.parent)).f =
      ∑ b, F (placed E.numPos (worldOf (S t) (some c.parent)) src) b ^ 2 := by
    rw [hf]; exact Finset.sum_congr rfl fun b _ => (sq _).symm
  have h2 := (hl _ (Finset.sum_nonneg fun b _ => sq_nonneg _)).comp t h1
  refine (h2.const_mul c.weight).congr_deriv ?_
  rw [hs, Finset.mul_sum, Finset.mul_sum]
  refine Finset.sum_congr rfl fun b _ => ?_
  have : E.dF (S t) chain (c.eval (stateAt (S t) c.parent)) i b = ∑ k, ((c.eval (stateAt (S t) c.parent)).dfdv k b).dot
      (velocity (S t) chain (decide (k.val < E.numPos)) (fun r => pt.transform.coeff r i)
        (placed E.numPos (worldOf (S t) (some c.parent)) src k)) := by
    unfold dF
    rw [hrates, hv]
  rw [this, hf, hv]
  ring

/-- The derivative of one component of the function of a constraint. -/
theorem value_deriv {E : ConstraintError m nv} {pt : ParameterTransform ℝ} (hE : E.Valid pt) {i : Nat}
    (hen : E.enabledParameters.mem i = true) {θ : ℝ → List ℝ} {S : ℝ → List JointState}
    (hG : ∀ u, FKGood E.skeleton (θ u) true (S u)) (hlen : ∀ u, (S u).length = E.skeleton.joints.length) {t : ℝ}
    (hθ : ∀ r, HasDerivAt (fun u => (θ u).getD r 0) (pt.transform.coeff r i) t) {c : Constraint m nv}
    (hc : c ∈ E.constraints) {chain : List Nat} (hch : Chain E.skeleton (some c.parent) chain)
    {src : Fin nv → Vec3 ℝ} {F : (Fin nv → Vec3 ℝ) → Fin m → ℝ} (hd : Describes c.eval E.numPos src F)
    (hD : IsDerivOf F (c.eval (stateAt (S t) c.parent)).v (c.eval (stateAt (S t) c.parent)).dfdv) (b : Fin m) :
    HasDerivAt (fun u => (c.eval (stateAt (S u) c.parent)).f b)
      (E.dF (S t) chain (c.eval (stateAt (S t) c.parent)) i b) t := by
  have hpar : ∀ u, c.parent < (S u).length := fun u => by rw [hlen]; exact hE.parents c hc
  have hrates : E.rates i = fun r => pt.transform.coeff r i := by
    funext r; unfold rates; rw [if_pos hen, hE.transform]
  have hcurve := fun k => placed_curve (np := E.numPos) hE.skeleton hE.unit hG hlen hθ hch src k
  have hv := describes_v hd (hpar t)
  have h1 := hD (fun u => placed E.numPos (worldOf (S u) (some c.parent)) src) _ t hv.symm hcurve b
  have hfun : (fun u => (c.eval (stateAt (S u) c.parent)).f b) =
      fun u => F (placed E.numPos (worldOf (S u) (some c.parent)) src) b := by
    funext u; rw [describes_f hd (hpar u)]
  rw [hfun]
  refine h1.congr_deriv ?_
  unfold dF
  rw [hrates, hv]

/-- A disabled parameter moves nothing. -/
theorem dF_disabled {E : ConstraintError m nv} {i : Nat} (hen : E.enabledParameters.mem i = false) (st : List JointState)
    (chain : List Nat) (r : EvalResult m nv) (b : Fin m) : E.dF st chain r i b = 0 := by
  have hr : E.rates i = fun _ => 0 := by
    funext r; unfold rates; rw [if_neg (by simp [hen])]
  unfold dF
  rw [hr]
  refine Finset.sum_eq_zero fun k _ => ?_
  have : velocity st chain (decide (k.val < E.numPos)) (fun _ => 0) (r.v k) = 0 := by
    unfold velocity
    refine List.sum_eq_zero fun x hx => ?_
    simp only [List.mem_map] at hx
    obtain ⟨a, -, rfl⟩ := hx
    ext <;> simp
  rw [this]; simp [Vec3.dot]

end ConstraintError
end Momentum
