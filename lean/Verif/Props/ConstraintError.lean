import Verif.Lemmas.ConstraintCurve2

/-!
# C57: the gradients and Jacobians of the constraint error functions are derivatives of their errors
-/

namespace Momentum
open Skeleton

variable {m nv : Nat}

namespace ConstraintError

/-- What is needed of one constraint at the skeleton state `st`: its function is described by `F` on the placed vectors,
the matrix it reports is the derivative of `F` as far as the squared length of `F` is concerned, and it is not so small
that the code takes it for zero. -/
def Differentiable (E : ConstraintError m nv) (st : List JointState) (c : Constraint m nv) : Prop :=
  ∀ js, st[c.parent]? = some js → E.NotNegligible (c.eval js) ∧
    ∃ src F, Describes c.eval E.numPos src F ∧ IsSqDerivOf F (c.eval js).v (c.eval js).dfdv

end ConstraintError

/-- **C57.**  The error that `getGradient` returns is the error that `getError` computes, and what it adds to the gradient
is, for every enabled model parameter, the derivative of that error with respect to the parameter, through the
parameter transform and the whole kinematic chain; for the others it is nothing. -/
theorem C57_gradient (E : ConstraintError m nv) (pt : ParameterTransform ℝ) (hE : E.Valid pt) (a cl : ℝ) (hcl : 0 < cl)
    (hloss : GeneralizedLoss.make a cl = some E.loss) (p : List ℝ) (hp : p.length = pt.transform.cols)
    (st : List JointState) (hst : E.stateFor pt p true = some st)
    (hcs : ∀ c ∈ E.constraints, c.weight ≠ 0 → E.Differentiable st c) (gradient : Nat → ℝ) :
    ∃ err g, E.getGradient st gradient = some (err, g) ∧ E.errorAt pt p = some err ∧
      ∀ i < pt.transform.cols,
        (E.enabledParameters.mem i = true → (∀ u, (E.errorAt pt (p.set i u)).isSome) ∧
          HasDerivAt (fun u => (E.errorAt pt (p.set i u)).getD 0) (g i - gradient i) (p.getD i 0)) ∧
        (E.enabledParameters.mem i = false → g i = gradient i) := by
  obtain ⟨lo, l1, l2, l3⟩ := C30_deriv a cl hcl
  rw [hloss] at l1; cases l1
  have hch := fun j => chain_exists hE.skeleton j
  choose! chain hchain using hch
  -- the states at `p`
  obtain ⟨jp, hjp, hjs⟩ : ∃ jp, pt.apply p = some jp ∧ skeletonState E.skeleton jp true = some st := by
    unfold ConstraintError.stateFor at hst
    cases h : pt.apply p with
    | none => rw [h] at hst; cases hst
    | some jp => rw [h] at hst; exact ⟨jp, rfl, hst⟩
  obtain ⟨hgood, hlen, hjl⟩ := skeletonState_some hE.skeleton hjs
  have hdirty : ∀ js ∈ st, js.derivDirty = false := by
    intro js hj
    obtain ⟨j, hj1, hj2⟩ := List.mem_iff_getElem.1 hj
    have e : E.skeleton.joints[j]? = some (E.skeleton.joints[j]'(by omega)) := List.getElem?_eq_getElem _
    rw [hgood.eq j _ js e (by rw [List.getElem?_eq_getElem hj1, hj2]), set_derivDirty]; rfl
  have hpar : ∀ c ∈ E.constraints, c.parent < st.length := fun c hc => by rw [hlen]; exact hE.parents c hc
  have hat : ∀ c ∈ E.constraints, st[c.parent]? = some (stateAt st c.parent) := fun c hc => by
    have e : st[c.parent]? = some (st[c.parent]'(hpar c hc)) := List.getElem?_eq_getElem _
    rw [stateAt_eq e, e]
  obtain ⟨g, g1, g2⟩ := E.getGradient_eq hE l2 hlen hdirty (fun c hc hw => (hcs c hc hw _ (hat c hc)).1) chain
    (fun c hc => hchain _ (hE.parents c hc)) gradient
  -- the states without derivatives
  obtain ⟨st', s1, s2, s3⟩ := skeletonState_good hE.skeleton (params := jp) false hjl
  have hdesc : ∀ c ∈ E.constraints, c.weight ≠ 0 → ∃ src F, Describes c.eval E.numPos src F := fun c hc hw => by
    obtain ⟨-, src, F, h, -⟩ := hcs c hc hw _ (hat c hc)
    exact ⟨src, F, h⟩
  refine ⟨_, g, g1, ?_, fun i hi => ⟨fun hen => ?_, fun hdis => ?_⟩⟩
  · unfold ConstraintError.errorAt ConstraintError.stateFor
    rw [hjp, Option.bind_some, s1, Option.bind_some, E.getError_eq fun c hc => by rw [s3]; exact hE.parents c hc]
    congr 3
    refine List.map_congr_left fun c hc => (ConstraintError.errorTerm_cd (hdesc c hc) (hpar c hc)
      (by rw [s3]; exact hE.parents c hc) fun j => worldOf_cd hE.skeleton hgood s2 hlen s3 j).symm
  · obtain ⟨θ, S, S', k1, k2, k3, k4, k5, k6, k7⟩ := ConstraintError.states_curve hE hp hi
    have herr : ∀ u, E.errorAt pt (p.set i u) = some (E.weight * (E.constraints.map fun c => E.errorTerm (S u) c).sum) := by
      intro u
      unfold ConstraintError.errorAt
      rw [k2 u, Option.bind_some, E.getError_eq fun c hc => by rw [k5]; exact hE.parents c hc]
      congr 3
      refine List.map_congr_left fun c hc => (ConstraintError.errorTerm_cd (hdesc c hc)
        (by rw [k4]; exact hE.parents c hc) (by rw [k5]; exact hE.parents c hc) (k7 u)).symm
    refine ⟨fun u => by rw [herr]; rfl, ?_⟩
    have hfun : (fun u => (E.errorAt pt (p.set i u)).getD 0) =
        fun u => E.weight * (E.constraints.map fun c => E.errorTerm (S u) c).sum := by
      funext u; rw [herr]; rfl
    rw [hfun]
    have hSt : S (p.getD i 0) = st := by
      have := k1 (p.getD i 0)
      rw [ConstraintError.set_getD_self, hst] at this
      exact (Option.some.inj this).symm
    have hsum := hasDerivAt_list_sum E.constraints (fun c u => E.errorTerm (S u) c) (fun c => if c.weight = 0 then 0 else
        ∑ b, 2 * c.weight * E.loss.deriv (sqNormFn (c.eval (stateAt st c.parent)).f) *
          (c.eval (stateAt st c.parent)).f b * E.dF st (chain c.parent) (c.eval (stateAt st c.parent)) i b) (p.getD i 0) (by
      intro c hc
      by_cases hw : c.weight = 0
      · simp only [hw, if_true]
        have : (fun u => E.errorTerm (S u) c) = fun _ => 0 := by
          funext u; unfold ConstraintError.errorTerm; rw [if_pos hw]
        rw [this]; exact hasDerivAt_const _ _
      · rw [if_neg hw]
        obtain ⟨-, src, F, h, hD⟩ := hcs c hc hw _ (hat c hc)
        have := ConstraintError.errorTerm_deriv hE (fun s hs => (l3 s hs).1) hen k3 k4 (t := p.getD i 0) (fun r => k6 r _) hc hw
          (hchain _ (hE.parents c hc)) h (by rw [hSt]; exact hD)
        rw [hSt] at this
        exact this)
    refine (hsum.const_mul E.weight).congr_deriv ?_
    rw [g2, add_sub_cancel_left, ← List.sum_map_mul_left]
    congr 1
    refine List.map_congr_left fun c _ => ?_
    by_cases hw : c.weight = 0
    · simp [hw]
    · rw [if_neg hw, if_neg hw, Finset.mul_sum]
      exact Finset.sum_congr rfl fun b _ => by ring
  · rw [g2]
    have : (E.constraints.map fun c => if c.weight = 0 then 0 else
        ∑ b, 2 * (c.weight * E.weight) * E.loss.deriv (sqNormFn (c.eval (stateAt st c.parent)).f) *
          (c.eval (stateAt st c.parent)).f b * E.dF st (chain c.parent) (c.eval (stateAt st c.parent)) i b).sum = 0 := by
      refine List.sum_eq_zero fun x hx => ?_
      obtain ⟨c, -, rfl⟩ := List.mem_map.1 hx
      split_ifs with hw
      · rfl
      · refine Finset.sum_eq_zero fun b _ => ?_
        rw [ConstraintError.dF_disabled hdis, mul_zero]
    rw [this, add_zero]

namespace ConstraintError

/-- What is needed of one constraint at the skeleton state `st` for its rows of the Jacobian: as `Differentiable`, with
the full derivative of `F`, and the factor of the rows is not so small that the code leaves them out. -/
def RowsDifferentiable (E : ConstraintError m nv) (st : List JointState) (c : Constraint m nv) : Prop :=
  ∀ js, st[c.parent]? = some js → E.NotNegligible (c.eval js) ∧
    (E.rowScale c (c.eval js).f = 0 ∨ E.tiny ≤ E.rowScale c (c.eval js).f) ∧
    ∃ src F, Describes c.eval E.numPos src F ∧ IsDerivOf F (c.eval js).v (c.eval js).dfdv

end ConstraintError

/-- **C57.**  `getJacobian`, given blocks of zeros, returns the error that `getError` computes and, in the rows of
constraint number `n`, the value of the constraint's function and its derivatives with respect to the enabled model
parameters, both times `sqrt(weight * loss')`; the columns of disabled parameters and the rows of constraints with weight
zero stay zero. -/
theorem C57_jacobian (E : ConstraintError m nv) (pt : ParameterTransform ℝ) (hE : E.Valid pt)
    (p : List ℝ) (hp : p.length = pt.transform.cols)
    (st : List JointState) (hst : E.stateFor pt p true = some st)
    (hcs : ∀ c ∈ E.constraints, c.weight ≠ 0 → E.RowsDifferentiable st c) :
    ∃ J, E.getJacobian st (fun _ _ => 0) (fun _ => 0) = some J ∧ J.rows = m * E.constraints.length ∧
      E.errorAt pt p = some J.error ∧
      ∀ (n : Nat) (c : Constraint m nv), E.constraints[n]? = some c →
        (c.weight = 0 → ∀ b : Fin m, J.residual (m * n + b) = 0 ∧ ∀ i, J.e i (m * n + b) = 0) ∧
        (c.weight ≠ 0 → ∃ f : Fin m → ℝ, (∀ b, E.valueAt pt c b p = some (f b)) ∧ ∀ b : Fin m,
          J.residual (m * n + b) = E.rowScale c f * f b ∧
          ∀ i < pt.transform.cols,
            (E.enabledParameters.mem i = true → ∃ d, J.e i (m * n + b) = E.rowScale c f * d ∧
              (∀ u, (E.valueAt pt c b (p.set i u)).isSome) ∧
              HasDerivAt (fun u => (E.valueAt pt c b (p.set i u)).getD 0) d (p.getD i 0)) ∧
            (E.enabledParameters.mem i = false → J.e i (m * n + b) = 0)) := by
  have hch := fun j => chain_exists hE.skeleton j
  choose! chain hchain using hch
  obtain ⟨jp, hjp, hjs⟩ : ∃ jp, pt.apply p = some jp ∧ skeletonState E.skeleton jp true = some st := by
    unfold ConstraintError.stateFor at hst
    cases h : pt.apply p with
    | none => rw [h] at hst; cases hst
    | some jp => rw [h] at hst; exact ⟨jp, rfl, hst⟩
  obtain ⟨hgood, hlen, hjl⟩ := skeletonState_some hE.skeleton hjs
  have hdirty : ∀ js ∈ st, js.derivDirty = false := by
    intro js hj
    obtain ⟨j, hj1, hj2⟩ := List.mem_iff_getElem.1 hj
    have e : E.skeleton.joints[j]? = some (E.skeleton.joints[j]'(by omega)) := List.getElem?_eq_getElem _
    rw [hgood.eq j _ js e (by rw [List.getElem?_eq_getElem hj1, hj2]), set_derivDirty]; rfl
  have hpar : ∀ c ∈ E.constraints, c.parent < st.length := fun c hc => by rw [hlen]; exact hE.parents c hc
  have hat : ∀ c ∈ E.constraints, st[c.parent]? = some (stateAt st c.parent) := fun c hc => by
    have e : st[c.parent]? = some (st[c.parent]'(hpar c hc)) := List.getElem?_eq_getElem _
    rw [stateAt_eq e, e]
  -- constraints with weight zero do not matter for the smallness conditions
  have hzero : ∀ c ∈ E.constraints, c.weight = 0 → ∀ r : EvalResult m nv, E.rootDeriv c r = 0 := fun c _ hw r => by
    unfold ConstraintError.rootDeriv ConstraintError.rowScale; rw [hw]; simp
  obtain ⟨J, j1, j2, j3, j4⟩ := E.getJacobian_eq hE hlen hdirty
    (fun c hc hw k hk => (hcs c hc hw _ (hat c hc)).1.rows k hk)
    (fun c hc hlt => by
      by_cases hw : c.weight = 0
      · exact hzero c hc hw _
      · rcases (hcs c hc hw _ (hat c hc)).2.1 with h | h
        · exact h
        · exact absurd hlt (not_lt.2 h))
    chain (fun c hc => hchain _ (hE.parents c hc))
  obtain ⟨st', s1, s2, s3⟩ := skeletonState_good hE.skeleton (params := jp) false hjl
  have hdesc : ∀ c ∈ E.constraints, c.weight ≠ 0 → ∃ src F, Describes c.eval E.numPos src F := fun c hc hw => by
    obtain ⟨-, -, src, F, h, -⟩ := hcs c hc hw _ (hat c hc)
    exact ⟨src, F, h⟩
  -- values do not depend on whether the states carry derivatives
  have hval : ∀ c ∈ E.constraints, c.weight ≠ 0 → ∀ (q : List ℝ) (T T' : List JointState),
      E.stateFor pt q false = some T' → T.length = E.skeleton.joints.length → T'.length = E.skeleton.joints.length →
      (∀ j, worldOf T (some j) = worldOf T' (some j)) → ∀ b, E.valueAt pt c b q = some ((c.eval (stateAt T c.parent)).f b) := by
    intro c hc hw q T T' hq h1 h2 h3 b
    obtain ⟨src, F, h⟩ := hdesc c hc hw
    have hT : c.parent < T.length := by rw [h1]; exact hE.parents c hc
    have hT' : c.parent < T'.length := by rw [h2]; exact hE.parents c hc
    have e : T'[c.parent]? = some T'[c.parent] := List.getElem?_eq_getElem hT'
    unfold ConstraintError.valueAt
    rw [hq, Option.bind_some, e, Option.map_some, ← stateAt_eq e, ConstraintError.describes_f h hT,
      ConstraintError.describes_f h hT', h3]
  refine ⟨J, j1, j2, ?_, fun n c hn => ⟨fun hw b => ?_, fun hw => ?_⟩⟩
  · unfold ConstraintError.errorAt ConstraintError.stateFor
    rw [hjp, Option.bind_some, s1, Option.bind_some, E.getError_eq fun c hc => by rw [s3]; exact hE.parents c hc, j3]
    congr 3
    refine List.map_congr_left fun c hc => (ConstraintError.errorTerm_cd (hdesc c hc) (hpar c hc)
      (by rw [s3]; exact hE.parents c hc) fun j => worldOf_cd hE.skeleton hgood s2 hlen s3 j).symm
  · obtain ⟨h1, h2⟩ := j4 n c hn b
    rw [if_pos hw] at h1
    exact ⟨h1, fun i => by rw [h2, if_pos hw]⟩
  · have hc : c ∈ E.constraints := List.mem_of_getElem? hn
    refine ⟨(c.eval (stateAt st c.parent)).f, fun b => hval c hc hw p st st' (by
      unfold ConstraintError.stateFor; rw [hjp, Option.bind_some, s1]) hlen s3
      (fun j => worldOf_cd hE.skeleton hgood s2 hlen s3 j) b, fun b => ?_⟩
    obtain ⟨h1, h2⟩ := j4 n c hn b
    rw [if_neg hw] at h1
    refine ⟨h1, fun i hi => ⟨fun hen => ⟨_, by rw [h2, if_neg hw], ?_⟩, fun hdis => ?_⟩⟩
    · obtain ⟨θ, S, S', k1, k2, k3, k4, k5, k6, k7⟩ := ConstraintError.states_curve hE hp hi
      have hv := fun u => hval c hc hw (p.set i u) (S u) (S' u) (k2 u) (k4 u) (k5 u) (k7 u) b
      refine ⟨fun u => by rw [hv]; rfl, ?_⟩
      have hSt : S (p.getD i 0) = st := by
        have := k1 (p.getD i 0)
        rw [ConstraintError.set_getD_self, hst] at this
        exact (Option.some.inj this).symm
      have hfun : (fun u => (E.valueAt pt c b (p.set i u)).getD 0) = fun u => (c.eval (stateAt (S u) c.parent)).f b := by
        funext u; rw [hv]; rfl
      rw [hfun]
      obtain ⟨-, -, src, F, h, hD⟩ := hcs c hc hw _ (hat c hc)
      have := ConstraintError.value_deriv hE hen k3 k4 (t := p.getD i 0) (fun r => k6 r _) hc
        (hchain _ (hE.parents c hc)) h (by rw [hSt]; exact hD) b
      rw [hSt] at this
      exact this
    · rw [h2, if_neg hw, ConstraintError.dF_disabled hdis, mul_zero]

/-- **C57.**  With non-negative weights the gradient is `2 Jᵀ r` of the Jacobian and residual that `getJacobian`
fills in, for every loss. -/
theorem C57_jacobian_gradient (E : ConstraintError m nv) (pt : ParameterTransform ℝ) (hE : E.Valid pt) (a cl : ℝ)
    (hcl : 0 < cl) (hloss : GeneralizedLoss.make a cl = some E.loss) (hw0 : 0 ≤ E.weight)
    (hws : ∀ c ∈ E.constraints, 0 ≤ c.weight) (p : List ℝ)
    (st : List JointState) (hst : E.stateFor pt p true = some st)
    (hcs : ∀ c ∈ E.constraints, c.weight ≠ 0 → ∀ js, st[c.parent]? = some js → E.NotNegligible (c.eval js) ∧
      (E.rowScale c (c.eval js).f = 0 ∨ E.tiny ≤ E.rowScale c (c.eval js).f)) :
    ∃ err g J, E.getGradient st (fun _ => 0) = some (err, g) ∧ E.getJacobian st (fun _ _ => 0) (fun _ => 0) = some J ∧
      J.error = err ∧ ∀ i, g i = 2 * ∑ t ∈ Finset.range J.rows, J.e i t * J.residual t := by
  obtain ⟨lo, l1, l2, l3⟩ := C30_deriv a cl hcl
  rw [hloss] at l1; cases l1
  have hch := fun j => chain_exists hE.skeleton j
  choose! chain hchain using hch
  obtain ⟨jp, hjp, hjs⟩ : ∃ jp, pt.apply p = some jp ∧ skeletonState E.skeleton jp true = some st := by
    unfold ConstraintError.stateFor at hst
    cases h : pt.apply p with
    | none => rw [h] at hst; cases hst
    | some jp => rw [h] at hst; exact ⟨jp, rfl, hst⟩
  obtain ⟨hgood, hlen, hjl⟩ := skeletonState_some hE.skeleton hjs
  have hdirty : ∀ js ∈ st, js.derivDirty = false := by
    intro js hj
    obtain ⟨j, hj1, hj2⟩ := List.mem_iff_getElem.1 hj
    have e : E.skeleton.joints[j]? = some (E.skeleton.joints[j]'(by omega)) := List.getElem?_eq_getElem _
    rw [hgood.eq j _ js e (by rw [List.getElem?_eq_getElem hj1, hj2]), set_derivDirty]; rfl
  have hat : ∀ c ∈ E.constraints, st[c.parent]? = some (stateAt st c.parent) := fun c hc => by
    have e : st[c.parent]? = some (st[c.parent]'(by rw [hlen]; exact hE.parents c hc)) := List.getElem?_eq_getElem _
    rw [stateAt_eq e, e]
  obtain ⟨g, g1, g2⟩ := E.getGradient_eq hE l2 hlen hdirty (fun c hc hw => (hcs c hc hw _ (hat c hc)).1) chain
    (fun c hc => hchain _ (hE.parents c hc)) (fun _ => 0)
  obtain ⟨J, j1, j2, j3, j4⟩ := E.getJacobian_eq hE hlen hdirty
    (fun c hc hw k hk => (hcs c hc hw _ (hat c hc)).1.rows k hk)
    (fun c hc hlt => by
      by_cases hw : c.weight = 0
      · unfold ConstraintError.rootDeriv ConstraintError.rowScale; rw [hw]; simp
      · rcases (hcs c hc hw _ (hat c hc)).2 with h | h
        · exact h
        · exact absurd hlt (not_lt.2 h))
    chain (fun c hc => hchain _ (hE.parents c hc))
  refine ⟨_, g, J, g1, j1, j3, fun i => ?_⟩
  rw [g2, j2, zero_add, sum_blocks E.constraints _ (fun c => if c.weight = 0 then 0 else
    ∑ b, c.weight * E.weight * E.loss.deriv (sqNormFn (c.eval (stateAt st c.parent)).f) *
          (c.eval (stateAt st c.parent)).f b * E.dF st (chain c.parent) (c.eval (stateAt st c.parent)) i b),
    ← List.sum_map_mul_left]
  · congr 1
    refine List.map_congr_left fun c _ => ?_
    by_cases hw : c.weight = 0
    · simp [hw]
    · rw [if_neg hw, if_neg hw, Finset.mul_sum]
      exact Finset.sum_congr rfl fun b _ => by ring
  · intro n c hn
    have hc : c ∈ E.constraints := List.mem_of_getElem? hn
    by_cases hw : c.weight = 0
    · rw [if_pos hw]
      refine Finset.sum_eq_zero fun b _ => ?_
      rw [(j4 n c hn b).1, if_pos hw, mul_zero]
    · rw [if_neg hw]
      refine Finset.sum_congr rfl fun b _ => ?_
      rw [(j4 n c hn b).1, (j4 n c hn b).2, if_neg hw, if_neg hw]
      have hpos : 0 ≤ c.weight * E.weight * E.loss.deriv (sqNormFn (c.eval (stateAt st c.parent)).f) :=
        mul_nonneg (mul_nonneg (hws c hc) hw0) (l3 _ (Finset.sum_nonneg fun b _ => mul_self_nonneg _)).2.le
      have hsq := Real.mul_self_sqrt hpos
      have hr : E.rootDeriv c (c.eval (stateAt st c.parent)) =
        Real.sqrt (c.weight * E.weight * E.loss.deriv (sqNormFn (c.eval (stateAt st c.parent)).f)) := rfl
      rw [hr, ← hsq]
      rw [hsq]
      calc _ = (Real.sqrt (c.weight * E.weight * E.loss.deriv (sqNormFn (c.eval (stateAt st c.parent)).f)) *
            Real.sqrt (c.weight * E.weight * E.loss.deriv (sqNormFn (c.eval (stateAt st c.parent)).f))) *
            (c.eval (stateAt st c.parent)).f b * E.dF st (chain c.parent) (c.eval (stateAt st c.parent)) i b := by ring
        _ = _ := by rw [hsq]

/-- **C57.**  With the L2 loss and non-negative weights the error is the squared length of the residual. -/
theorem C57_residual_error (E : ConstraintError m nv) (pt : ParameterTransform ℝ) (hE : E.Valid pt) (cl : ℝ)
    (hcl : 0 < cl) (hloss : GeneralizedLoss.make 2 cl = some E.loss) (hw0 : 0 ≤ E.weight)
    (hws : ∀ c ∈ E.constraints, 0 ≤ c.weight) (p : List ℝ)
    (st : List JointState) (hst : E.stateFor pt p true = some st)
    (hcs : ∀ c ∈ E.constraints, c.weight ≠ 0 → ∀ js, st[c.parent]? = some js → E.NotNegligible (c.eval js) ∧
      (E.rowScale c (c.eval js).f = 0 ∨ E.tiny ≤ E.rowScale c (c.eval js).f)) :
    ∃ err J, E.getError st = some err ∧ E.getJacobian st (fun _ _ => 0) (fun _ => 0) = some J ∧
      err = ∑ t ∈ Finset.range J.rows, J.residual t ^ 2 := by
  have hch := fun j => chain_exists hE.skeleton j
  choose! chain hchain using hch
  obtain ⟨jp, hjp, hjs⟩ : ∃ jp, pt.apply p = some jp ∧ skeletonState E.skeleton jp true = some st := by
    unfold ConstraintError.stateFor at hst
    cases h : pt.apply p with
    | none => rw [h] at hst; cases hst
    | some jp => rw [h] at hst; exact ⟨jp, rfl, hst⟩
  obtain ⟨hgood, hlen, hjl⟩ := skeletonState_some hE.skeleton hjs
  have hdirty : ∀ js ∈ st, js.derivDirty = false := by
    intro js hj
    obtain ⟨j, hj1, hj2⟩ := List.mem_iff_getElem.1 hj
    have e : E.skeleton.joints[j]? = some (E.skeleton.joints[j]'(by omega)) := List.getElem?_eq_getElem _
    rw [hgood.eq j _ js e (by rw [List.getElem?_eq_getElem hj1, hj2]), set_derivDirty]; rfl
  have hat : ∀ c ∈ E.constraints, st[c.parent]? = some (stateAt st c.parent) := fun c hc => by
    have e : st[c.parent]? = some (st[c.parent]'(by rw [hlen]; exact hE.parents c hc)) := List.getElem?_eq_getElem _
    rw [stateAt_eq e, e]
  obtain ⟨J, j1, j2, j3, j4⟩ := E.getJacobian_eq hE hlen hdirty
    (fun c hc hw k hk => (hcs c hc hw _ (hat c hc)).1.rows k hk)
    (fun c hc hlt => by
      by_cases hw : c.weight = 0
      · unfold ConstraintError.rootDeriv ConstraintError.rowScale; rw [hw]; simp
      · rcases (hcs c hc hw _ (hat c hc)).2 with h | h
        · exact h
        · exact absurd hlt (not_lt.2 h))
    chain (fun c hc => hchain _ (hE.parents c hc))
  have hl2 : ∃ k : ℝ, 0 ≤ k ∧ (∀ s, E.loss.value s = s * k) ∧ ∀ s, E.loss.deriv s = k := by
    unfold GeneralizedLoss.make at hloss
    rw [if_pos hcl] at hloss
    have := (Option.some.inj hloss).symm
    rw [this]
    have ht : lossTypeOf 2 = .L2 := by unfold lossTypeOf; simp
    refine ⟨1 / (cl * cl), by positivity, fun s => ?_, fun s => ?_⟩
    · unfold GeneralizedLoss.value l2Loss; simp only [ht]
    · unfold GeneralizedLoss.deriv; simp only [ht]
  obtain ⟨k, hk, hval, hder⟩ := hl2
  refine ⟨_, J, E.getError_eq fun c hc => by rw [hlen]; exact hE.parents c hc, j1, ?_⟩
  rw [j2, sum_blocks E.constraints _ (fun c => E.weight * E.errorTerm st c), ← List.sum_map_mul_left]
  intro n c hn
  have hc : c ∈ E.constraints := List.mem_of_getElem? hn
  unfold ConstraintError.errorTerm
  by_cases hw : c.weight = 0
  · rw [if_pos hw, mul_zero]
    refine Finset.sum_eq_zero fun b _ => ?_
    rw [(j4 n c hn b).1, if_pos hw]; ring
  · rw [if_neg hw, hval]
    have hr : E.rootDeriv c (c.eval (stateAt st c.parent)) = Real.sqrt (c.weight * E.weight * k) := by
      unfold ConstraintError.rootDeriv ConstraintError.rowScale; rw [hder]
    have hsq := Real.sq_sqrt (mul_nonneg (mul_nonneg (hws c hc) hw0) hk)
    unfold sqNormFn
    rw [Finset.sum_mul, Finset.mul_sum, Finset.mul_sum]
    refine Finset.sum_congr rfl fun b _ => ?_
    rw [(j4 n c hn b).1, if_neg hw, hr, mul_pow, hsq]
    ring

end Momentum
