import Verif.Lemmas.Limits
import Verif.Props.ParameterTransform

/-!
# C18, C19: passive limits and the limit error function
-/

namespace Momentum
open LimitErrorFunction

section
variable {K : Type} [LinearOrder K]

/-- **C18** if the indices are in range the result is the vector in which every joint parameter has been
clamped by its passive limits, one after the other. -/
theorem C18_clamps (limits : List (ParameterLimit K)) (jp : List K)
    (h : ∀ l ∈ limits, ∀ k ∈ l.passiveIndex, k < jp.length) :
    ∃ r, applyPassiveJointParameterLimits limits jp = .ok r ∧ r.length = jp.length ∧
      ∀ k x, jp[k]? = some x →
        r[k]? = some ((limits.filterMap (·.passiveOn k)).foldl (fun x iv => clampTo iv.1 iv.2 x) x) := by
  obtain ⟨r, h1, h2, h3⟩ := passive_fold_ok limits jp rfl h
  exact ⟨r, h1, h2, fun k x hx => by rw [h3, hx]; rfl⟩

/-- **C18** parameters without a passive limit (so with only other kinds of limits) are unchanged. -/
theorem C18_untouched (limits : List (ParameterLimit K)) (jp r : List K)
    (h : ∀ l ∈ limits, ∀ k ∈ l.passiveIndex, k < jp.length)
    (hr : applyPassiveJointParameterLimits limits jp = .ok r) (k : Nat)
    (hk : ∀ l ∈ limits, l.passiveIndex ≠ some k) : r[k]? = jp[k]? := by
  obtain ⟨r', h1, h2, h3⟩ := passive_fold_ok limits jp rfl h
  have : r = r' := by
    have := hr.symm.trans h1
    simpa using this
  subst this
  rw [h3]
  have : limits.filterMap (·.passiveOn k) = [] := by
    rw [List.filterMap_eq_nil_iff]
    intro l hl
    have := hk l hl
    obtain ⟨d, w⟩ := l
    cases d <;> simp_all [ParameterLimit.passiveOn, ParameterLimit.passiveIndex]
  rw [this]
  simp

/-- **C18** every limited parameter ends up within its last passive limit. -/
theorem C18_within_last (l1 l2 : List (ParameterLimit K)) (l : ParameterLimit K) (jp r : List K)
    (h : ∀ l' ∈ l1 ++ l :: l2, ∀ k ∈ l'.passiveIndex, k < jp.length)
    (hr : applyPassiveJointParameterLimits (l1 ++ l :: l2) jp = .ok r)
    (j d : Nat) (lo hi : K) (hl : l.data = .minMaxJointPassive j d lo hi) (hlh : lo ≤ hi)
    (hlast : ∀ l' ∈ l2, l'.passiveIndex ≠ some (j * 7 + d)) :
    ∃ x, r[j * 7 + d]? = some x ∧ lo ≤ x ∧ x ≤ hi := by
  obtain ⟨r', h1, h2, h3⟩ := passive_fold_ok (l1 ++ l :: l2) jp rfl h
  have : r = r' := by
    have := hr.symm.trans h1
    simpa using this
  subst this
  have hlt : j * 7 + d < jp.length := h l (by simp) _ (by simp [ParameterLimit.passiveIndex, hl])
  have e2 : l2.filterMap (·.passiveOn (j * 7 + d)) = [] := by
    rw [List.filterMap_eq_nil_iff]
    intro l' hl'
    have := hlast l' hl'
    obtain ⟨d', w⟩ := l'
    cases d' <;> simp_all [ParameterLimit.passiveOn, ParameterLimit.passiveIndex]
  have e1 : l.passiveOn (j * 7 + d) = some (lo, hi) := by simp [ParameterLimit.passiveOn, hl]
  rw [h3, List.getElem?_eq_getElem hlt, List.filterMap_append, List.filterMap_cons, e1, e2]
  simp only [Option.map_some, List.foldl_append, List.foldl_cons, List.foldl_nil]
  refine ⟨_, rfl, ?_, min_le_left _ _⟩
  exact le_min hlh (le_max_left _ _)

/-- **C18** applying the limits a second time changes nothing. -/
theorem C18_idempotent (limits : List (ParameterLimit K)) (jp r : List K)
    (h : ∀ l ∈ limits, ∀ k ∈ l.passiveIndex, k < jp.length)
    (hr : applyPassiveJointParameterLimits limits jp = .ok r) :
    applyPassiveJointParameterLimits limits r = .ok r := by
  obtain ⟨r', h1, h2, h3⟩ := passive_fold_ok limits jp rfl h
  have : r = r' := by
    have := hr.symm.trans h1
    simpa using this
  subst this
  obtain ⟨r2, g1, g2, g3⟩ := passive_fold_ok limits r rfl (by rw [h2]; exact h)
  have : r2 = r := by
    apply List.ext_getElem?
    intro k
    rw [g3, h3]
    cases jp[k]? with
    | none => rfl
    | some x =>
      simp only [Option.map_some, Option.some.injEq]
      rcases clamp_fold (limits.filterMap (·.passiveOn k)) with h | ⟨a, b, _, h⟩
      · rw [h]; rfl
      · rw [h, h, clamp_idem]
  unfold applyPassiveJointParameterLimits
  rw [g1, this]

/-- **C18 (partial)** the vector is never read outside its bounds, provided no passive limit has an index equal
to the number of joint parameters.  The full claim (without that hypothesis) is false:
`C18_out_of_bounds_counterexample`. -/
theorem C18_never_reads_outside_partial (limits : List (ParameterLimit K)) (jp : List K)
    (h : ∀ l ∈ limits, l.passiveIndex ≠ some jp.length) :
    applyPassiveJointParameterLimits limits jp ≠ .ub := by
  unfold applyPassiveJointParameterLimits
  have gen : ∀ (limits : List (ParameterLimit K)) (res : List K), res.length = jp.length →
      (∀ l ∈ limits, l.passiveIndex ≠ some jp.length) →
      limits.foldl (fun (acc : Outcome (List K)) l => acc.bind fun res => passiveStep jp.length res l) (.ok res)
        ≠ .ub := by
    intro limits
    induction limits with
    | nil => intro res _ _; simp
    | cons l limits ih =>
      intro res hres hl
      rw [List.foldl_cons]
      by_cases hlt : ∀ k ∈ l.passiveIndex, k < jp.length
      · obtain ⟨r, h1, h2, _⟩ := passiveStep_ok hres hlt
        simp only [Outcome.bind, h1]
        exact ih r h2 fun l' hl' => hl l' (List.mem_cons_of_mem _ hl')
      · have : passiveStep jp.length res l = .throws := by
          have hne := hl l List.mem_cons_self
          obtain ⟨d, w⟩ := l
          cases d <;> simp [ParameterLimit.passiveIndex] at hlt hne
          rename_i j d lo hi
          unfold passiveStep
          simp only
          rw [if_neg (by omega)]
        have e : (Outcome.ok res).bind (fun res => passiveStep jp.length res l) = .throws := this
        rw [e, outcome_foldl_stuck _ _ _ (Or.inr rfl)]
        simp
  exact gen limits jp rfl h

/-- **C18** finding: with an index equal to the vector size the check passes and the code reads (and possibly
writes) one element past the end. -/
theorem C18_out_of_bounds_counterexample :
    applyPassiveJointParameterLimits [⟨.minMaxJointPassive 1 0 0 1, 1⟩] ([1, 2, 3, 4, 5, 6, 7] : List Int) = .ub := by
  decide

/-- Overlapping and disjoint intervals on one parameter, one of another kind, and an untouched parameter. -/
example : applyPassiveJointParameterLimits
    [⟨.minMaxJointPassive 0 1 0 1, 1⟩, ⟨.minMax 0 0 0, 1⟩, ⟨.minMaxJointPassive 0 1 3 4, 1⟩]
    ([10, 20, 30, 40, 50, 60, 70] : List Int) = .ok [10, 3, 30, 40, 50, 60, 70] := by decide

end

/-! ### C19 -/

variable {f : LimitErrorFunction} {pt : ParameterTransform ℝ}

theorem apply_defined (hv : f.Valid pt) (p : List ℝ) (hp : p.length = pt.transform.cols) :
    ∃ jp, pt.apply p = some jp ∧ jp.length = pt.transform.rows ∧ ∀ i < pt.transform.rows, jp.getD i 0 =
      ∑ j ∈ Finset.range pt.transform.cols, pt.transform.coeff i j * p.getD j 0 + pt.offsets.getD i 0 := by
  have : pt.apply p = some (addVec (pt.transform.mulVec p) pt.offsets) := by
    unfold ParameterTransform.apply; rw [if_pos hp, if_pos hv.offs]
  obtain ⟨_, _, h3, h4⟩ := (C13_apply_affine pt hv.wf p _).mp this
  refine ⟨_, this, h3, fun i hi => ?_⟩
  rw [List.getD_eq_getElem?_getD, h4 i hi]; rfl

theorem errorAt_eq (hv : f.Valid pt) (p jp : List ℝ) (hjp : pt.apply p = some jp)
    (hp : p.length = pt.transform.cols) (hj : jp.length = pt.transform.rows) :
    f.errorAt pt p = some ((f.limits.map (f.errVal (p.getD · 0) (jp.getD · 0))).sum * kLimitWeight * f.weight) := by
  unfold LimitErrorFunction.errorAt
  rw [hjp, Option.bind_some]
  exact getError_eq hp hj hv.cols hv.rows hv.active hv.range

/-- **C19** for parameters of the right size the error is defined, and it is nonnegative for nonnegative weights. -/
theorem C19_nonneg (hv : f.Valid pt) (hfw : 0 ≤ f.weight) (hw : ∀ l ∈ f.limits, 0 ≤ l.weight)
    (p : List ℝ) (hp : p.length = pt.transform.cols) : ∃ e, f.errorAt pt p = some e ∧ 0 ≤ e := by
  obtain ⟨jp, h1, h2, _⟩ := apply_defined hv p hp
  refine ⟨_, errorAt_eq hv p jp h1 hp h2, ?_⟩
  refine mul_nonneg (mul_nonneg (List.sum_nonneg ?_) (by unfold kLimitWeight; norm_num)) hfw
  intro x hx
  obtain ⟨l, hl, rfl⟩ := List.mem_map.mp hx
  exact errVal_nonneg _ _ (hw l hl)

theorem list_sum_eq_zero {l : List ℝ} (h : ∀ x ∈ l, 0 ≤ x) : l.sum = 0 ↔ ∀ x ∈ l, x = 0 := by
  induction l with
  | nil => simp
  | cons a l ih =>
    rw [List.sum_cons, add_eq_zero_iff_of_nonneg (h a List.mem_cons_self)
      (List.sum_nonneg fun x hx => h x (List.mem_cons_of_mem _ hx)), ih fun x hx => h x (List.mem_cons_of_mem _ hx)]
    simp

/-- **C19** the error is zero exactly when every enabled limit is satisfied. -/
theorem C19_zero_iff_satisfied (hv : f.Valid pt) (hfw : 0 < f.weight) (hw : ∀ l ∈ f.limits, 0 < l.weight)
    (p jp : List ℝ) (hjp : pt.apply p = some jp) :
    f.errorAt pt p = some 0 ↔ ∀ l ∈ f.limits,
      LimitSatisfied f.enabledParameters.mem (f.activeJointParams.getD · false) (p.getD · 0) (jp.getD · 0) l.data := by
  have hp := ((C13_apply_affine pt hv.wf p jp).mp hjp).1
  have hj := ((C13_apply_affine pt hv.wf p jp).mp hjp).2.2.1
  rw [errorAt_eq hv p jp hjp hp hj, Option.some.injEq, mul_eq_zero, or_iff_left hfw.ne', mul_eq_zero,
    or_iff_left (by unfold kLimitWeight; norm_num), list_sum_eq_zero]
  · constructor
    · intro h l hl
      exact (errVal_eq_zero _ _ (hw l hl)).mp (h _ (List.mem_map_of_mem hl))
    · intro h x hx
      obtain ⟨l, hl, rfl⟩ := List.mem_map.mp hx
      exact (errVal_eq_zero _ _ (hw l hl)).mpr (h l hl)
  · intro x hx
    obtain ⟨l, hl, rfl⟩ := List.mem_map.mp hx
    exact errVal_nonneg _ _ (hw l hl).le

theorem set_getD_deriv (p : List ℝ) (k : Nat) (hk : k < p.length) (t0 : ℝ) (i : Nat) :
    HasDerivAt (fun t => (p.set k t).getD i 0) (if i = k then 1 else 0) t0 := by
  by_cases h : i = k
  · subst h
    rw [if_pos rfl]
    refine (hasDerivAt_id t0).congr_of_eventuallyEq (Filter.Eventually.of_forall fun t => ?_)
    simp only [List.getD_eq_getElem?_getD]
    rw [List.getElem?_set_self hk]; rfl
  · rw [if_neg h]
    refine (hasDerivAt_const t0 (p.getD i 0)).congr_of_eventuallyEq (Filter.Eventually.of_forall fun t => ?_)
    simp only [List.getD_eq_getElem?_getD]
    rw [List.getElem?_set_ne (Ne.symm h)]

/-- The derivative of the error in an enabled parameter. -/
theorem errorAt_deriv (hv : f.Valid pt) (p jp : List ℝ) (hjp : pt.apply p = some jp) (k : Nat)
    (hk : k < pt.transform.cols) (hen : f.enabledParameters.mem k = true)
    (he : ∀ l ∈ f.limits, OffRangeEdge (p.getD · 0) l.data) :
    HasDerivAt (fun t => (f.errorAt pt (p.set k t)).getD 0)
      ((f.limits.map fun l => f.gradVal l.weight (p.getD · 0) (jp.getD · 0) k l).sum * kLimitWeight * f.weight)
      (p.getD k 0) := by
  have hp := ((C13_apply_affine pt hv.wf p jp).mp hjp).1
  have hset : ∀ t, (p.set k t).length = pt.transform.cols := fun t => by rw [List.length_set, hp]
  choose J hJ1 hJ2 hJ3 using fun t => apply_defined hv (p.set k t) (hset t)
  have hfun : (fun t => (f.errorAt pt (p.set k t)).getD 0) = fun t =>
      (f.limits.map fun l => f.errVal ((p.set k t).getD · 0) ((J t).getD · 0) l).sum * kLimitWeight * f.weight := by
    funext t
    rw [errorAt_eq hv _ _ (hJ1 t) (hset t) (hJ2 t)]; rfl
  have hsame : p.set k (p.getD k 0) = p := by
    apply List.ext_getElem?
    intro i
    by_cases h : k = i
    · subst h; rw [List.getElem?_set_self (by omega), getElem?_getD (by omega : k < p.length) (0 : ℝ)]
    · rw [List.getElem?_set_ne h]
  have hJ0 : J (p.getD k 0) = jp := by
    have := hJ1 (p.getD k 0)
    rw [hsame, hjp] at this
    exact (Option.some.inj this).symm
  rw [hfun]
  refine HasDerivAt.mul_const (HasDerivAt.mul_const ?_ _) _
  have := hasDerivAt_list_sum f.limits
    (fun l t => f.errVal ((p.set k t).getD · 0) ((J t).getD · 0) l)
    (fun l => f.gradVal l.weight (p.getD · 0) (jp.getD · 0) k l) (p.getD k 0) ?_
  · exact this
  intro l hl
  have hP := set_getD_deriv p k (by omega) (p.getD k 0)
  have hJd : ∀ i, HasDerivAt (fun t => (J t).getD i 0) (f.transform.coeff i k) (p.getD k 0) := by
    intro i
    by_cases hi : i < pt.transform.rows
    · have e : (fun t => (J t).getD i 0) = fun t => ∑ j ∈ Finset.range pt.transform.cols,
          pt.transform.coeff i j * (p.set k t).getD j 0 + pt.offsets.getD i 0 := by
        funext t; exact hJ3 t i hi
      rw [e]
      refine HasDerivAt.add_const _ ?_
      have h2 := HasDerivAt.fun_sum (u := Finset.range pt.transform.cols)
        (A := fun j t => pt.transform.coeff i j * (p.set k t).getD j 0)
        (A' := fun j => pt.transform.coeff i j * (if j = k then 1 else 0)) (x := p.getD k 0)
        (fun j _ => (hP j).const_mul _)
      refine HasDerivAt.congr_deriv h2 ?_
      rw [hv.transform]
      simp only [mul_ite, mul_one, mul_zero]
      rw [Finset.sum_ite_eq' (Finset.range pt.transform.cols) k]
      rw [if_pos (Finset.mem_range.mpr hk)]
    · have e : (fun t => (J t).getD i 0) = fun _ => 0 := by
        funext t
        rw [List.getD_eq_getElem?_getD, List.getElem?_eq_none (by rw [hJ2 t]; omega)]; rfl
      rw [e]
      refine HasDerivAt.congr_deriv (hasDerivAt_const _ _) ?_
      rw [hv.transform]
      unfold SparseMat.coeff
      rw [List.filter_eq_nil_iff.mpr]
      · simp
      · intro e he
        have := (hv.wf e he).1
        simp; omega
  have h3 := hasDerivAt_errVal (f := f) (P := fun t i => (p.set k t).getD i 0) (J := fun t i => (J t).getD i 0)
    (k := k) (t0 := p.getD k 0) hen hP hJd (l := l) (by simp only [hsame]; exact he l hl)
  simp only [hsame, hJ0] at h3
  exact h3

/-- **C19 (partial)** `getGradient` adds to the gradient entry of every enabled parameter exactly the derivative of
the error with respect to that parameter, provided the linear and half-plane limits have weight one.
Without that proviso it is false (`C19_gradient_weight_counterexample`): the code forgets to multiply
the gradients of those two limits by the weight of the limit.  The hypothesis `OffRangeEdge`
excludes points where the error of a linear limit with a range jumps. -/
theorem C19_gradient_partial (hv : f.Valid pt) (hu : UnitLinearWeights f.limits) (p jp g : List ℝ)
    (hjp : pt.apply p = some jp) (hg : g.length = pt.transform.cols)
    (he : ∀ l ∈ f.limits, OffRangeEdge (p.getD · 0) l.data) :
    ∃ e g', f.getGradient p jp g = some (e, g') ∧ g'.length = g.length ∧
      ∀ k < pt.transform.cols, f.enabledParameters.mem k = true →
        HasDerivAt (fun t => (f.errorAt pt (p.set k t)).getD 0) (g'.getD k 0 - g.getD k 0) (p.getD k 0) := by
  have hp := ((C13_apply_affine pt hv.wf p jp).mp hjp).1
  have hj := ((C13_apply_affine pt hv.wf p jp).mp hjp).2.2.1
  have hA : ∀ e ∈ f.transform.entries, e.col < pt.transform.cols := by
    rw [hv.transform]; exact fun e he => (hv.wf e he).2
  obtain ⟨st, h1, h2, h3, h4⟩ := getGradient_spec hp hj hv.cols hv.active hA f.limits hv.range (0, g) hg
  refine ⟨st.1, st.2, h1, by rw [h2, hg], fun k hk hen => ?_⟩
  refine HasDerivAt.congr_deriv (errorAt_deriv hv p jp hjp k hk hen he) ?_
  rw [h4]
  have : f.limits.map (fun l => f.gradVal l.weight (p.getD · 0) (jp.getD · 0) k l)
      = f.limits.map (f.gradVal 1 (p.getD · 0) (jp.getD · 0) k) := by
    apply List.map_congr_left
    intro l hl
    have := hu l hl
    obtain ⟨d, w⟩ := l
    cases d <;> simp only [gradVal] at this ⊢
    · subst this; rfl
    · subst this; rfl
  rw [this]
  ring

/-- **C19** the error that `getGradient` returns is the error of `getError` if at least one of the two
parameters of every linear limit is enabled (otherwise it counts disabled limits too,
`C19_gradient_error_counterexample`). -/
theorem C19_gradient_error_partial (hv : f.Valid pt) (p jp g g' : List ℝ) (e : ℝ)
    (hjp : pt.apply p = some jp) (hg : g.length = pt.transform.cols)
    (hen : ∀ l ∈ f.limits, ∀ r t sc off rmin rmax, l.data = .linear r t sc off rmin rmax →
      f.enabledParameters.mem t = true ∨ f.enabledParameters.mem r = true)
    (h : f.getGradient p jp g = some (e, g')) : f.errorAt pt p = some e := by
  have hp := ((C13_apply_affine pt hv.wf p jp).mp hjp).1
  have hj := ((C13_apply_affine pt hv.wf p jp).mp hjp).2.2.1
  have hA : ∀ e ∈ f.transform.entries, e.col < pt.transform.cols := by
    rw [hv.transform]; exact fun e he => (hv.wf e he).2
  obtain ⟨st, h1, h2, h3, h4⟩ := getGradient_spec hp hj hv.cols hv.active hA f.limits hv.range (0, g) hg
  unfold LimitErrorFunction.getGradient at h
  rw [h1] at h
  have he : st.1 = e := congrArg Prod.fst (Option.some.inj h)
  rw [errorAt_eq hv p jp hjp hp hj, ← he, h3]
  congr 1
  have : f.limits.map (f.gErr (p.getD · 0) (jp.getD · 0)) = f.limits.map (f.errVal (p.getD · 0) (jp.getD · 0)) := by
    apply List.map_congr_left
    intro l hl
    obtain ⟨d, w⟩ := l
    cases d <;> simp only [gErr]
    rename_i r t sc off rmin rmax
    have := hen _ hl r t sc off rmin rmax rfl
    have e1 : (f.enabledParameters.mem t || f.enabledParameters.mem r) = true := by
      rw [Bool.or_eq_true]; exact this
    simp only [errVal, e1, Bool.true_and]
  rw [this]; ring

/-- **C19** the rows of `getJacobian`: as many as `getJacobianSize` says, the sum of the squared residuals and the
sum of the error contributions are the error, for every enabled parameter twice the residual-weighted sum of
its column is the derivative of the error (whatever the weights). The two parameters of a
linear or half-plane limit must be different, `C19_jacobian_same_parameter_counterexample`. -/
theorem C19_jacobian_partial (hv : f.Valid pt) (hfw : 0 ≤ f.weight) (hw : ∀ l ∈ f.limits, 0 ≤ l.weight)
    (ho : OrderedIntervals f.limits) (hd : DistinctPairs f.limits) (p jp : List ℝ)
    (hjp : pt.apply p = some jp) (he : ∀ l ∈ f.limits, OffRangeEdge (p.getD · 0) l.data) :
    ∃ rows, f.getJacobian pt.transform.cols p jp = some rows ∧ rows.length = f.getJacobianSize ∧
      (∀ r ∈ rows, r.row.length = pt.transform.cols) ∧
      f.errorAt pt p = some (rows.map fun r => r.residual * r.residual).sum ∧
      f.errorAt pt p = some (rows.map fun r => r.error).sum ∧
      ∀ k < pt.transform.cols, f.enabledParameters.mem k = true →
        HasDerivAt (fun t => (f.errorAt pt (p.set k t)).getD 0)
          (rows.map fun r => 2 * r.residual * r.row.getD k 0).sum (p.getD k 0) := by
  have hp := ((C13_apply_affine pt hv.wf p jp).mp hjp).1
  have hj := ((C13_apply_affine pt hv.wf p jp).mp hjp).2.2.1
  have hA : ∀ e ∈ f.transform.entries, e.col < pt.transform.cols := by
    rw [hv.transform]; exact fun e he => (hv.wf e he).2
  have gen : ∀ L : List (ParameterLimit ℝ), (∀ l ∈ L, l ∈ f.limits) →
      ∃ rows, L.mapM (f.jacRows pt.transform.cols p jp) = some rows ∧
        rows.flatten.length = (L.map rowsOf).sum ∧ (∀ r ∈ rows.flatten, r.row.length = pt.transform.cols) ∧
        (rows.flatten.map fun r => r.residual * r.residual).sum
          = (L.map (f.errVal (p.getD · 0) (jp.getD · 0))).sum * kLimitWeight * f.weight ∧
        (rows.flatten.map fun r => r.error).sum
          = (L.map (f.errVal (p.getD · 0) (jp.getD · 0))).sum * kLimitWeight * f.weight ∧
        ∀ k, f.enabledParameters.mem k = true → (rows.flatten.map fun r => 2 * r.residual * r.row.getD k 0).sum
          = (L.map fun l => f.gradVal l.weight (p.getD · 0) (jp.getD · 0) k l).sum * kLimitWeight * f.weight := by
    intro L hL
    induction L with
    | nil => exact ⟨[], rfl, by simp, by simp, by simp, by simp, by simp⟩
    | cons l L ih =>
      obtain ⟨rows, a1, a2, a3, a4, a5, a6⟩ := ih fun l' hl' => hL l' (List.mem_cons_of_mem _ hl')
      have hl := hL l List.mem_cons_self
      obtain ⟨r1, b1, b2, b3, b4, b5, b6⟩ := jacRows_spec hp hj hv.cols hv.active hA (hv.range l hl) (hw l hl) hfw
        (by intro l' hl'; rw [List.mem_singleton] at hl'; subst hl'; exact ho _ hl)
      have b6 := b6 (by intro l' hl'; rw [List.mem_singleton] at hl'; subst hl'; exact hd _ hl)
      refine ⟨r1 :: rows, ?_, ?_, ?_, ?_, ?_, ?_⟩
      · rw [List.mapM_cons, b1, a1]; rfl
      · rw [List.flatten_cons, List.length_append, b2, a2]; simp
      · intro r hr
        rw [List.flatten_cons, List.mem_append] at hr
        rcases hr with hr | hr
        · exact b3 r hr
        · exact a3 r hr
      · rw [List.flatten_cons, List.map_append, List.sum_append, b4, a4, List.map_cons, List.sum_cons]; ring
      · rw [List.flatten_cons, List.map_append, List.sum_append, b5, a5, List.map_cons, List.sum_cons]; ring
      · intro k hk
        rw [List.flatten_cons, List.map_append, List.sum_append, b6 k hk, a6 k hk, List.map_cons, List.sum_cons]; ring
  obtain ⟨rows, a1, a2, a3, a4, a5, a6⟩ := gen f.limits fun _ h => h
  have hsize : f.getJacobianSize = (f.limits.map rowsOf).sum := by
    unfold LimitErrorFunction.getJacobianSize
    have : ∀ (L : List (ParameterLimit ℝ)) (c : Nat), L.foldl (init := c) (fun count l =>
        match l.data with
        | .minMax .. | .minMaxJoint .. => count + 1
        | .minMaxJointPassive .. => count
        | .linear .. => count + 1
        | .halfPlane .. => count + 1
        | .ellipsoid .. => count + 3) = c + (L.map rowsOf).sum := by
      intro L
      induction L with
      | nil => intro c; rfl
      | cons l L ih =>
        intro c
        rw [List.foldl_cons, ih, List.map_cons, List.sum_cons]
        obtain ⟨d, w⟩ := l
        cases d <;> simp [rowsOf] <;> omega
    exact (this f.limits 0).trans (by simp)
  refine ⟨rows.flatten, by unfold LimitErrorFunction.getJacobian; rw [a1]; rfl, by rw [a2, hsize], a3, ?_, ?_, ?_⟩
  · rw [errorAt_eq hv p jp hjp hp hj, a4]
  · rw [errorAt_eq hv p jp hjp hp hj, a5]
  · intro k hk hen
    refine HasDerivAt.congr_deriv (errorAt_deriv hv p jp hjp k hk hen he) ?_
    rw [a6 k hen]

/-! Concrete cases: a transform with one joint and three parameters. -/

/-- Parameter 0 drives the first channel with factor two. -/
def exLimitPT : ParameterTransform ℝ where
  name := ["a", "b", "c"]
  transform := ⟨7, 3, [⟨0, 0, 2⟩, ⟨1, 1, 1⟩]⟩
  offsets := [0, 0, 0, 0, 0, 0, 0]
  activeJointParams := [true, true, false, false, false, false, false]
  parameterSets := []
  poseConstraints := []
  blendShapeParameters := []
  faceExpressionParameters := []

/-- An error function with the given limits, everything enabled. -/
def exLimitFn (limits : List (ParameterLimit ℝ)) : LimitErrorFunction where
  limits := limits
  transform := exLimitPT.transform
  numJoints := 1
  enabledParameters := ParameterSet.all
  activeJointParams := exLimitPT.activeJointParams
  weight := 1

/-- One limit of every modelled kind. -/
def exLimits : List (ParameterLimit ℝ) :=
  [⟨.minMax 0 1 2, 3⟩, ⟨.minMaxJoint 0 1 0 1, 1⟩, ⟨.minMaxJointPassive 0 0 0 1, 1⟩,
   ⟨.linear 0 1 2 3 0 0, 1⟩, ⟨.halfPlane 1 2 1 1 5, 1⟩]

theorem exLimitFn_valid (limits : List (ParameterLimit ℝ)) (h : ∀ l ∈ limits, LimitInRange 3 7 l.data) :
    (exLimitFn limits).Valid exLimitPT where
  transform := rfl
  wf := by simp [SparseMat.WF, exLimitPT]
  offs := rfl
  rows := rfl
  cols := by simp [exLimitPT]
  active := rfl
  range := h

example : (exLimitFn exLimits).Valid exLimitPT ∧ UnitLinearWeights exLimits ∧ DistinctPairs exLimits ∧
    OrderedIntervals exLimits ∧ (∀ l ∈ exLimits, 0 < l.weight) ∧
    (∀ p, ∀ l ∈ exLimits, OffRangeEdge p l.data) := by
  refine ⟨exLimitFn_valid _ ?_, ?_, ?_, ?_, ?_, ?_⟩ <;>
    simp [exLimits, LimitInRange, UnitLinearWeights, DistinctPairs, OrderedIntervals, OffRangeEdge]

/-- **C19** finding: with a weight of two on a half-plane limit the gradient the code computes is not the derivative of
the error (it is half of it). -/
theorem C19_gradient_weight_counterexample :
    ∃ (limits : List (ParameterLimit ℝ)) (p jp : List ℝ), (exLimitFn limits).Valid exLimitPT ∧
      exLimitPT.apply p = some jp ∧ (∀ l ∈ limits, 0 < l.weight ∧ OffRangeEdge (p.getD · 0) l.data) ∧
      ∃ e g', (exLimitFn limits).getGradient p jp [0, 0, 0] = some (e, g') ∧
        ¬ HasDerivAt (fun t => ((exLimitFn limits).errorAt exLimitPT (p.set 1 t)).getD 0) (g'.getD 1 0) (p.getD 1 0) := by
  refine ⟨[⟨.halfPlane 1 2 1 1 5, 2⟩], [0, 0, 0], [0, 0, 0, 0, 0, 0, 0], ?_, ?_, ?_, ?_⟩
  · exact exLimitFn_valid _ (by simp [LimitInRange])
  · norm_num [ParameterTransform.apply, exLimitPT, SparseMat.mulVec, addVec, List.range_succ]
  · simp [OffRangeEdge]
  · have hv : (exLimitFn [⟨.halfPlane 1 2 1 1 5, 2⟩]).Valid exLimitPT := exLimitFn_valid _ (by simp [LimitInRange])
    have hap : exLimitPT.apply [0, 0, 0] = some [0, 0, 0, 0, 0, 0, 0] := by
      norm_num [ParameterTransform.apply, exLimitPT, SparseMat.mulVec, addVec, List.range_succ]
    have hA : ∀ e ∈ (exLimitFn [⟨.halfPlane 1 2 1 1 5, 2⟩]).transform.entries, e.col < 3 := by
      simp [exLimitFn, exLimitPT]
    obtain ⟨st, h1, h2, h3, h4⟩ := getGradient_spec (f := exLimitFn [⟨.halfPlane 1 2 1 1 5, 2⟩])
      (params := [0, 0, 0]) (jp := [0, 0, 0, 0, 0, 0, 0]) (n := 3) (m := 7) rfl rfl (by norm_num) rfl hA
      [⟨.halfPlane 1 2 1 1 5, 2⟩] (by simp [LimitInRange]) (0, [0, 0, 0]) rfl
    refine ⟨st.1, st.2, h1, ?_⟩
    have h5 := errorAt_deriv hv [0, 0, 0] [0, 0, 0, 0, 0, 0, 0] hap 1 (by simp [exLimitPT]) rfl (by simp [exLimitFn, OffRangeEdge])
    intro h6
    have h7 := h6.unique h5
    rw [h4] at h7
    have hm : ∀ i < 2048, (exLimitFn [⟨.halfPlane 1 2 1 1 5, 2⟩]).enabledParameters.mem i = true := by
      intro i hi
      unfold ParameterSet.mem
      rw [dif_pos (show i < kMaxModelParams from hi)]; rfl
    norm_num [exLimitFn, gradVal, dhinge, kLimitWeight, hm] at h7
    have hm1 := hm 1 (by norm_num)
    simp only [exLimitFn] at hm1
    rw [hm1] at h7
    norm_num at h7

/-- **C19** finding: when both parameters of a linear limit are disabled `getError` ignores it but the error returned by
`getGradient` does not. -/
theorem C19_gradient_error_counterexample :
    ∃ (f : LimitErrorFunction) (p jp : List ℝ), f.Valid exLimitPT ∧ exLimitPT.apply p = some jp ∧
      f.errorAt exLimitPT p = some 0 ∧ ∃ g', f.getGradient p jp [0, 0, 0] = some (10, g') := by
  refine ⟨{ exLimitFn [⟨.linear 0 1 0 1 0 0, 1⟩] with enabledParameters := ParameterSet.empty },
    [0, 0, 0], [0, 0, 0, 0, 0, 0, 0], ?_, ?_, ?_, ?_⟩
  · exact ⟨rfl, by simp [SparseMat.WF, exLimitPT], rfl, rfl, by simp [exLimitPT], rfl,
      by simp [exLimitFn, LimitInRange, exLimitPT]⟩
  · norm_num [ParameterTransform.apply, exLimitPT, SparseMat.mulVec, addVec, List.range_succ]
  · norm_num [LimitErrorFunction.errorAt, ParameterTransform.apply, exLimitPT, SparseMat.mulVec, addVec, List.range_succ,
      LimitErrorFunction.getError, exLimitFn, errorOne, ParameterSet.test, ParameterSet.empty, kMaxModelParams]
  · refine ⟨[0, 0, 0], ?_⟩
    norm_num [LimitErrorFunction.getGradient, gradStep, exLimitFn, isInRange, addAtIf, ParameterSet.test, ParameterSet.empty,
      kMaxModelParams, kLimitWeight]

/-- **C19** finding: a linear limit relating a parameter to itself: the Jacobian entry is overwritten instead of
accumulated. With scale 1 the residual does not depend on the parameter at all, but its Jacobian entry is not zero. -/
theorem C19_jacobian_same_parameter_counterexample :
    (∀ p : List ℝ, p.length = 3 → ∃ r, ((exLimitFn [⟨.linear 0 0 1 1 0 0, 1⟩]).getJacobian 3 p [0, 0, 0, 0, 0, 0, 0]) = some [r] ∧
      r.residual = -1 * Real.sqrt 10 ∧ r.row = [-Real.sqrt 10, 0, 0]) := by
  intro p hp
  match p, hp with
  | [a, b, c], _ =>
    refine ⟨⟨[-Real.sqrt 10, 0, 0], -1 * Real.sqrt 10, 10⟩, ?_, rfl, rfl⟩
    norm_num [LimitErrorFunction.getJacobian, jacRows, exLimitFn, isInRange, setAtIf, setAt, ParameterSet.test,
      ParameterSet.all, kMaxModelParams, kLimitWeight, List.replicate]

end Momentum
