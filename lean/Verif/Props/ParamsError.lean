import Verif.Props.StateError

/-!
# C59: the model parameters error function
-/

namespace Momentum

/-- The model parameters error function as the solver function sees it; it does not look at the skeleton state. -/
noncomputable def ParamsError.toErrorFunction (E : ParamsError) : ErrorFunction where
  weight := E.weight
  jacobianSize := E.getJacobianSize
  getError p := (E.getError (paramVec E.transform.cols p)).getD 0
  getGradient p := (E.getGradient (paramVec E.transform.cols p) fun _ => 0).getD (0, fun _ => 0)
  getJacobian p := (E.getJacobian (paramVec E.transform.cols p) (fun _ _ => 0) fun _ => 0).getD
    ⟨0, 0, fun _ _ => 0, fun _ => 0⟩

/-- Targets and weights for every parameter, and no more parameters than a parameter set holds. -/
structure ParamsError.Sized (E : ParamsError) : Prop where
  params : E.targetParameters.length = E.transform.cols
  weights : E.targetWeights.length = E.transform.cols
  cols : E.transform.cols ≤ kMaxModelParams

namespace ParamsError

noncomputable def w' (E : ParamsError) (i : Nat) : ℝ := E.targetWeights.getD i 0
noncomputable def d' (E : ParamsError) (p : Nat → ℝ) (i : Nat) : ℝ := E.w' i * (p i - E.targetParameters.getD i 0)

/-- The error in closed form. -/
noncomputable def total (E : ParamsError) (p : Nat → ℝ) : ℝ :=
  ((List.range E.transform.cols).map fun k => if E.enabledParameters.mem k = true then
    E.d' p k ^ 2 * E.weight * kMotionWeight else 0).sum

section
variable {E : ParamsError} (hE : E.Sized) (p : Nat → ℝ)

include hE in
theorem not_mismatch : ¬ E.mismatch (paramVec E.transform.cols p) := by
  unfold mismatch
  rw [StateError.paramVec_length, hE.params, hE.weights]
  simp

include hE in
theorem pdiff_eq {i : Nat} (hi : i < E.transform.cols) :
    E.pdiff (paramVec E.transform.cols p) i = some (E.w' i, E.d' p i) := by
  have e1 : E.targetWeights[i]? = some (E.targetWeights[i]'(by rw [hE.weights]; exact hi)) := List.getElem?_eq_getElem _
  have e2 : E.targetParameters[i]? = some (E.targetParameters[i]'(by rw [hE.params]; exact hi)) := List.getElem?_eq_getElem _
  have e3 : (paramVec E.transform.cols p)[i]? = some (p i) := by simp [paramVec, hi]
  simp only [pdiff, w', d', List.getD_eq_getElem?_getD, e1, e2, e3, Option.getD_some]
  rfl

include hE in
theorem getError_eq : E.toErrorFunction.getError p = E.total p := by
  simp only [toErrorFunction, getError]
  rw [if_neg (not_mismatch hE p), StateError.paramVec_length]
  obtain ⟨e, h1, h2⟩ := foldlM_track (fun (error : ℝ) (i : Nat) => do
      if ← E.enabledParameters.test i then
        let (_, d) ← E.pdiff (paramVec E.transform.cols p) i
        some (error + d * d)
      else some error) (fun (_ : Unit) (x : ℝ) => x * E.weight * kMotionWeight)
    (fun _ k => if E.enabledParameters.mem k = true then E.d' p k ^ 2 * E.weight * kMotionWeight else 0)
    (List.range E.transform.cols) (by
      intro i hi s
      have hi := List.mem_range.1 hi
      simp only [ConstraintError.test_mem _ (lt_of_lt_of_le hi hE.cols), Option.bind_eq_bind, Option.bind_some, pdiff_eq hE p hi]
      by_cases h : E.enabledParameters.mem i = true
      · refine ⟨_, if_pos h, fun _ => ?_⟩
        rw [if_pos h]; ring
      · refine ⟨_, if_neg h, fun _ => ?_⟩
        rw [if_neg h]; ring) 0
  rw [h1]
  simp only [Option.bind_eq_bind, Option.bind_some, Option.getD_some]
  rw [h2 (), zero_mul, zero_mul, zero_add]; rfl

include hE in
theorem getGradient_eq : (E.toErrorFunction.getGradient p).1 = E.total p ∧ ∀ i, (E.toErrorFunction.getGradient p).2 i =
    if i < E.transform.cols ∧ E.enabledParameters.mem i = true then 2 * E.w' i * E.d' p i * E.weight * kMotionWeight
      else 0 := by
  simp only [toErrorFunction, getGradient]
  rw [if_neg (not_mismatch hE p), StateError.paramVec_length]
  obtain ⟨⟨e, g⟩, h1, h2⟩ := foldlM_track (fun (s : ℝ × (Nat → ℝ)) (i : Nat) => do
      if ← E.enabledParameters.test i then
        let (w, d) ← E.pdiff (paramVec E.transform.cols p) i
        some (s.1 + d * d, Function.update s.2 i (s.2 i + 2 * w * d * E.weight * kMotionWeight))
      else some s) (fun (i : Option Nat) s => match i with
        | none => s.1 * E.weight * kMotionWeight
        | some i => s.2 i)
    (fun i k => if E.enabledParameters.mem k = true then (match i with
      | none => E.d' p k ^ 2 * E.weight * kMotionWeight
      | some i => if k = i then 2 * E.w' k * E.d' p k * E.weight * kMotionWeight else 0) else 0)
    (List.range E.transform.cols) (by
      intro i hi s
      have hi := List.mem_range.1 hi
      simp only [ConstraintError.test_mem _ (lt_of_lt_of_le hi hE.cols), Option.bind_eq_bind, Option.bind_some, pdiff_eq hE p hi]
      by_cases h : E.enabledParameters.mem i = true
      · refine ⟨_, if_pos h, fun k => ?_⟩
        rw [if_pos h]
        cases k with
        | none => simp only; ring
        | some k =>
          simp only
          by_cases hk : i = k
          · subst hk; simp
          · rw [Function.update_of_ne (Ne.symm hk), if_neg hk, add_zero]
      · refine ⟨_, if_neg h, fun k => ?_⟩
        rw [if_neg h, add_zero]) ((0 : ℝ), fun _ => 0)
  rw [h1]
  simp only [Option.bind_eq_bind, Option.bind_some, Option.getD_some]
  refine ⟨?_, fun i => ?_⟩
  · have := h2 none
    simp only at this
    rw [this, zero_mul, zero_mul, zero_add]; rfl
  · have := h2 (some i)
    simp only [zero_add] at this
    rw [this]
    by_cases hi : i < E.transform.cols
    · rw [← List.sum_toFinset _ List.nodup_range, List.toFinset_range, Finset.sum_eq_single i]
      · by_cases h : E.enabledParameters.mem i = true <;> simp [hi, h]
      · intro k _ hk; simp [hk]
      · intro h; exact absurd (Finset.mem_range.2 hi) h
    · rw [if_neg (by tauto)]
      refine List.sum_eq_zero fun x hx => ?_
      obtain ⟨k, hk, rfl⟩ := List.mem_map.1 hx
      have := List.mem_range.1 hk
      rw [if_neg (show ¬ k = i by omega)]; simp

/-- The parameters that get a row. -/
noncomputable def acts (E : ParamsError) (l : List Nat) : List Nat :=
  l.filter fun k => E.enabledParameters.mem k = true ∧ 0 < E.w' k

open Classical in
/-- One iteration of the loop of `getJacobian`. -/
noncomputable def jacStep (E : ParamsError) (p : Nat → ℝ) (s : JacobianResult) (i : Nat) : Option JacobianResult := do
  if ← E.enabledParameters.test i then
    let (w, d) ← E.pdiff (paramVec E.transform.cols p) i
    if 0 < w then
      some
        { error := s.error + d * d
          rows := s.rows + 1
          e := Function.update s.e i (Function.update (s.e i) s.rows (Real.sqrt (E.weight * kMotionWeight) * w))
          residual := Function.update s.residual s.rows (d * Real.sqrt (E.weight * kMotionWeight)) }
    else some s
  else some s

include hE in
theorem jac_fold (l : List Nat) (hl : ∀ k ∈ l, k < E.transform.cols) : ∀ s : JacobianResult,
    ∃ s', l.foldlM (E.jacStep p) s = some s' ∧ s'.error = s.error + ((E.acts l).map fun k => E.d' p k ^ 2).sum ∧
      s'.rows = s.rows + (E.acts l).length ∧
      (∀ t < s.rows, s'.residual t = s.residual t ∧ ∀ i, s'.e i t = s.e i t) ∧
      ∀ (n k : Nat), (E.acts l)[n]? = some k →
        s'.residual (s.rows + n) = E.d' p k * Real.sqrt (E.weight * kMotionWeight) ∧
        ∀ i, s'.e i (s.rows + n) = if i = k then Real.sqrt (E.weight * kMotionWeight) * E.w' k else s.e i (s.rows + n) := by
  induction l with
  | nil =>
    intro s
    exact ⟨s, rfl, by simp [acts], by simp [acts], fun _ _ => ⟨rfl, fun _ => rfl⟩, by simp [acts]⟩
  | cons j l ih =>
    intro s
    have hj := hl j (by simp)
    have ih := ih (fun k hk => hl k (by simp [hk]))
    have hstep : E.jacStep p s j = if E.enabledParameters.mem j = true ∧ 0 < E.w' j then
        some ⟨s.error + E.d' p j * E.d' p j, s.rows + 1,
          Function.update s.e j (Function.update (s.e j) s.rows (Real.sqrt (E.weight * kMotionWeight) * E.w' j)),
          Function.update s.residual s.rows (E.d' p j * Real.sqrt (E.weight * kMotionWeight))⟩ else some s := by
      unfold jacStep
      simp only [ConstraintError.test_mem _ (lt_of_lt_of_le hj hE.cols), Option.bind_eq_bind, Option.bind_some,
        pdiff_eq hE p hj]
      by_cases h : E.enabledParameters.mem j = true <;> by_cases h2 : 0 < E.w' j <;> simp [h, h2]
    rw [List.foldlM_cons, hstep]
    by_cases h0 : E.enabledParameters.mem j = true ∧ 0 < E.w' j
    · rw [if_pos h0]
      have ha : E.acts (j :: l) = j :: E.acts l := by
        unfold acts; rw [List.filter_cons_of_pos]; exact decide_eq_true h0
      simp only [Option.bind_eq_bind, Option.bind_some]
      obtain ⟨s', h1, h2, h3, h4, h5⟩ := ih ⟨s.error + E.d' p j * E.d' p j, s.rows + 1,
          Function.update s.e j (Function.update (s.e j) s.rows (Real.sqrt (E.weight * kMotionWeight) * E.w' j)),
          Function.update s.residual s.rows (E.d' p j * Real.sqrt (E.weight * kMotionWeight))⟩
      simp only at h2 h3 h4 h5
      have hup : ∀ i t, t ≠ s.rows → Function.update s.e j (Function.update (s.e j) s.rows
          (Real.sqrt (E.weight * kMotionWeight) * E.w' j)) i t = s.e i t := by
        intro i t ht
        by_cases hi : i = j
        · subst hi; rw [Function.update_self, Function.update_of_ne ht]
        · rw [Function.update_of_ne hi]
      refine ⟨s', h1, ?_, ?_, fun t ht => ?_, fun n k hk => ?_⟩
      · rw [h2, ha, List.map_cons, List.sum_cons]; ring
      · rw [h3, ha, List.length_cons]; omega
      · obtain ⟨b1, b2⟩ := h4 t (by omega)
        refine ⟨?_, fun i => ?_⟩
        · rw [b1, Function.update_of_ne (by omega)]
        · rw [b2, hup i t (by omega)]
      · rw [ha] at hk
        cases n with
        | zero =>
          simp at hk; subst hk
          obtain ⟨b1, b2⟩ := h4 s.rows (by omega)
          refine ⟨?_, fun i => ?_⟩
          · rw [Nat.add_zero, b1, Function.update_self]
          · rw [Nat.add_zero, b2]
            by_cases hi : i = j
            · subst hi; rw [if_pos rfl, Function.update_self, Function.update_self]
            · rw [if_neg hi, Function.update_of_ne hi]
        | succ n =>
          rw [List.getElem?_cons_succ] at hk
          obtain ⟨b1, b2⟩ := h5 n k hk
          have e : s.rows + 1 + n = s.rows + (n + 1) := by omega
          rw [e] at b1 b2
          refine ⟨b1, fun i => ?_⟩
          rw [b2, hup i _ (by omega)]
    · rw [if_neg h0]
      have ha : E.acts (j :: l) = E.acts l := by
        unfold acts; rw [List.filter_cons_of_neg]; simpa using h0
      rw [ha]
      exact ih s

include hE in
theorem getJacobian_eq : ∃ s, E.toErrorFunction.getJacobian p = s ∧
    s.error = ((E.acts (List.range E.transform.cols)).map fun k => E.d' p k ^ 2).sum * E.weight * kMotionWeight ∧
    s.rows = (E.acts (List.range E.transform.cols)).length ∧
    ∀ (n k : Nat), (E.acts (List.range E.transform.cols))[n]? = some k →
        s.residual n = E.d' p k * Real.sqrt (E.weight * kMotionWeight) ∧
        ∀ i, s.e i n = if i = k then Real.sqrt (E.weight * kMotionWeight) * E.w' k else 0 := by
  obtain ⟨s', h1, h2, h3, -, h5⟩ := jac_fold hE p (List.range E.transform.cols) (fun k hk => List.mem_range.1 hk)
    ⟨0, 0, fun _ _ => 0, fun _ => 0⟩
  refine ⟨{ s' with error := s'.error * E.weight * kMotionWeight }, ?_, ?_, by simpa using h3, fun n k hk => ?_⟩
  · simp only [toErrorFunction, getJacobian]
    rw [if_neg (not_mismatch hE p), StateError.paramVec_length]
    have : (List.range E.transform.cols).foldlM (E.jacStep p) ⟨0, 0, fun _ _ => 0, fun _ => 0⟩ = some s' := h1
    unfold jacStep at this
    rw [this]; rfl
  · simp only; rw [h2]; simp
  · have := h5 n k hk
    simpa using this
end

end ParamsError

open ParamsError in
/-- **C59**: the gradient of the model parameters error function is the derivative of its error, in every enabled
parameter and whatever the weights; for a disabled parameter it is zero. -/
theorem C59_gradient (E : ParamsError) (hE : E.Sized) (p : Nat → ℝ) (i : Nat) (hi : i < E.transform.cols) :
    E.toErrorFunction.GradientIsDerivative p i ∧
      (E.enabledParameters.mem i = false → (E.toErrorFunction.getGradient p).2 i = 0) := by
  obtain ⟨h1, h2⟩ := getGradient_eq hE p
  refine ⟨⟨by rw [h1, getError_eq hE], ?_⟩, fun h => by rw [h2, if_neg (by simp [h])]⟩
  rw [h2]
  simp only [getError_eq hE]
  have hd : ∀ k, HasDerivAt (fun u => E.d' (Function.update p i u) k) (if k = i then E.w' i else 0) (p i) := by
    intro k
    unfold d'
    by_cases hk : k = i
    · subst hk
      simp only [Function.update_self, if_true]
      exact (((hasDerivAt_id (p k)).sub_const _).const_mul _).congr_deriv (mul_one _)
    · simp only [Function.update_of_ne hk, if_neg hk]
      exact hasDerivAt_const _ _
  have hl := hasDerivAt_list_sum (List.range E.transform.cols)
    (fun k u => if E.enabledParameters.mem k = true then E.d' (Function.update p i u) k ^ 2 * E.weight * kMotionWeight else 0)
    (fun k => if k = i ∧ E.enabledParameters.mem i = true then 2 * E.w' i * E.d' p i * E.weight * kMotionWeight else 0)
    (p i) (by
      intro k _
      by_cases h : E.enabledParameters.mem k = true
      · simp only [h, if_true]
        refine (((hd k).pow 2).mul_const _ |>.mul_const _).congr_deriv ?_
        by_cases hk : k = i
        · subst hk; rw [if_pos rfl, if_pos ⟨rfl, h⟩, Function.update_eq_self]; push_cast; ring
        · rw [if_neg hk, if_neg (fun hh => hk hh.1)]; ring
      · simp only [h, Bool.false_eq_true, if_false]
        refine (hasDerivAt_const _ _).congr_deriv ?_
        rw [if_neg]
        rintro ⟨rfl, h'⟩; exact h h')
  refine hl.congr_deriv ?_
  rw [← List.sum_toFinset _ List.nodup_range, List.toFinset_range, Finset.sum_eq_single i]
  · by_cases h : E.enabledParameters.mem i = true <;> simp [hi, h]
  · intro k _ hk; simp [hk]
  · intro h; exact absurd (Finset.mem_range.2 hi) h

open ParamsError in
/-- **C59**: in every enabled parameter the Jacobian of the model parameters error function is the derivative of its
residuals and the squares of the residuals add up to the error, provided no enabled parameter has a negative weight.
Without that, `C59_jacobian_wrong`. -/
theorem C59_jacobian_partial (E : ParamsError) (hE : E.Sized) (hw : 0 ≤ E.weight)
    (hpos : ∀ k < E.transform.cols, E.enabledParameters.mem k = true → 0 ≤ E.targetWeights.getD k 0) (p : Nat → ℝ) (i : Nat) :
    E.toErrorFunction.JacobianIsDerivative p i := by
  have hkw : 0 ≤ E.weight * kMotionWeight := by unfold kMotionWeight; positivity
  have hj := fun q => getJacobian_eq (E := E) hE q
  choose s hs herr hrows hblk using hj
  have htot : ∀ q, (s q).error = E.toErrorFunction.getError q := by
    intro q
    rw [herr, getError_eq hE, total]
    unfold acts
    rw [list_sum_filter, mul_assoc, mul_comm, ← list_sum_map_mul]
    congr 1
    refine List.map_congr_left fun k hk => ?_
    have hk := List.mem_range.1 hk
    by_cases h : E.enabledParameters.mem k = true
    · rw [if_pos h]
      by_cases h2 : 0 < E.w' k
      · rw [if_pos (by simp [h, h2])]; ring
      · have h3 : E.w' k = 0 := le_antisymm (not_lt.1 h2) (hpos k hk h)
        rw [if_neg (by simp [h2])]; unfold d'; rw [h3]; ring
    · rw [if_neg h, if_neg (by simp [h])]; ring
  refine ⟨?_, ?_, fun u => ?_, fun u => ?_, fun t ht => ?_⟩
  · rw [hs, htot]
  · rw [hs, hrows]
    simp only [ParamsError.toErrorFunction, ParamsError.getJacobianSize]
    have hmap : E.targetWeights = (List.range E.transform.cols).map E.w' := by
      apply List.ext_getElem?
      intro k
      by_cases hk : k < E.transform.cols
      · have e1 : E.targetWeights[k]? = some (E.targetWeights[k]'(by rw [hE.weights]; exact hk)) := List.getElem?_eq_getElem _
        simp [hk, e1, w', List.getD_eq_getElem?_getD]
      · rw [List.getElem?_eq_none (by rw [hE.weights]; omega), List.getElem?_eq_none (by simp; omega)]
    unfold acts
    rw [hmap, List.filter_map, List.length_map, ← List.countP_eq_length_filter, ← List.countP_eq_length_filter]
    refine List.countP_mono_left fun k _ hk => ?_
    simp only [decide_eq_true_eq] at hk
    simp only [Function.comp, decide_eq_true_eq]
    exact hk.2
  · rw [hs, hs, hrows, hrows]
  · rw [hs, hs, hrows, ← htot, herr]
    have hb := sum_blocks (m := 1) (E.acts (List.range E.transform.cols))
      (fun t => (s (Function.update p i u)).residual t ^ 2)
      (fun k => E.d' (Function.update p i u) k ^ 2 * E.weight * kMotionWeight) (by
        intro n k hk
        rw [Fin.sum_univ_one]
        have := (hblk (Function.update p i u) n k hk).1
        simp only [one_mul, Fin.val_zero, add_zero]
        rw [this, mul_pow, Real.sq_sqrt hkw]; ring)
    rw [one_mul] at hb
    rw [hb, mul_assoc, mul_comm, ← list_sum_map_mul]
    congr 1
    refine List.map_congr_left fun k _ => ?_
    ring
  · rw [hs, hrows] at ht
    obtain ⟨k, hk⟩ : ∃ k, (E.acts (List.range E.transform.cols))[t]? = some k := ⟨_, List.getElem?_eq_getElem ht⟩
    have hfun : (fun u => (E.toErrorFunction.getJacobian (Function.update p i u)).residual t) =
        fun u => E.d' (Function.update p i u) k * Real.sqrt (E.weight * kMotionWeight) := by
      funext u; rw [hs, (hblk _ t k hk).1]
    rw [hfun, hs, (hblk _ t k hk).2]
    unfold d'
    by_cases hik : i = k
    · subst hik
      simp only [Function.update_self, if_true]
      exact ((((hasDerivAt_id (p i)).sub_const _).const_mul _).mul_const _).congr_deriv (by ring)
    · rw [if_neg hik]
      simp only [Function.update_of_ne (Ne.symm hik)]
      exact hasDerivAt_const _ _

/-- Two parameters, the first with weight `w`. -/
noncomputable def exParams (w : ℝ) : ParamsError where
  toErrorBase := exBase
  targetParameters := [0, 3]
  targetWeights := [w, 2]

theorem exParams_sized (w : ℝ) : (exParams w).Sized := by
  constructor <;> simp [exParams, exBase, kMaxModelParams]

/-- The hypotheses of the theorems are met. -/
example : (exParams 5).Sized ∧ 0 ≤ (exParams 5).weight ∧ (∀ k < (exParams 5).transform.cols,
    (exParams 5).enabledParameters.mem k = true → 0 ≤ (exParams 5).targetWeights.getD k 0) := by
  refine ⟨exParams_sized 5, by norm_num [exParams, exBase], fun k hk _ => ?_⟩
  have : k < 2 := hk
  rcases k with _ | _ | k
  · norm_num [exParams]
  · norm_num [exParams]
  · omega

/-- **C59** fails for the Jacobian with a negative weight: `getError` counts it, `getJacobian` does not. -/
theorem C59_jacobian_wrong : ∃ (E : ParamsError) (p : Nat → ℝ), E.Sized ∧ 0 < E.weight ∧
    (E.toErrorFunction.getJacobian p).error ≠ E.toErrorFunction.getError p := by
  refine ⟨exParams (-1), fun i => if i = 0 then 1 else 3, exParams_sized _, by norm_num [exParams, exBase], ?_⟩
  obtain ⟨s, h1, h2, -⟩ := ParamsError.getJacobian_eq (exParams_sized (-1)) fun i => if i = 0 then 1 else 3
  have hm : ∀ k < 2, (exParams (-1)).enabledParameters.mem k = true := by
    intro k hk
    have : k < kMaxModelParams := lt_trans hk (by simp [kMaxModelParams])
    simp [exParams, exBase, ParameterSet.all, ParameterSet.mem, this]
  rw [h1, h2, ParamsError.getError_eq (exParams_sized (-1))]
  have hc : (exParams (-1)).transform.cols = 2 := rfl
  have ha : (exParams (-1)).acts (List.range 2) = [1] := by
    unfold ParamsError.acts
    have e : List.range 2 = [0, 1] := rfl
    rw [e, List.filter_cons_of_neg, List.filter_cons_of_pos, List.filter_nil]
    · rw [decide_eq_true_eq]; exact ⟨hm 1 (by norm_num), by norm_num [exParams, ParamsError.w']⟩
    · rw [decide_eq_true_eq]; rintro ⟨-, h⟩; norm_num [exParams, ParamsError.w'] at h
  rw [ParamsError.total, hc, ha]
  have e : List.range 2 = [0, 1] := rfl
  rw [e]
  simp only [List.map_cons, List.map_nil, List.sum_cons, List.sum_nil]
  rw [if_pos (hm 0 (by norm_num)), if_pos (hm 1 (by norm_num))]
  norm_num [ParamsError.d', ParamsError.w', exParams, exBase, kMotionWeight]

end Momentum
