import Verif.Lemmas.DiffConstraints4
import Verif.Props.ParamsError

/-!
# C79: derivatives of gradients in the inputs of error functions
-/

namespace Momentum
open Finset

/-- Position constraints: for every skeleton, parameter transform, list of constraints, model parameters `p`, vector `v` and input, the
result of `d_gradient_d_input_dot` is the derivative in the input of the product of the gradient with `v`. -/
theorem C79_position (E : DiffPosition) (pt : ParameterTransform ℝ) (hF : E.Fits pt)
    (hc : ∀ c ∈ E.constraints, c.parent < E.skeleton.joints.length) (p : List ℝ) (st : List JointState)
    (hs : E.stateFor pt p true = some st) (v : Nat → ℝ) (name : String) (x : List ℝ) (hx : E.getInput name = some x) :
    ∃ d, E.dGradientDot name st v = some d ∧
      IsInputDerivative (E.setInput name) (fun E' => (E'.getGradient st fun _ => 0).map (·.2)) E.transform.cols v x d := by
  obtain ⟨ch, h⟩ := hF.sound hs
  exact DiffPosition.isInputDerivative h hc v hx

/-- Orientation constraints.  Setting quaternions normalises them; the derivative is that of the whole, normalisation included, at
quaternions that are not zero. -/
theorem C79_orientation (E : DiffOrientation) (pt : ParameterTransform ℝ) (hF : E.Fits pt)
    (hc : ∀ c ∈ E.constraints, c.parent < E.skeleton.joints.length) (p : List ℝ) (st : List JointState)
    (hs : E.stateFor pt p true = some st) (v : Nat → ℝ) (name : String) (x : List ℝ) (hx : E.getInput name = some x)
    (ho : name = "offsets" → ∀ c ∈ E.constraints, c.offset ≠ ⟨0, 0, 0, 0⟩)
    (ht : name = "targets" → ∀ c ∈ E.constraints, c.target ≠ ⟨0, 0, 0, 0⟩) :
    ∃ d, E.dGradientDot name st v = some d ∧
      IsInputDerivative (E.setInput name) (fun E' => (E'.getGradient st fun _ => 0).map (·.2)) E.transform.cols v x d := by
  obtain ⟨ch, h⟩ := hF.sound hs
  exact DiffOrientation.isInputDerivative h hc v hx (fun e c hc => Quat.normSq_pos_of_ne (ho e c hc))
    fun e c hc => Quat.normSq_pos_of_ne (ht e c hc)

/-- Target states: weights of positions, weights of rotations and the targets (eight numbers for each joint; the gradient does not
depend on the scale).  `getInput` gives normalised quaternions. -/
theorem C79_state (E : StateError) (pt : ParameterTransform ℝ) (hF : E.Fits pt) (hE : E.Sized) (p : List ℝ)
    (hp : p.length = E.transform.cols) (st : List JointState) (hs : E.stateFor pt p true = some st) (v : Nat → ℝ) (name : String)
    (x : List ℝ) (hx : E.getInput name = some x)
    (ht : name = "targetState" → ∀ t ∈ E.targetState, t.rotation ≠ ⟨0, 0, 0, 0⟩) :
    ∃ d, E.dGradientDot name st v = some d ∧
      IsInputDerivative (E.setInput name) (fun E' => (E'.getGradient p st fun _ => 0).map (·.2)) E.transform.cols v x d := by
  obtain ⟨ch, h⟩ := hF.sound hs
  exact StateError.isInputDerivative h hE hp v hx fun e t hm => Quat.normSq_pos_of_ne (ht e t hm)

/-! ## Target parameters -/

namespace ParamsError

theorem paramVec_getD {n : Nat} {p : List ℝ} (hp : p.length = n) : paramVec n (fun i => p.getD i 0) = p := by
  apply List.ext_getElem (by simp [paramVec, hp])
  intro i h1 h2
  simp [paramVec, h2]

theorem setInput_params {E : ParamsError} {y : List ℝ} (h : y.length = E.transform.cols) :
    E.setInput "target_parameters" y = some { E with targetParameters := y } := by
  unfold setInput getInputSize setInputImp
  rw [if_pos (Or.inl rfl), Option.bind_some, if_pos h, if_pos rfl]

theorem setInput_weights {E : ParamsError} {y : List ℝ} (h : y.length = E.transform.cols) :
    E.setInput "target_weights" y = some { E with targetWeights := y } := by
  unfold setInput getInputSize setInputImp
  rw [if_pos (Or.inr rfl), Option.bind_some, if_pos h, if_neg (by decide), if_pos rfl]

theorem getGradient_some {E : ParamsError} (hE : E.Sized) {p : List ℝ} (hp : p.length = E.transform.cols) :
    ∃ g, (E.getGradient p fun _ => 0).map (·.2) = some g ∧ ∀ i, g i =
      if i < E.transform.cols ∧ E.enabledParameters.mem i = true then
        2 * E.targetWeights.getD i 0 * (E.targetWeights.getD i 0 * (p.getD i 0 - E.targetParameters.getD i 0)) * E.weight * kMotionWeight
      else 0 := by
  have h2 := (getGradient_eq hE fun i => p.getD i 0).2
  simp only [toErrorFunction, paramVec_getD hp] at h2
  have h1 : ∃ s, E.getGradient p (fun _ => 0) = some s := by
    unfold getGradient
    have hm := not_mismatch hE fun i => p.getD i 0
    rw [paramVec_getD hp] at hm
    rw [if_neg hm, hp]
    obtain ⟨s, h1, -⟩ := foldlM_track (fun (s : ℝ × (Nat → ℝ)) (i : Nat) => do
        if ← E.enabledParameters.test i then
          let (w, d) ← E.pdiff p i
          some (s.1 + d * d, Function.update s.2 i (s.2 i + 2 * w * d * E.weight * kMotionWeight))
        else some s) (fun (i : Empty) s => (nomatch i : ℝ)) (fun i k => (nomatch i : ℝ)) (List.range E.transform.cols) (by
          intro i hi s
          have hi := List.mem_range.1 hi
          have hd := pdiff_eq hE (fun i => p.getD i 0) hi
          rw [paramVec_getD hp] at hd
          simp only [ConstraintError.test_mem _ (lt_of_lt_of_le hi hE.cols), Option.bind_eq_bind, Option.bind_some, hd]
          by_cases h : E.enabledParameters.mem i = true
          · exact ⟨_, if_pos h, fun k => nomatch k⟩
          · exact ⟨_, if_neg h, fun k => nomatch k⟩) ((0 : ℝ), fun _ => 0)
    rw [h1]
    exact ⟨_, rfl⟩
  obtain ⟨s, hs⟩ := h1
  refine ⟨s.2, by rw [hs]; rfl, fun i => ?_⟩
  rw [hs] at h2
  exact h2 i

end ParamsError

/-- Target parameters: the same, for vectors `v` that are zero at the disabled parameters.
What is missing for the full property: `getGradient` leaves out disabled parameters and `d_gradient_d_input_dot` does not, see
`C79_motion_wrong`. -/
theorem C79_motion_partial (E : ParamsError) (hE : E.Sized) (p : List ℝ) (hp : p.length = E.transform.cols) (v : Nat → ℝ)
    (hv : ∀ k < E.transform.cols, E.enabledParameters.mem k = false → v k = 0) (name : String) (x : List ℝ)
    (hx : E.getInput name = some x) :
    ∃ d, E.dGradientDot name p v = some d ∧
      IsInputDerivative (E.setInput name) (fun E' => (E'.getGradient p fun _ => 0).map (·.2)) E.transform.cols v x d := by
  set items : List (Nat × ℝ × ℝ) := (List.range E.transform.cols).map fun i =>
    (i, E.targetParameters.getD i 0, E.targetWeights.getD i 0) with hitems
  have hidx : ∀ (f : Nat → Nat × ℝ × ℝ → Nat × ℝ × ℝ), items.mapIdx f =
      (List.range E.transform.cols).map fun i => f i (i, E.targetParameters.getD i 0, E.targetWeights.getD i 0) := by
    intro f
    apply List.ext_getElem (by simp [hitems])
    intro i h1 h2
    simp [hitems]
  have hil : items.length = E.transform.cols := by simp [hitems]
  set F : Nat × ℝ × ℝ → ℝ := fun a => (if E.enabledParameters.mem a.1 = true then
    2 * a.2.2 * (a.2.2 * (p.getD a.1 0 - a.2.1)) * E.weight * kMotionWeight else 0) * v a.1 with hFdef
  have hg : ∀ ts ws : List ℝ, ts.length = E.transform.cols → ws.length = E.transform.cols →
      ∃ g, (({ E with targetParameters := ts, targetWeights := ws } : ParamsError).getGradient p fun _ => 0).map (·.2) = some g ∧
        ∑ k ∈ range E.transform.cols, g k * v k = ((List.range E.transform.cols).map fun i => F (i, ts.getD i 0, ws.getD i 0)).sum := by
    intro ts ws h1 h2
    obtain ⟨g, g1, g2⟩ := ParamsError.getGradient_some (E := { E with targetParameters := ts, targetWeights := ws }) ⟨h1, h2, hE.cols⟩ hp
    refine ⟨g, g1, ?_⟩
    rw [← List.sum_toFinset _ List.nodup_range, List.toFinset_range]
    refine Finset.sum_congr rfl fun k hk => ?_
    rw [g2 k]
    have hk := Finset.mem_range.1 hk
    by_cases hb : E.enabledParameters.mem k = true <;> simp [hFdef, hb, hk]
  have hc : ¬ (E.targetWeights.length ≠ E.transform.cols ∨ E.targetParameters.length ≠ E.transform.cols) := by
    rw [hE.weights, hE.params]; simp
  have hvm : ∀ a ∈ items, a.1 < E.transform.cols := by
    intro a ha
    obtain ⟨i, hi, rfl⟩ := List.mem_map.1 ha
    simpa using hi
  by_cases n1 : name = "target_parameters"
  · subst n1
    have hx' : x = items.flatMap fun a => [a.2.1] := by
      simp only [ParamsError.getInput, if_true, Option.some.injEq] at hx
      rw [if_neg (by rw [hE.params]; simp)] at hx
      rw [← hx, ← List.map_eq_flatMap, hitems, List.map_map]
      apply List.ext_getElem (by simp [hE.params])
      intro i h1 h2
      simp [h1]
    refine ⟨items.flatMap fun a => [-2 * E.weight * kMotionWeight * (a.2.2 * a.2.2) * v a.1], ?_, ?_⟩
    · unfold ParamsError.dGradientDot
      rw [if_neg hc, if_pos rfl, ← List.map_eq_flatMap, hitems, List.map_map]
      congr 1
      apply List.ext_getElem (by simp [hE.weights])
      intro i h1 h2
      have h3 : i < E.targetWeights.length := by simpa using h1
      simp [h3]
    · rw [hx']
      refine blocked_input (k := 1) F (fun a f => (a.1, f 0, a.2.2)) _ _ (fun _ => rfl) (fun _ => rfl) items 0 ?_ ?_
      · intro a ha j
        fin_cases j
        simp only [hFdef, Function.update, Fin.zero_eta, Fin.isValue, Fin.coe_ofNat_eq_mod, Nat.zero_mod, List.getD_cons_zero,
          dif_pos, eq_rec_constant]
        by_cases hb : E.enabledParameters.mem a.1 = true
        · simp only [hb, if_true]
          have h0 := ((hasDerivAt_id' a.2.1).const_sub (p.getD a.1 0)).const_mul (2 * a.2.2 * a.2.2 * E.weight * kMotionWeight * v a.1)
          refine (h0.congr_deriv ?_).congr_of_eventuallyEq (Filter.Eventually.of_forall fun u => ?_)
          · ring
          · show _ = _
            ring
        · have : v a.1 = 0 := hv a.1 (hvm a ha) (by simpa using hb)
          simp only [this, mul_zero]
          exact hasDerivAt_const _ _
      · intro y hy
        rw [hil, one_mul] at hy
        obtain ⟨g, g1, g2⟩ := hg y E.targetWeights hy hE.weights
        refine ⟨{ E with targetParameters := y }, g, ?_, g1, ?_⟩
        · exact ParamsError.setInput_params hy
        · rw [g2, hidx, List.map_map, zero_add]
          simp only [one_mul, Fin.val_zero, add_zero, Function.comp_def]
  by_cases n2 : name = "target_weights"
  · subst n2
    have hx' : x = items.flatMap fun a => [a.2.2] := by
      simp only [ParamsError.getInput, if_true, Option.some.injEq, if_neg n1] at hx
      rw [if_neg (by rw [hE.weights]; simp)] at hx
      rw [← hx, ← List.map_eq_flatMap, hitems, List.map_map]
      apply List.ext_getElem (by simp [hE.weights])
      intro i h1 h2
      simp [h1]
    refine ⟨items.flatMap fun a => [4 * E.weight * kMotionWeight * a.2.2 * (p.getD a.1 0 - a.2.1) * v a.1], ?_, ?_⟩
    · unfold ParamsError.dGradientDot
      rw [if_neg hc, if_neg n1, if_pos rfl, if_pos (by rw [hp, hE.params]), ← List.map_eq_flatMap, hitems, List.map_map]
      congr 1
      apply List.ext_getElem (by simp [hE.weights])
      intro i h1 h2
      have h3 : i < E.targetWeights.length := by simpa using h1
      simp [h3]
    · rw [hx']
      refine blocked_input (k := 1) F (fun a f => (a.1, a.2.1, f 0)) _ _ (fun _ => rfl) (fun _ => rfl) items 0 ?_ ?_
      · intro a ha j
        fin_cases j
        simp only [hFdef, Function.update, Fin.zero_eta, Fin.isValue, Fin.coe_ofNat_eq_mod, Nat.zero_mod, List.getD_cons_zero,
          dif_pos, eq_rec_constant]
        by_cases hb : E.enabledParameters.mem a.1 = true
        · simp only [hb, if_true]
          have h0 := ((hasDerivAt_id' a.2.2).mul (hasDerivAt_id' a.2.2)).const_mul
            (2 * (p.getD a.1 0 - a.2.1) * E.weight * kMotionWeight * v a.1)
          refine (h0.congr_deriv ?_).congr_of_eventuallyEq (Filter.Eventually.of_forall fun u => ?_)
          · ring
          · show _ = _
            simp only [Pi.mul_apply]
            ring
        · have : v a.1 = 0 := hv a.1 (hvm a ha) (by simpa using hb)
          simp only [this, mul_zero]
          exact hasDerivAt_const _ _
      · intro y hy
        rw [hil, one_mul] at hy
        obtain ⟨g, g1, g2⟩ := hg E.targetParameters y hE.params hy
        refine ⟨{ E with targetWeights := y }, g, ?_, g1, ?_⟩
        · exact ParamsError.setInput_weights hy
        · rw [g2, hidx, List.map_map, zero_add]
          simp only [one_mul, Fin.val_zero, add_zero, Function.comp_def]
  · simp [ParamsError.getInput, n1, n2] at hx

end Momentum
