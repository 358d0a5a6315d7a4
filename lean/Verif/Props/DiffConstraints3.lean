import Verif.Props.DiffConstraints2

/-!
# C79: inputs of the state and motion error functions, disabled parameters, concrete cases
-/

namespace Momentum
open Finset

/-- Target parameters and weights. -/
theorem C79_motion_inputs (E : ParamsError) (hE : E.Sized) : InputsConsistent ParamsError.inputs ParamsError.getInputSize
    ParamsError.getInput ParamsError.setInput (fun _ _ => True) E where
  unknown name h := by
    simp [ParamsError.inputs] at h
    simp [ParamsError.getInputSize, ParamsError.getInput, ParamsError.setInput, h]
  known name h := by
    rcases (by simpa [ParamsError.inputs] using h : name = "target_parameters" ∨ name = "target_weights") with rfl | rfl
    · exact ⟨E.targetParameters, by simp [ParamsError.getInput, hE.params], by rw [hE.params]; rfl,
        fun _ => ParamsError.setInput_params hE.params⟩
    · exact ⟨E.targetWeights, by simp [ParamsError.getInput, hE.weights], by rw [hE.weights]; rfl,
        fun _ => ParamsError.setInput_weights hE.weights⟩
  wrongSize name x y hx hy := by
    unfold ParamsError.getInput at hx
    unfold ParamsError.setInput ParamsError.getInputSize
    split_ifs at hx with h1 h2 h3 h4
    · exact absurd hE.params h2
    · cases hx; rw [if_pos (.inl h1), Option.bind_some, if_neg (by rw [← hE.params]; exact hy)]
    · exact absurd hE.weights h4
    · cases hx; rw [if_pos (.inr h3), Option.bind_some, if_neg (by rw [← hE.weights]; exact hy)]
  setGet name x y hx hy := by
    unfold ParamsError.getInput at hx
    split_ifs at hx with h1 h2 h3 h4
    · exact absurd hE.params h2
    · cases hx
      subst h1
      refine ⟨_, ParamsError.setInput_params (hy.trans hE.params), fun _ => ?_, fun other ho hne => ?_⟩
      · simp [ParamsError.getInput, hy, hE.params]
      · have : other = "target_weights" := by simpa [ParamsError.inputs, hne] using ho
        subst this
        rfl
    · exact absurd hE.weights h4
    · cases hx
      subst h3
      refine ⟨_, ParamsError.setInput_weights (hy.trans hE.weights), fun _ => ?_, fun other ho hne => ?_⟩
      · simp [ParamsError.getInput, hy, hE.weights]
      · have : other = "target_parameters" := by simpa [ParamsError.inputs, hne] using ho
        subst this
        rfl

/-- The gradient of disabled parameters is zero whatever the targets are, but `d_gradient_d_input_dot` of the motion error function
gives derivatives for them. -/
theorem C79_motion_wrong : ∃ (E : ParamsError) (p : List ℝ) (v : Nat → ℝ) (x d : List ℝ), E.Sized ∧ p.length = E.transform.cols ∧
    E.getInput "target_parameters" = some x ∧ E.dGradientDot "target_parameters" p v = some d ∧
    ¬ IsInputDerivative (E.setInput "target_parameters") (fun E' => (E'.getGradient p fun _ => 0).map (·.2)) E.transform.cols v x d := by
  let E : ParamsError := { toErrorBase := { exBase with transform := ⟨14, 1, []⟩, enabledParameters := ParameterSet.empty }
                           targetParameters := [0], targetWeights := [1] }
  have hE : E.Sized := ⟨rfl, rfl, by simp [E, kMaxModelParams]⟩
  refine ⟨E, [1], fun _ => 1, [0], [-2 * 1 * kMotionWeight * (1 * 1) * 1], hE, rfl, ?_, ?_, ?_⟩
  · simp [ParamsError.getInput, E]
  · simp [ParamsError.dGradientDot, E, exBase]
  · rintro ⟨-, h⟩
    obtain ⟨F, h1, h2⟩ := h 0 (by simp)
    have hF : F = fun _ => 0 := by
      funext u
      obtain ⟨E', g, e1, e2, e3⟩ := h1 u
      have e4 := ParamsError.setInput_params (E := E) (y := ([0] : List ℝ).set 0 u) rfl
      rw [e4] at e1
      cases e1
      obtain ⟨g', f1, f2⟩ := ParamsError.getGradient_some (E := { E with targetParameters := ([0] : List ℝ).set 0 u }) ⟨rfl, rfl, hE.cols⟩
        (p := [1]) rfl
      simp only at e2
      rw [f1] at e2
      cases e2
      rw [e3]
      refine Finset.sum_eq_zero fun k _ => ?_
      rw [f2 k, if_neg (by
        simp [E, ParameterSet.mem, ParameterSet.empty]), zero_mul]
    rw [hF] at h2
    have := h2.unique (hasDerivAt_const _ _)
    norm_num [kMotionWeight] at this

/-! ## Concrete cases -/

/-- Two points of the child of `exBase` with targets. -/
noncomputable def exDiffPosition : DiffPosition where
  toErrorBase := exBase
  constraints := [⟨⟨1, 2, 3⟩, ⟨0, 0, 1⟩, 1, 2⟩, ⟨⟨0, 1, 0⟩, ⟨4, 5, 6⟩, 1, 3⟩]

noncomputable def exDiffOrientation : DiffOrientation where
  toErrorBase := exBase
  constraints := [⟨⟨1, 0, 0, 0⟩, ⟨0, 1, 0, 0⟩, 1, 2⟩]

theorem exBase_state (p : List ℝ) (hp : p.length = 2) : ∃ st, exBase.stateFor exBaseTransform p true = some st := by
  have h1 : ∃ jp, exBaseTransform.apply p = some jp ∧ jp.length = 14 := by
    refine ⟨addVec (exBaseTransform.transform.mulVec p) exBaseTransform.offsets, ?_, ?_⟩
    · unfold ParameterTransform.apply
      rw [if_pos (by rw [hp]; rfl), if_pos (by simp [exBaseTransform, exBase])]
    · simp [addVec, SparseMat.mulVec, exBaseTransform, exBase]
  obtain ⟨jp, e1, e2⟩ := h1
  unfold ErrorBase.stateFor
  rw [e1, Option.bind_some]
  obtain ⟨S, s1, -, -⟩ := skeletonState_good exBase_fits.skeleton (params := jp) true (by rw [e2]; simp [exBase])
  exact ⟨S, s1⟩

/-- The hypotheses of `C79_position` are met by two constraints in a pose, for all three inputs. -/
example : ∃ st, exDiffPosition.Fits exBaseTransform ∧ (∀ c ∈ exDiffPosition.constraints, c.parent < exDiffPosition.skeleton.joints.length) ∧
    exDiffPosition.stateFor exBaseTransform [1, 2] true = some st ∧ exDiffPosition.getInput "weights" = some [2, 3] ∧
    exDiffPosition.getInput "offsets" = some [1, 2, 3, 0, 1, 0] ∧ exDiffPosition.getInput "targets" = some [0, 0, 1, 4, 5, 6] := by
  obtain ⟨st, h⟩ := exBase_state [1, 2] rfl
  exact ⟨st, exBase_fits, by simp [exDiffPosition, exBase], h, by simp [exDiffPosition, DiffPosition.getInput],
    by simp [exDiffPosition, DiffPosition.getInput], by simp [exDiffPosition, DiffPosition.getInput]⟩

/-- The hypotheses of `C79_orientation` are met. -/
example : ∃ st, exDiffOrientation.Fits exBaseTransform ∧
    (∀ c ∈ exDiffOrientation.constraints, c.parent < exDiffOrientation.skeleton.joints.length) ∧
    exDiffOrientation.stateFor exBaseTransform [1, 2] true = some st ∧ exDiffOrientation.getInput "targets" = some [1, 0, 0, 0] ∧
    (∀ c ∈ exDiffOrientation.constraints, c.target ≠ ⟨0, 0, 0, 0⟩) := by
  obtain ⟨st, h⟩ := exBase_state [1, 2] rfl
  exact ⟨st, exBase_fits, by simp [exDiffOrientation, exBase], h, by simp [exDiffOrientation, DiffOrientation.getInput, Quat.coeffs],
    by simp [exDiffOrientation]⟩

/-- The hypotheses of `C79_state` are met. -/
example : ∃ st x, (exState 2).Fits exBaseTransform ∧ (exState 2).Sized ∧ (exState 2).stateFor exBaseTransform [1, 2] true = some st ∧
    (exState 2).getInput "targetState" = some x ∧ x.length = 16 ∧ (∀ t ∈ (exState 2).targetState, t.rotation ≠ ⟨0, 0, 0, 0⟩) := by
  obtain ⟨st, h⟩ := exBase_state [1, 2] rfl
  refine ⟨st, _, exBase_fits, exState_sized 2, h, by
    simp [exState, exBase, StateError.getInput, List.range_succ]; rfl, ?_, by simp [exState]⟩
  simp [StateError.stateCoeffs, Quat.coeffs]

/-- The hypotheses of `C79_motion_partial` are met by a vector that is not zero, with a disabled parameter. -/
example : ∃ (E : ParamsError) (v : Nat → ℝ), E.Sized ∧ E.transform.cols = 2 ∧ v 0 ≠ 0 ∧ E.enabledParameters.mem 1 = false ∧
    (∀ k < E.transform.cols, E.enabledParameters.mem k = false → v k = 0) ∧ E.getInput "target_weights" = some [3, 4] := by
  refine ⟨{ toErrorBase := { exBase with enabledParameters := fun i => i.val == 0 }, targetParameters := [1, 2], targetWeights := [3, 4] },
    fun k => if k = 0 then 1 else 0, ⟨rfl, rfl, by simp [exBase, kMaxModelParams]⟩, rfl, by simp, ?_, ?_, ?_⟩
  · simp [ParameterSet.mem, kMaxModelParams]
  · intro k hk h
    by_cases h0 : k = 0
    · subst h0; simp [ParameterSet.mem, kMaxModelParams] at h
    · simp [h0]
  · simp [ParamsError.getInput, exBase]

end Momentum
