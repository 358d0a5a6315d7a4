import Verif.Props.TensorTransform
import Verif.Props.TensorQuatEx

/-!
# C78: the hypotheses are met
-/

namespace Momentum

open TensorQuat TensorTransform

/-- A state with a rotation about z, a translation and a scale. -/
noncomputable def exStateRow : Fin 8 → ℝ := ![1, 2, 3, 0, 0, 4 / 5, 3 / 5, 2]

example : (asTransform exStateRow).rotation.normSq = 1 ∧ (asTransform exStateRow).scale ≠ 0 := by
  constructor
  · simp [exStateRow, asTransform, Quat.normSq]; norm_num
  · simp [exStateRow, asTransform]

/-- One state for many points: dimensions 4 and 2 x 4; dimensions 1 x 4 and 3 x 4; and dimensions that do not fit. -/
example : Repeats [4] [2, 4] ∧ Repeats [1, 4] [3, 4] ∧ Repeats [] [5] ∧ ¬ Repeats [2, 4] [3, 4] ∧ ¬ Repeats [2, 4] [4] ∧
    ¬ Repeats [5] [1] ∧ repeatedIndex [1, 4] [2, 3] = [0, 3] ∧ repeatedIndex [4] [1, 2] = [2] ∧ InRange [3, 4] [2, 3] := by
  refine ⟨⟨by decide, ?_⟩, ⟨by decide, ?_⟩, ⟨by decide, ?_⟩, ?_, ?_, ?_, rfl, rfl, ?_⟩
  · intro k h h2
    have : k = 0 := by simp at h; omega
    subst this; right; rfl
  · intro k h h2
    have : k = 0 ∨ k = 1 := by simp at h; omega
    rcases this with rfl | rfl
    · right; rfl
    · left; rfl
  · intro k h
    simp at h
  · rintro ⟨-, h⟩
    have := h 1 (by decide) (by decide)
    simp at this
  · rintro ⟨h, -⟩
    simp at h
  · rintro ⟨-, h⟩
    have := h 0 (by decide) (by decide)
    simp at this
  · exact .cons (by decide) (.cons (by decide) .nil)

/-- The blend of no rotation (weight 3), a half turn (weight 1) and a state with a negative weight is defined. -/
example : (blendSkeletonStates (fun _ => exBlendEigh)
    (fun i => catState ⟨i.val, 0, 0⟩ (exBlendRows i) 1) (some exBlendWeights)).isSome :=
  (C78_blend_defined _ _ _).2 ⟨0, by simp [exBlendWeights]⟩

end Momentum
