import Verif.Model.PoseShape
import Mathlib.Algebra.BigOperators.Group.Finset.Basic

/-!
# What the shape for a pose is
-/

namespace Momentum.PoseShape
variable {K : Type} [Field K] [DecidableEq K]

/-- The rotation of the `i`-th joint of a shape relative to the base joint. -/
def relative (s : PoseShape K) (rotations : List (Quat K)) (i : Nat) : Quat K :=
  s.baseRot * (rotations.getD s.baseJoint ⟨0, 0, 0, 0⟩).inverse * rotations.getD (s.jointMap.getD i 0) ⟨0, 0, 0, 0⟩

/-- A coordinate of the shape: that of the base, and for each joint the four numbers of its relative rotation with their weights. -/
def coordinate (s : PoseShape K) (rotations : List (Quat K)) (v : K) (row : List K) : K :=
  v + ∑ i ∈ Finset.range s.jointMap.length, (row.getD (4 * i) 0 * (s.relative rotations i).x + row.getD (4 * i + 1) 0 * (s.relative rotations i).y +
    row.getD (4 * i + 2) 0 * (s.relative rotations i).z + row.getD (4 * i + 3) 0 * (s.relative rotations i).w)

/-- A shape fits a skeleton: its joints exist, and its numbers are as many as the mesh and the joints need. -/
structure Fits (s : PoseShape K) (joints : Nat) : Prop where
  base : s.baseJoint < joints
  map : ∀ j ∈ s.jointMap, j < joints
  rows : s.baseShape.length = s.shapeVectors.length
  cols : s.cols = 4 * s.jointMap.length
  vertices : s.baseShape ≠ [] ∧ s.baseShape.length % 3 = 0

end Momentum.PoseShape
