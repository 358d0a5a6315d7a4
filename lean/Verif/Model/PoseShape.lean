import Verif.Model.Limits
import Verif.Model.Transform

/-!
# Shapes that depend on the pose (pose_shape.cpp)
-/

namespace Momentum

/-- pose_shape.h:16-21 `PoseShape`; the matrix by rows, `cols` is its number of columns. -/
structure PoseShape (K : Type) where
  baseJoint : Nat
  baseRot : Quat K
  jointMap : List Nat
  baseShape : List K
  shapeVectors : List (List K)
  cols : Nat

namespace PoseShape
variable {K : Type} [Field K] [DecidableEq K]

/-- pose_shape.cpp:31-35: the coefficients, in the order x, y, z, w of Eigen; indices of joints are not checked. -/
def coefficients (base : Quat K) (rotations : List (Quat K)) : List Nat → Outcome (List K)
  | [] => .ok []
  | j :: js =>
    match rotations[j]? with
    | none => .ub
    | some r =>
      let q := base * r
      (coefficients base rotations js).bind fun c => .ok ([q.x, q.y, q.z, q.w] ++ c)

/-- One row of a matrix times a vector. -/
def dot (row c : List K) : K := (List.zipWith (· * ·) row c).sum

/-- pose_shape.cpp:17-45 `compute`, for the rotations of the joints of the state; the vertices one after another.  The vector of coefficients has the
size of the columns: fewer are not initialised, more are written outside of it.  The first vertex of an empty list is accessed (39), and the map of the
vertices cannot be resized (39-41). -/
def compute (s : PoseShape K) (rotations : List (Quat K)) : Outcome (List K) :=
  if s.baseShape.length ≠ s.shapeVectors.length then .throws
  else
    match rotations[s.baseJoint]? with
    | none => .ub
    | some b =>
      (coefficients (s.baseRot * b.inverse) rotations s.jointMap).bind fun c =>
        if c.length ≠ s.cols ∨ s.baseShape.length % 3 ≠ 0 ∨ s.baseShape = [] then .ub
        else .ok (List.zipWith (· + ·) s.baseShape (s.shapeVectors.map fun row => dot row c))

end PoseShape

end Momentum
