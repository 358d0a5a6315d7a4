import Verif.Model.PoseShapeIo

/-!
# What a file of a shape that depends on the pose holds
-/

namespace Momentum.PoseShapeIo
open BinaryIo

/-- A file before the vectors: the number of coordinates and of joints, the names of the base joint and of the joints, and the mean shape. -/
def header (base : List UInt8) (names : List (List UInt8)) (mean : List UInt32) : List UInt8 :=
  leBytes 8 mean.length ++ (leBytes 8 names.length ++ (nameBytes base ++ (names.flatMap nameBytes ++ floatBytes mean)))

/-- `k` is the first joint of this name. -/
def IsFirst {R : Type} (joints : List (List UInt8 × R)) (k : Nat) (name : List UInt8) : Prop :=
  (∃ j, joints[k]? = some j ∧ j.1 = name) ∧ ∀ i < k, ∀ j, joints[i]? = some j → j.1 ≠ name

/-- A shape belongs to the names, the mean and the mesh of a character. -/
structure Describes {R : Type} (add : UInt32 → UInt32 → UInt32) (joints : List (List UInt8 × R)) (mesh : List UInt32) (base : List UInt8)
    (names : List (List UInt8)) (mean : List UInt32) (r : Loaded R) : Prop where
  first : IsFirst joints r.baseJoint base
  rot : ∃ j, joints[r.baseJoint]? = some j ∧ j.2 = r.baseRot
  count : r.jointMap.length = names.length
  map : ∀ (i k : Nat) (n : List UInt8), r.jointMap[i]? = some k → names[i]? = some n → IsFirst joints k n
  shape : r.baseShape.length = mesh.length
  sum : ∀ (i : Nat) (a b : UInt32), mean[i]? = some a → mesh[i]? = some b → r.baseShape[i]? = some (add a b)
  rows : r.shapeVectors.rows = mesh.length
  cols : r.shapeVectors.cols = 4 * names.length

end Momentum.PoseShapeIo
