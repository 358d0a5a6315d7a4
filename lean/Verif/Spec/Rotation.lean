import Verif.Model.Vec

/-!
# Specification: rotation matrices
-/

namespace Momentum

/-- A proper rotation matrix: orthogonal with determinant one. -/
structure IsRotation {K : Type*} [CommRing K] (m : Mat3 K) : Prop where
  orth : m.mul m.transpose = Mat3.one
  det_one : m.det = 1

end Momentum
