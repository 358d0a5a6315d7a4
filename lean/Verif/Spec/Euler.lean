import Verif.Spec.Rotation
import Verif.Spec.Calculus
import Mathlib.Algebra.Order.Group.Unbundled.Abs

/-!
# Specification vocabulary for Euler angles
-/

namespace Momentum

/-- All nine entries of the two matrices differ by at most `eps`. -/
structure Mat3.Close (eps : ℝ) (a b : Mat3 ℝ) : Prop where
  e00 : |a.m00 - b.m00| ≤ eps
  e01 : |a.m01 - b.m01| ≤ eps
  e02 : |a.m02 - b.m02| ≤ eps
  e10 : |a.m10 - b.m10| ≤ eps
  e11 : |a.m11 - b.m11| ≤ eps
  e12 : |a.m12 - b.m12| ≤ eps
  e20 : |a.m20 - b.m20| ≤ eps
  e21 : |a.m21 - b.m21| ≤ eps
  e22 : |a.m22 - b.m22| ≤ eps

/-- Rotation by `a` about coordinate axis `i`. -/
noncomputable def rotAxis (i : Fin 3) (a : ℝ) : Mat3 ℝ :=
  match i with
  | 0 => rotX a
  | 1 => rotY a
  | 2 => rotZ a

end Momentum
