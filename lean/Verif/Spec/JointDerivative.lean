import Verif.Model.SkeletonState

/-!
# Specification vocabulary: the derivative a joint state reports for one of its seven parameters

The error functions combine the three accessors of the joint state in this way, e.g.
momentum/character_solver/position_error_function.cpp (`getTranslationDerivative(d)`,
`getRotationDerivative(d, pos - translation)`, `getScaleDerivative(pos - translation)`).
-/

namespace Momentum

/-- Derivative reported by joint state `js` of a world position `pos` attached to the joint or one
of its descendants, with respect to the joint's parameter `k` (0-2 translation, 3-5 rotation,
6 scale). -/
noncomputable def reportedDerivative (js : JointState) (k : Fin 7) (pos : Vec3 ℝ) :
    Option (Vec3 ℝ) :=
  match k with
  | 0 => js.getTranslationDerivative 0
  | 1 => js.getTranslationDerivative 1
  | 2 => js.getTranslationDerivative 2
  | 3 => js.getRotationDerivative 0 (pos - js.transform.translation)
  | 4 => js.getRotationDerivative 1 (pos - js.transform.translation)
  | 5 => js.getRotationDerivative 2 (pos - js.transform.translation)
  | 6 => some (js.getScaleDerivative (pos - js.transform.translation))

end Momentum
