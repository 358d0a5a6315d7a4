import Verif.Spec.Geometry

/-!
# Tapered capsules
-/

namespace Momentum

variable {K : Type} [Field K] [LinearOrder K]

/-- `p` belongs to a ball of the capsule: the balls have their centres on the segment from `o` to `o + d`, and radii
that go linearly from `r0` to `r1`. -/
def InCapsule (o d : Vec3 K) (r0 r1 : K) (p : Vec3 K) : Prop :=
  ∃ s, 0 ≤ s ∧ s ≤ 1 ∧ 0 ≤ (1 - s) * r0 + s * r1 ∧ sqDist p (segPoint o d s) ≤ ((1 - s) * r0 + s * r1) ^ 2

end Momentum
