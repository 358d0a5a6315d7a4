import Verif.Model.Segments
import Verif.Model.Skinning
import Verif.Model.BoundingBox

/-!
# Collision of tapered capsules

momentum/character/collision_geometry_state.h.  `CapsuleState` and `capsuleState` are in `Model/Skinning.lean`.
-/

namespace Momentum

/-- What collision_geometry_state.h:53-89 `overlaps` writes when it gets past the first test. -/
structure OverlapInfo where
  s : ℝ
  t : ℝ
  distance : ℝ
  overlap : ℝ

/-- collision_geometry_state.h:64-84: the outputs, `none` when the segments are too far apart. -/
noncomputable def overlapInfo (tol : ℝ) (a b : CapsuleState ℝ) : Option OverlapInfo := do
  let maxRadiiSum := max a.radius0 a.radius1 + max b.radius0 b.radius1
  let (closestDist, s, t) ← closestPointsOnSegments tol a.origin a.direction b.origin b.direction maxRadiiSum
  let radiusAtClosestPoints := a.radius0 + s * a.delta + b.radius0 + t * b.delta
  some ⟨s, t, closestDist, radiusAtClosestPoints - closestDist⟩

/-- collision_geometry_state.h:53-89 `overlaps`: the returned flag; `eps` is `Eps<T>(1e-8, 1e-17)`. -/
noncomputable def overlaps (tol eps : ℝ) (a b : CapsuleState ℝ) : Bool :=
  match overlapInfo tol a b with
  | none => false
  | some r => decide (r.overlap > 0 ∧ r.distance ≥ eps)

/-- collision_geometry_state.h:92-108 `updateAabb`; the id is kept. -/
def updateAabb {K : Type} [Field K] [LinearOrder K] (aabb : Box K) (originA direction : Vec3 K) (r0 r1 : K) : Box K :=
  let originB := originA + direction
  let minA := originA - ⟨r0, r0, r0⟩
  let maxA := originA + ⟨r0, r0, r0⟩
  let minB := originB - ⟨r1, r1, r1⟩
  let maxB := originB + ⟨r1, r1, r1⟩
  { aabb with
    min := ⟨minA.x ⊓ minB.x, minA.y ⊓ minB.y, minA.z ⊓ minB.z⟩
    max := ⟨maxA.x ⊔ maxB.x, maxA.y ⊔ maxB.y, maxA.z ⊔ maxB.z⟩ }

end Momentum
