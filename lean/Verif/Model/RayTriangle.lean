import Verif.Model.Vec
import Mathlib.Analysis.Real.Sqrt

/-!
# axel/axel/math/RayTriangleIntersection.cpp

Over the reals.
-/

namespace Momentum

/-- Eigen `norm()`. -/
noncomputable def Vec3.norm (v : Vec3 ℝ) : ℝ := Real.sqrt v.sqNorm

open Classical in
/-- Eigen `normalized()`: the zero vector is left as it is. -/
noncomputable def Vec3.normalized (v : Vec3 ℝ) : Vec3 ℝ := if 0 < v.sqNorm then (1 / v.norm) • v else v

open Classical in
/-- RayTriangleIntersection.cpp:15-69 `rayTriangleIntersect`: the point, `tOut`, `u` and `v` of a hit, `none` when the
function returns `false`.  `eps` is `detail::eps<T>()` (Constants.h:16-27): `1e-6` for `float`, `1e-15` for `double`. -/
noncomputable def rayTriangleIntersect (eps : ℝ) (beginRay direction p0 p1 p2 : Vec3 ℝ) :
    Option (Vec3 ℝ × ℝ × ℝ × ℝ) :=
  let v0v1 := p1 - p0
  let v0v2 := p2 - p0
  let pvec := direction.cross v0v2
  if pvec.norm < eps then none
  else
  let det := v0v1.dot pvec
  let detNorm := v0v1.normalized.dot pvec.normalized
  if |detNorm| < eps then none
  else
  let invDet := 1 / det
  let tvec := beginRay - p0
  let u := tvec.dot pvec * invDet
  if u < -eps ∨ u > 1 + eps then none
  else
  let qvec := tvec.cross v0v1
  let v := direction.dot qvec * invDet
  if v < -eps ∨ u + v > 1 + eps then none
  else
  let tOut := v0v2.dot qvec * invDet
  some (beginRay + tOut • direction, tOut, u, v)

end Momentum
