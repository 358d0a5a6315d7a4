import Verif.Model.Segments
import Verif.Model.TriangleProjection
import Mathlib.Analysis.SpecialFunctions.Trigonometric.Inverse
import Mathlib.Analysis.SpecialFunctions.Pow.Real

/-!
# axel/axel/math/CoplanarityCheck.cpp and ContinuousCollisionDetection.cpp

The code is over `double` (the coefficients are rounded to `float` when there is no AVX); here it is over the reals, and `pow` with
the exponent `1.0 / 3.0` is the cube root.  The roots written to the output are the list that is returned, as long as the returned
count.
-/

namespace Momentum

/-- The literal `1e-14` of CoplanarityCheck.cpp:49. -/
noncomputable def rootTol : ℝ := 1 / 10 ^ 14

/-- The literal `1e-9` of CoplanarityCheck.cpp:64, 250, 252 and 254. -/
noncomputable def coefTol : ℝ := 1 / 10 ^ 9

/-- CoplanarityCheck.cpp:25-38: three real roots. -/
noncomputable def cubicTrig (a q r : ℝ) : List ℝ :=
  let t := r / Real.sqrt (q * q * q)
  let t := if t < -1 then -1 else t
  let t := if t > 1 then 1 else t
  let t := Real.arccos t
  let a := a / 3
  let m := -2 * Real.sqrt q
  [m * Real.cos (t * (1 / 3)) - a, m * Real.cos ((t + 2 * Real.pi) * (1 / 3)) - a, m * Real.cos ((t - 2 * Real.pi) * (1 / 3)) - a]

/-- CoplanarityCheck.cpp:40-43: `A`. -/
noncomputable def cubicA (q r : ℝ) : ℝ :=
  let A := -(|r| + Real.sqrt (r * r - q * q * q)) ^ (1 / 3 : ℝ)
  if r < 0 then -A else A

/-- CoplanarityCheck.cpp:44: `B`. -/
noncomputable def cubicB (q A : ℝ) : ℝ := if A = 0 then 0 else q / A

/-- CoplanarityCheck.cpp:45-53: one real root, and a second one if the imaginary part of the others is small. -/
noncomputable def cubicOne (a A B : ℝ) : List ℝ :=
  let a := a / 3
  if |1 / 2 * Real.sqrt 3 * (A - B)| < rootTol then [(A + B) - a, -(1 / 2) * (A + B) - a, -(1 / 2) * (A + B) - a]
  else [(A + B) - a]

/-- CoplanarityCheck.cpp:11-54 `solveP3`: x^3 + a x^2 + b x + c. -/
noncomputable def solveP3 (a b c : ℝ) : List ℝ :=
  let q := (a * a - 3 * b) * (1 / 9)
  let r := (a * (2 * (a * a) - 9 * b) + 27 * c) * (1 / 54)
  if r * r < q * q * q then cubicTrig a q r else cubicOne a (cubicA q r) (cubicB q (cubicA q r))

/-- CoplanarityCheck.cpp:56-72 `solveP2`: a x^2 + b x + c. -/
noncomputable def solveP2 (a b c : ℝ) : List ℝ :=
  let discriminant := b * b - 4 * a * c
  if discriminant < 0 then []
  else if discriminant < coefTol then [(-b) / (2 * a)]
  else [(-b + Real.sqrt discriminant) / (2 * a), (-b - Real.sqrt discriminant) / (2 * a)]

/-- The coefficients `d`, `a`, `b` and `c` of t^3, t^2, t^1 and t^0 of CoplanarityCheck.cpp:96-246. -/
structure Cubic where
  d : ℝ
  a : ℝ
  b : ℝ
  c : ℝ

/-- CoplanarityCheck.cpp:99-220: the coefficients with AVX; the four lanes of each product are added from the left. -/
noncomputable def coplanarCubicAvx (x21 x31 x41 v21 v31 v41 : Vec3 ℝ) : Cubic :=
  let d1 := -v21.z * v31.y * v41.x + v21.y * v31.z * v41.x + v21.z * v31.x * v41.y + -v21.x * v31.z * v41.y
  let d2 := -v21.y * v31.x * v41.z + v21.x * v31.y * v41.z
  let a1 := -v31.z * v41.y * x21.x + v31.y * v41.z * x21.x + v31.z * v41.x * x21.y + -v31.x * v41.z * x21.y
  let a2 := -v31.y * v41.x * x21.z + v31.x * v41.y * x21.z + v21.z * v41.y * x31.x + -v21.y * v41.z * x31.x
  let a3 := -v21.z * v41.x * x31.y + v21.x * v41.z * x31.y + v21.y * v41.x * x31.z + -v21.x * v41.y * x31.z
  let a4 := -v21.z * v31.y * x41.x + v21.y * v31.z * x41.x + v21.z * v31.x * x41.y + -v21.x * v31.z * x41.y
  let a5 := -v21.y * v31.x * x41.z + v21.x * v31.y * x41.z
  let b1 := -v41.z * x21.y * x31.x + v41.y * x21.z * x31.x + v41.z * x21.x * x31.y + -v41.x * x21.z * x31.y
  let b2 := -v41.y * x21.x * x31.z + v41.x * x21.y * x31.z + v31.z * x21.y * x41.x + -v31.y * x21.z * x41.x
  let b3 := -v21.z * x31.y * x41.x + v21.y * x31.z * x41.x + -v31.z * x21.x * x41.y + v31.x * x21.z * x41.y
  let b4 := v21.z * x31.x * x41.y + -v21.x * x31.z * x41.y + v31.y * x21.x * x41.z + -v31.x * x21.y * x41.z
  let b5 := -v21.y * x31.x * x41.z + v21.x * x31.y * x41.z
  let c1 := -x21.z * x31.y * x41.x + x21.y * x31.z * x41.x + x21.z * x31.x * x41.y + -x21.x * x31.z * x41.y
  let c2 := -x21.y * x31.x * x41.z + x21.x * x31.y * x41.z
  ⟨d1 + d2, a1 + a2 + a3 + a4 + a5, b1 + b2 + b3 + b4 + b5, c1 + c2⟩

/-- CoplanarityCheck.cpp:222-245: the coefficients without AVX. -/
noncomputable def coplanarCubicScalar (x21 x31 x41 v21 v31 v41 : Vec3 ℝ) : Cubic :=
  ⟨-v21.z * v31.y * v41.x + v21.y * v31.z * v41.x + v21.z * v31.x * v41.y - v21.x * v31.z * v41.y - v21.y * v31.x * v41.z +
      v21.x * v31.y * v41.z,
    -v31.z * v41.y * x21.x + v31.y * v41.z * x21.x + v31.z * v41.x * x21.y - v31.x * v41.z * x21.y - v31.y * v41.x * x21.z +
      v31.x * v41.y * x21.z + v21.z * v41.y * x31.x - v21.y * v41.z * x31.x - v21.z * v41.x * x31.y + v21.x * v41.z * x31.y +
      v21.y * v41.x * x31.z - v21.x * v41.y * x31.z - v21.z * v31.y * x41.x + v21.y * v31.z * x41.x + v21.z * v31.x * x41.y -
      v21.x * v31.z * x41.y - v21.y * v31.x * x41.z + v21.x * v31.y * x41.z,
    -v41.z * x21.y * x31.x + v41.y * x21.z * x31.x + v41.z * x21.x * x31.y - v41.x * x21.z * x31.y - v41.y * x21.x * x31.z +
      v41.x * x21.y * x31.z + v31.z * x21.y * x41.x - v31.y * x21.z * x41.x - v21.z * x31.y * x41.x + v21.y * x31.z * x41.x -
      v31.z * x21.x * x41.y + v31.x * x21.z * x41.y + v21.z * x31.x * x41.y - v21.x * x31.z * x41.y + v31.y * x21.x * x41.z -
      v31.x * x21.y * x41.z - v21.y * x31.x * x41.z + v21.x * x31.y * x41.z,
    -x21.z * x31.y * x41.x + x21.y * x31.z * x41.x + x21.z * x31.x * x41.y - x21.x * x31.z * x41.y - x21.y * x31.x * x41.z +
      x21.x * x31.y * x41.z⟩

/-- CoplanarityCheck.cpp:248-277: the roots of the polynomial. -/
noncomputable def Cubic.roots (k : Cubic) : List ℝ :=
  if |k.d| < coefTol then
    if |k.a| < coefTol then
      if |k.b| > coefTol then [-k.c / k.b] else [0]
    else solveP2 k.a k.b k.c
  else solveP3 (k.a / k.d) (k.b / k.d) (k.c / k.d)

/-- CoplanarityCheck.cpp:78-85: four of the arguments. -/
structure FourPoints where
  p1 : Vec3 ℝ
  p2 : Vec3 ℝ
  p3 : Vec3 ℝ
  p4 : Vec3 ℝ

/-- CoplanarityCheck.cpp:89-94 and the coefficients. -/
noncomputable def coplanarCubic (avx : Bool) (x v : FourPoints) : Cubic :=
  let x21 := x.p2 - x.p1
  let x31 := x.p3 - x.p1
  let x41 := x.p4 - x.p1
  let v21 := v.p2 - v.p1
  let v31 := v.p3 - v.p1
  let v41 := v.p4 - v.p1
  if avx then coplanarCubicAvx x21 x31 x41 v21 v31 v41 else coplanarCubicScalar x21 x31 x41 v21 v31 v41

/-- CoplanarityCheck.cpp:76-278 `timesCoplanar`. -/
noncomputable def timesCoplanar (avx : Bool) (x v : FourPoints) : List ℝ := (coplanarCubic avx x v).roots

/-- ContinuousCollisionDetection.cpp:45 and 76-79: `x + time * v`. -/
def FourPoints.at (x v : FourPoints) (time : ℝ) : FourPoints :=
  ⟨x.p1 + time • v.p1, x.p2 + time • v.p2, x.p3 + time • v.p3, x.p4 + time • v.p4⟩

/-- The literal `10e-5` of EdgeEdgeDistance.cpp:20. -/
noncomputable def edgeTol : ℝ := 1 / 10 ^ 4

/-- ContinuousCollisionDetection.cpp:41-48: the test at one time. -/
noncomputable def edgeEdgeClose (y : FourPoints) (distanceThreshold : ℝ) : Bool :=
  let r := distanceEdgeEdge edgeTol y.p1 y.p2 y.p3 y.p4
  r.2.2.2 && decide (r.2.2.1 < distanceThreshold)

/-- ContinuousCollisionDetection.cpp:16-51 `ccdEdgeEdge`. -/
noncomputable def ccdEdgeEdge (avx : Bool) (x v : FourPoints) (distanceThreshold dt : ℝ) : Bool :=
  (timesCoplanar avx x v ++ [dt]).any fun time =>
    if time ≤ 0 ∨ time > dt then false else edgeEdgeClose (x.at v time) distanceThreshold

/-- ContinuousCollisionDetection.cpp:76-87: the test at one time.  When the projection divides zero by zero, the comparison with
the threshold is false. -/
noncomputable def vertexTriangleClose (y : FourPoints) (distanceThreshold : ℝ) : Bool :=
  match projectOnTriangle y.p4 y.p1 y.p2 y.p3 with
  | some (q, insideTriangle) => insideTriangle && decide ((y.p4 - q).sqNorm < distanceThreshold * distanceThreshold)
  | none => false

/-- ContinuousCollisionDetection.cpp:53-90 `ccdVertexTriangle`. -/
noncomputable def ccdVertexTriangle (avx : Bool) (x v : FourPoints) (distanceThreshold dt : ℝ) : Bool :=
  (timesCoplanar avx x v ++ [dt]).any fun time =>
    if time ≤ 0 ∨ time > dt then false else vertexTriangleClose (x.at v time) distanceThreshold

end Momentum
