import Verif.Model.Vec
import Mathlib.Algebra.Order.Field.Basic
import Mathlib.Analysis.Real.Sqrt

/-!
# Closest points of two segments

momentum/math/utility.cpp `closestPointsOnSegments` and axel/axel/math/EdgeEdgeDistance.cpp `distanceEdgeEdge`, over an
arbitrary linearly ordered field.  The distance is left squared, except in the last two definitions.  Division by zero
does not occur (`C43_sound`), the value Lean gives it does not matter.
-/

namespace Momentum

variable {K : Type} [Field K] [LinearOrder K]

/-- The numerators and denominators of utility.cpp:314-317. -/
structure SegState (K : Type) where
  sN : K
  sD : K
  tN : K
  tD : K

/-- utility.cpp:319-347: closest point of the lines, cut to the first segment; `none` is an early `return`.  `tol` is
`1e-7f`. -/
def segStage1 (tol maxSquareDist : K) (w d1 d2 : Vec3 K) : Option (SegState K) :=
  let a := d1.sqNorm
  let b := d1.dot d2
  let c := d2.sqNorm
  let d := d1.dot w
  let e := d2.dot w
  let D := a * c - b * b
  if D < tol then
    if w.sqNorm > maxSquareDist then none else some ⟨0, 1, e, c⟩
  else
    let sN := b * e - c * d
    let tN := a * e - b * d
    if (w + (sN / D) • d1 - (tN / D) • d2).sqNorm > maxSquareDist then none
    else if sN < 0 then some ⟨0, D, e, c⟩
    else if sN > D then some ⟨D, D, e + b, c⟩
    else some ⟨sN, D, tN, D⟩

/-- utility.cpp:349-374: cut to the second segment, and recompute the point of the first. -/
def segStage2 (a b d : K) (s : SegState K) : SegState K :=
  if s.tN < 0 then
    if -d < 0 then { s with tN := 0, sN := 0 }
    else if -d > a then { s with tN := 0, sN := s.sD }
    else { s with tN := 0, sN := -d, sD := a }
  else if s.tN > s.tD then
    if -d + b < 0 then { s with tN := s.tD, sN := 0 }
    else if -d + b > a then { s with tN := s.tD, sN := s.sD }
    else { s with tN := s.tD, sN := -d + b, sD := a }
  else s

/-- utility.cpp:376-378: one of the two divisions. -/
def segQuotient (tol n d : K) : K := if |n| < tol then 0 else n / d

/-- utility.cpp:295-389 `closestPointsOnSegments`, with the square of the distance: distance and parameters, `none` when
the function returns `false`. -/
def closestOnSegments (tol : K) (o1 d1 o2 d2 : Vec3 K) (maxDist : K) : Option (K × K × K) := do
  let maxSquareDist := maxDist * maxDist
  let w := o1 - o2
  let r ← segStage1 tol maxSquareDist w d1 d2
  let q := segStage2 d1.sqNorm (d1.dot d2) (d1.dot w) r
  let s := segQuotient tol q.sN q.sD
  let t := segQuotient tol q.tN q.tD
  let distance := (w + s • d1 - t • d2).sqNorm
  if distance > maxSquareDist then none else some (distance, s, t)

/-- utility.cpp:295-389 `closestPointsOnSegments`. -/
noncomputable def closestPointsOnSegments (tol : ℝ) (o1 d1 o2 d2 : Vec3 ℝ) (maxDist : ℝ) : Option (ℝ × ℝ × ℝ) :=
  (closestOnSegments tol o1 d1 o2 d2 maxDist).map fun r => (Real.sqrt r.1, r.2)

/-- `std::clamp(x, 0.0, 1.0)`. -/
def clamp01 (x : K) : K := if x < 0 then 0 else if 1 < x then 1 else x

/-- EdgeEdgeDistance.cpp:22-77: the parameters.  `eps` is `10e-5`. -/
def edgeEdgeParams (eps : K) (p1 q1 p2 q2 : Vec3 K) : K × K :=
  let d1 := q1 - p1
  let d2 := q2 - p2
  let r := p1 - p2
  let a := d1.dot d1
  let e := d2.dot d2
  let f := d2.dot r
  let c := d1.dot r
  if a ≤ eps ∧ e ≤ eps then (0, 0)
  else if a ≤ eps then (0, clamp01 (f / e))
  else if e ≤ eps then (clamp01 (-c / a), 0)
  else
    let b := d1.dot d2
    let denom := a * e - b * b
    let s := if |denom| > eps then clamp01 ((b * f - c * e) / denom) else 0
    let t := (b * s + f) / e
    if t < 0 then (clamp01 (-c / a), 0)
    else if t > 1 then (clamp01 ((b - c) / a), 1)
    else (s, t)

/-- EdgeEdgeDistance.cpp:12-86 `distanceEdgeEdge`: the parameters, the distance and the returned flag. -/
noncomputable def distanceEdgeEdge (eps : ℝ) (p1 q1 p2 q2 : Vec3 ℝ) : ℝ × ℝ × ℝ × Bool :=
  let r := edgeEdgeParams eps p1 q1 p2 q2
  let d1 := q1 - p1
  let d2 := q2 - p2
  if d1.dot d1 ≤ eps ∧ d2.dot d2 ≤ eps then (r.1, r.2, Real.sqrt (p1 - p2).sqNorm, false)
  else (r.1, r.2, Real.sqrt ((p1 + r.1 • d1) - (p2 + r.2 • d2)).sqNorm, true)

end Momentum
