import Verif.Model.Vec
import Mathlib.Algebra.Order.Field.Basic

/-!
# axel/axel/math/PointTriangleProjectionDefinitions.h

Over an arbitrary linearly ordered field.  `none` stands for a result computed with a division by zero (infinities or
NaN in the code).
-/

namespace Momentum

variable {K : Type} [Field K] [LinearOrder K]

/-- Division; by zero there is no number. -/
def divOr (a b : K) : Option K := if b = 0 then none else some (a / b)

/-- PointTriangleProjectionDefinitions.h:20-95 `projectOnTriangle`: the point `q` and the returned flag. -/
def projectOnTriangle (p a b c : Vec3 K) : Option (Vec3 K × Bool) :=
  let ab := b - a
  let ac := c - a
  let ap := p - a
  let d1 := ab.dot ap
  let d2 := ac.dot ap
  if d1 ≤ 0 ∧ d2 ≤ 0 then some (a, false)
  else
  let bp := p - b
  let d3 := ab.dot bp
  let d4 := ac.dot bp
  if d3 ≥ 0 ∧ d4 ≤ d3 then some (b, false)
  else
  let vc := d1 * d4 - d3 * d2
  if vc ≤ 0 ∧ d1 ≥ 0 ∧ d3 ≤ 0 then (divOr d1 (d1 - d3)).map fun v => (a + v • ab, false)
  else
  let cp := p - c
  let d5 := ab.dot cp
  let d6 := ac.dot cp
  if d6 ≥ 0 ∧ d5 ≤ d6 then some (c, false)
  else
  let vb := d5 * d2 - d1 * d6
  if vb ≤ 0 ∧ d2 ≥ 0 ∧ d6 ≤ 0 then (divOr d2 (d2 - d6)).map fun w => (a + w • ac, false)
  else
  let va := d3 * d6 - d5 * d4
  if va ≤ 0 ∧ d4 - d3 ≥ 0 ∧ d5 - d6 ≥ 0 then
    (divOr (d4 - d3) ((d4 - d3) + (d5 - d6))).map fun w => (b + w • (c - b), false)
  else (divOr 1 (va + vb + vc)).map fun denom => (a + (vb * denom) • ab + (vc * denom) • ac, true)

/-- PointTriangleProjectionDefinitions.h:97-152 `projectOnTriangle` on packets, for one lane.  All the candidates are
computed, and later selections overwrite earlier ones.  `q` is what the output held before. -/
def projectOnTriangleLane (p a b c : Vec3 K) (q : Option (Vec3 K)) : Option (Vec3 K) × Bool :=
  let ab := b - a
  let ac := c - a
  let ap := p - a
  let d1 := ab.dot ap
  let d2 := ac.dot ap
  let isOutside := decide (d1 ≤ 0 ∧ d2 ≤ 0)
  let q := if isOutside then some a else q
  let bp := p - b
  let d3 := ab.dot bp
  let d4 := ac.dot bp
  let isOutside2 := decide (d3 ≥ 0 ∧ d4 ≤ d3)
  let isOutside := isOutside || isOutside2
  let q := if isOutside2 then some b else q
  let vc := d1 * d4 - d3 * d2
  let isOutside3 := decide (vc ≤ 0 ∧ d1 ≥ 0 ∧ d3 ≤ 0)
  let isOutside := isOutside || isOutside3
  let q := if isOutside3 then (divOr d1 (d1 - d3)).map fun v => a + v • ab else q
  let cp := p - c
  let d5 := ab.dot cp
  let d6 := ac.dot cp
  let isOutside4 := decide (d6 ≥ 0 ∧ d5 ≤ d6)
  let isOutside := isOutside || isOutside4
  let q := if isOutside4 then some c else q
  let vb := d5 * d2 - d1 * d6
  let isOutside5 := decide (vb ≤ 0 ∧ d2 ≥ 0 ∧ d6 ≤ 0)
  let isOutside := isOutside || isOutside5
  let q := if isOutside5 then (divOr d2 (d2 - d6)).map fun w => a + w • ac else q
  let va := d3 * d6 - d5 * d4
  let isOutside6 := decide (va ≤ 0 ∧ d4 - d3 ≥ 0 ∧ d5 - d6 ≥ 0)
  let isOutside := isOutside || isOutside6
  let q := if isOutside6 then (divOr (d4 - d3) ((d4 - d3) + (d5 - d6))).map fun w => b + w • (c - b) else q
  let denom := divOr 1 (va + vb + vc)
  let q := if isOutside then q else denom.map fun d => a + (vb * d) • ab + (vc * d) • ac
  (q, !isOutside)

end Momentum
