import Verif.Model.Vec
import Mathlib.Algebra.Order.Field.Basic

/-!
# Triangles, segments and distances
-/

namespace Momentum

variable {K : Type} [Field K] [LinearOrder K]

/-- `q` is a point of the triangle `a b c`. -/
def InTriangle (a b c q : Vec3 K) : Prop :=
  ∃ u v w : K, 0 ≤ u ∧ 0 ≤ v ∧ 0 ≤ w ∧ u + v + w = 1 ∧ q = u • a + v • b + w • c

/-- `q` is in the triangle and off its edges. -/
def InTriangleInterior (a b c q : Vec3 K) : Prop :=
  ∃ u v w : K, 0 < u ∧ 0 < v ∧ 0 < w ∧ u + v + w = 1 ∧ q = u • a + v • b + w • c

/-- The corners do not lie on a line. -/
def Nondegenerate (a b c : Vec3 K) : Prop := (b - a).cross (c - a) ≠ 0

/-- `q` is the orthogonal projection of `p` to the plane of the triangle. -/
def IsPlaneProjection (a b c p q : Vec3 K) : Prop :=
  (∃ v w : K, q = a + v • (b - a) + w • (c - a)) ∧ (b - a).dot (p - q) = 0 ∧ (c - a).dot (p - q) = 0

/-- The square of the distance of two points. -/
def sqDist (p q : Vec3 K) : K := (p - q).sqNorm

/-- `q` belongs to `S`, and no point of `S` is closer to `p`. -/
def IsClosest (S : Vec3 K → Prop) (p q : Vec3 K) : Prop := S q ∧ ∀ q', S q' → sqDist p q ≤ sqDist p q'

/-- The point at parameter `s` of the segment from `o` to `o + d`. -/
def segPoint (o d : Vec3 K) (s : K) : Vec3 K := o + s • d

/-- `s` and `t` are parameters of the segments, and no two points of the segments are closer than those at `s`, `t`. -/
def IsClosestPair (o1 d1 o2 d2 : Vec3 K) (s t : K) : Prop :=
  (0 ≤ s ∧ s ≤ 1) ∧ (0 ≤ t ∧ t ≤ 1) ∧
  ∀ s' t', 0 ≤ s' → s' ≤ 1 → 0 ≤ t' → t' ≤ 1 →
    sqDist (segPoint o1 d1 s) (segPoint o2 d2 t) ≤ sqDist (segPoint o1 d1 s') (segPoint o2 d2 t')

end Momentum
