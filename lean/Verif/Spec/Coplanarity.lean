import Verif.Model.Coplanarity
import Verif.Spec.Geometry

/-!
# Collisions of moving points: what is meant
-/

namespace Momentum

/-- The four points lie in a plane. -/
def FourPoints.Coplanar (y : FourPoints) : Prop :=
  ∃ (n : Vec3 ℝ) (h : ℝ), n ≠ 0 ∧ n.dot y.p1 = h ∧ n.dot y.p2 = h ∧ n.dot y.p3 = h ∧ n.dot y.p4 = h

/-- The edge from the first to the second point and the edge from the third to the fourth have points closer than `r`. -/
def FourPoints.EdgesWithin (y : FourPoints) (r : ℝ) : Prop :=
  ∃ s t : ℝ, (0 ≤ s ∧ s ≤ 1) ∧ (0 ≤ t ∧ t ≤ 1) ∧
    Real.sqrt (sqDist (segPoint y.p1 (y.p2 - y.p1) s) (segPoint y.p3 (y.p4 - y.p3) t)) < r

/-- The two edges meet. -/
def FourPoints.EdgesMeet (y : FourPoints) : Prop :=
  ∃ s t : ℝ, (0 ≤ s ∧ s ≤ 1) ∧ (0 ≤ t ∧ t ≤ 1) ∧ segPoint y.p1 (y.p2 - y.p1) s = segPoint y.p3 (y.p4 - y.p3) t

/-- The polynomial is computed without a tolerance getting in the way: coefficients that are treated as zero are zero, and a
discriminant that is treated as zero is zero. -/
def Cubic.Clear (k : Cubic) : Prop :=
  coefTol ≤ |k.d| ∨
    k.d = 0 ∧ (coefTol ≤ |k.a| ∧ (k.b * k.b - 4 * k.a * k.c ≤ 0 ∨ coefTol ≤ k.b * k.b - 4 * k.a * k.c) ∨
      k.a = 0 ∧ coefTol < |k.b|)

end Momentum
