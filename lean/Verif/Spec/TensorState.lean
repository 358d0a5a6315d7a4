import Verif.Model.Vec
import Mathlib.Analysis.Calculus.Deriv.Basic
import Mathlib.Algebra.BigOperators.Fin

/-!
# Specification vocabulary: what a backward pass has to return

A backward pass is given one weight for each output and returns, for each input, the derivative of the weighted sum of the outputs.
-/

namespace Momentum

/-- The entries of `g` are the partial derivatives of `L` at the vector `x`. -/
def IsGradientOf (L : List ℝ → ℝ) (x : List ℝ) (g : Nat → ℝ) : Prop :=
  ∀ n, n < x.length → HasDerivAt (fun u => L (x.set n u)) (g n) (x.getD n 0)

/-- The weighted sum of a list of rows of eight numbers; `w` lists the weights row after row. -/
def weightedRows (w : Nat → ℝ) (rows : List (Fin 8 → ℝ)) : ℝ :=
  ((List.range rows.length).map fun i => ∑ c : Fin 8, w (8 * i + c) * rows.getD i 0 c).sum

/-- The weighted sum of a list of points; `w` lists the weights point after point. -/
def weightedPoints {K : Type} [CommRing K] (w : Nat → K) (points : List (Vec3 K)) : K :=
  ((List.range points.length).map fun i => w (3 * i) * (points.getD i 0).x + w (3 * i + 1) * (points.getD i 0).y +
    w (3 * i + 2) * (points.getD i 0).z).sum

open Classical in
/-- The weights with those of each row replaced by zero when none of them is larger than `prec`. -/
noncomputable def dropSmallRows (prec : ℝ) (w : Nat → ℝ) : Nat → ℝ := fun n =>
  if ∀ c : Fin 8, |w (8 * (n / 8) + c)| ≤ prec then 0 else w n

end Momentum
