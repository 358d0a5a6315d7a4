import Verif.Model.Solver

/-!
# Specification: the step of a regularised least squares solver
-/

namespace Momentum
open Finset

/-- `ρ |d|² + |J d - r|²` for a Jacobian and residual with `n` columns. -/
def dampedSquares (n : Nat) (rho : ℝ) (J : JacobianResult) (d : Nat → ℝ) : ℝ :=
  rho * ∑ j ∈ range n, d j ^ 2 + ∑ t ∈ range J.rows, (∑ j ∈ range n, J.e j t * d j - J.residual t) ^ 2

/-- `d` minimises that, and no other vector does. -/
def OnlyMinimiser (n : Nat) (rho : ℝ) (J : JacobianResult) (d : Nat → ℝ) : Prop :=
  ∀ z, dampedSquares n rho J d ≤ dampedSquares n rho J z ∧
    (dampedSquares n rho J z ≤ dampedSquares n rho J d → ∀ j < n, z j = d j)

/-- The problem determines a step: the regularisation is positive or the columns of the Jacobian are independent. -/
def Determined (n : Nat) (rho : ℝ) (J : JacobianResult) : Prop :=
  0 < rho ∨ ∀ x : Nat → ℝ, (∀ t < J.rows, ∑ j ∈ range n, J.e j t * x j = 0) → ∀ j < n, x j = 0

end Momentum
