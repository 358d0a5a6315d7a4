import Mathlib.Analysis.Real.Sqrt
import Mathlib.Algebra.BigOperators.Intervals

/-!
# Specification: regularised linear least squares
-/

namespace Momentum
open Finset

/-- `m` equations `∑ j, a t j * x j = b t`. -/
structure Rows where
  m : Nat
  a : Nat → Nat → ℝ
  b : Nat → ℝ

/-- `|A x - b|²` for unknowns `x 0, …, x (n-1)`. -/
def Rows.residual (r : Rows) (n : Nat) (x : Nat → ℝ) : ℝ :=
  ∑ t ∈ range r.m, (∑ j ∈ range n, r.a t j * x j - r.b t) ^ 2

/-- `λ² |x|² + ∑ |A_i x - b_i|²`. -/
def objective (n : Nat) (lambda : ℝ) (hist : List Rows) (x : Nat → ℝ) : ℝ :=
  lambda ^ 2 * ∑ j ∈ range n, x j ^ 2 + (hist.map fun r => r.residual n x).sum

/-- Entry `(j, k)` of `λ² I + ∑ A_iᵀ A_i`. -/
def normalMatrix (lambda : ℝ) (hist : List Rows) (j k : Nat) : ℝ :=
  (if j = k then lambda ^ 2 else 0) + (hist.map fun r => ∑ t ∈ range r.m, r.a t j * r.a t k).sum

/-- Entry `j` of `∑ A_iᵀ b_i`. -/
def normalRhs (hist : List Rows) (j : Nat) : ℝ :=
  (hist.map fun r => ∑ t ∈ range r.m, r.a t j * r.b t).sum

/-- The only vector on which `λ` and all the blocks vanish is zero. -/
def FullRank (n : Nat) (lambda : ℝ) (hist : List Rows) : Prop :=
  ∀ x : Nat → ℝ, (∀ j < n, lambda * x j = 0) → (∀ r ∈ hist, ∀ t < r.m, ∑ j ∈ range n, r.a t j * x j = 0) →
    ∀ j < n, x j = 0

end Momentum
