import Verif.Model.PosePrior
import Verif.Spec.ErrorFunction
import Mathlib.LinearAlgebra.Matrix.NonsingularInverse
import Mathlib.Data.Matrix.Mul
import Mathlib.Analysis.SpecialFunctions.Trigonometric.Basic

/-!
# Specification: mixtures of Gaussians as pose priors
-/

namespace Momentum
open Finset

/-- The density of the Gaussian distribution with mean `mu` and covariance `C`. -/
noncomputable def gaussianDensity {d : Nat} (mu : Fin d → ℝ) (C : Matrix (Fin d) (Fin d) ℝ) (x : Fin d → ℝ) : ℝ :=
  Real.exp (-(1 / 2) * dotProduct (x - mu) (C⁻¹.mulVec (x - mu))) / Real.sqrt ((2 * Real.pi) ^ d * C.det)

/-- What the prior sees of the model parameters `p`: for each of its own names the value of the model parameter of that
name, or 0 if there is none. -/
def Mppca.view (m : Mppca) (paramNames : List String) (p : Nat → ℝ) (a : Nat) : ℝ :=
  match m.names[a]? with
  | none => 0
  | some s => if s ∈ paramNames then p (paramNames.idxOf s) else 0

/-- Half the squared Mahalanobis distance of `x` from mode `c`. -/
noncomputable def Mppca.dist (m : Mppca) (c : Nat) (x : Nat → ℝ) : ℝ :=
  1 / 2 * ∑ a ∈ range m.d, ∑ b ∈ range m.d, (x a - m.mu c a) * m.Cinv c a b * (x b - m.mu c b)

/-- The logarithm of the weighted density of mode `c` at `x` (see `C60_density`). -/
noncomputable def Mppca.score (m : Mppca) (c : Nat) (x : Nat → ℝ) : ℝ := m.Rpre c - m.dist c x

/-- Mode `c` is more likely at `x` than every other one. -/
def Mppca.UniqueBest (m : Mppca) (c : Nat) (x : Nat → ℝ) : Prop :=
  c < m.p ∧ ∀ c' < m.p, c' ≠ c → m.score c' x < m.score c x

/-- A prior with a name per dimension, symmetric precisions `Cinv`, and factors `L` with `LᵀL = Cinv`. -/
structure Mppca.Valid (m : Mppca) : Prop where
  names : m.names.length = m.d
  symm : ∀ c < m.p, ∀ a < m.d, ∀ b < m.d, m.Cinv c a b = m.Cinv c b a
  factor : ∀ c < m.p, ∀ a < m.d, ∀ b < m.d, ∑ r ∈ range m.d, m.L c r a * m.L c r b = m.Cinv c a b

/-- The pose prior error function as the solver function sees it; it does not look at the skeleton state. -/
noncomputable def PosePrior.toErrorFunction (E : PosePrior) : ErrorFunction where
  weight := E.weight
  jacobianSize := E.getJacobianSize
  getError p := (E.getError (paramVec E.numParams p)).getD 0
  getGradient p := (E.getGradient (paramVec E.numParams p) fun _ => 0).getD (0, fun _ => 0)
  getJacobian p := (E.getJacobian (paramVec E.numParams p) (fun _ _ => 0) fun _ => 0).getD
    ⟨0, 0, fun _ _ => 0, fun _ => 0⟩

end Momentum
