import Verif.Model.BodyIk
import Verif.Spec.UnionError

/-!
# Specification vocabulary for derivatives of solved poses
-/

namespace Momentum
open Finset Matrix

/-- A thin singular value decomposition `J = U Σ Vᵀ`: orthonormal columns and non-negative singular values. -/
structure IsThinSvd {m n : Nat} (J : Matrix (Fin m) (Fin n) ℝ) (S : ThinSvd n) : Prop where
  count : S.count = min m n
  nonneg : ∀ i, 0 ≤ S.singular i
  orthonormal : S.vᵀ * S.v = 1
  product : ∃ U : Matrix (Fin m) (Fin S.count) ℝ, Uᵀ * U = 1 ∧ J = U * diagonal S.singular * S.vᵀ

/-- A parameter below `n` that is in the set. -/
def IsActive (n : Nat) (active : ParameterSet) (i : Nat) : Prop := i < n ∧ active.test i = some true

/-- The squared length of `J x` is at least `10⁻⁵` times that of `x`, for `x` that vanish outside the active parameters.  `J` is given by
columns. -/
def WellPosed (n : Nat) (active : ParameterSet) (rows : Nat) (J : Nat → Nat → ℝ) : Prop :=
  ∀ x : Nat → ℝ, (∀ i, ¬ IsActive n active i → x i = 0) →
    1 / 100000 * ∑ i ∈ range n, x i ^ 2 ≤ ∑ t ∈ range rows, (∑ i ∈ range n, J i t * x i) ^ 2

/-- `θ u` solves the problem with the number `u`: the gradient `G u` vanishes in the active parameters, for `u` near `u₀`; the other
parameters stay as they are; and `θ` has the derivative `θ'` at `u₀`. -/
structure SolvedCurve (n : Nat) (active : ParameterSet) (G : ℝ → (Nat → ℝ) → Nat → ℝ) (u₀ : ℝ) (θ : ℝ → Nat → ℝ) (θ' : Nat → ℝ) :
    Prop where
  derivative : ∀ i, HasDerivAt (fun u => θ u i) (θ' i) u₀
  others : ∀ i, ¬ IsActive n active i → ∀ u, θ u i = θ u₀ i
  solved : ∀ᶠ u in nhds u₀, ∀ i, IsActive n active i → G u (θ u) i = 0

/-- What the gradient changes because the parameters move along `θ` is, to first order, what `2 JᵀJ` says: the second derivative of the
error is that of the Gauss-Newton approximation in the direction in which the solution moves. -/
def GaussNewtonExact (n : Nat) (active : ParameterSet) (G : ℝ → (Nat → ℝ) → Nat → ℝ) (J : JacobianResult) (u₀ : ℝ) (θ : ℝ → Nat → ℝ)
    (θ' : Nat → ℝ) : Prop :=
  ∀ i, IsActive n active i → HasDerivAt (fun u => G u (θ u) i - G u (θ u₀) i)
    (2 * ∑ t ∈ range J.rows, J.e i t * ∑ j ∈ range n, J.e j t * θ' j) u₀

/-- The gradient of the solver's error with a list of error functions. -/
noncomputable def MemberOps.total {μ : Type} (ops : MemberOps μ (Nat → ℝ)) (weight : μ → ℝ) (fs : List μ) (p : Nat → ℝ) (i : Nat) : ℝ :=
  (skeletonGradient (ops.solverFunctions weight fs) p).2 i

end Momentum
