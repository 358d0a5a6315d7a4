import Verif.Model.ErrorBase
import Verif.Spec.ParameterTransform
import Verif.Spec.Calculus
import Verif.Spec.Skeleton

/-!
# Specification: what a solver expects of an error function
-/

namespace Momentum

/-- The error function reports its own error with the gradient, and the gradient is, in component `i`, the derivative of
that error when parameter `i` changes. -/
def ErrorFunction.GradientIsDerivative (f : ErrorFunction) (p : Nat → ℝ) (i : Nat) : Prop :=
  (f.getGradient p).1 = f.getError p ∧
    HasDerivAt (fun u => f.getError (Function.update p i u)) ((f.getGradient p).2 i) (p i)

/-- The error function is a sum of squares of residuals: `getJacobian` reports the error of `getError`, fills no more rows
than announced, the error is the squared length of the residual, and column `i` of the Jacobian is the derivative of the
residual when parameter `i` changes. -/
structure ErrorFunction.JacobianIsDerivative (f : ErrorFunction) (p : Nat → ℝ) (i : Nat) : Prop where
  error : (f.getJacobian p).error = f.getError p
  size : (f.getJacobian p).rows ≤ f.jacobianSize
  rows : ∀ u, (f.getJacobian (Function.update p i u)).rows = (f.getJacobian p).rows
  squares : ∀ u, f.getError (Function.update p i u) = ∑ t ∈ Finset.range (f.getJacobian p).rows,
    (f.getJacobian (Function.update p i u)).residual t ^ 2
  deriv : ∀ t < (f.getJacobian p).rows,
    HasDerivAt (fun u => (f.getJacobian (Function.update p i u)).residual t) ((f.getJacobian p).e i t) (p i)

/-- The same in a neighbourhood only: for error functions that switch terms on and off. -/
structure ErrorFunction.JacobianIsDerivativeNear (f : ErrorFunction) (p : Nat → ℝ) (i : Nat) : Prop where
  error : (f.getJacobian p).error = f.getError p
  size : (f.getJacobian p).rows ≤ f.jacobianSize
  rows : ∀ᶠ u in nhds (p i), (f.getJacobian (Function.update p i u)).rows = (f.getJacobian p).rows
  squares : ∀ᶠ u in nhds (p i), f.getError (Function.update p i u) = ∑ t ∈ Finset.range (f.getJacobian p).rows,
    (f.getJacobian (Function.update p i u)).residual t ^ 2
  deriv : ∀ t < (f.getJacobian p).rows,
    HasDerivAt (fun u => (f.getJacobian (Function.update p i u)).residual t) ((f.getJacobian p).e i t) (p i)

/-- An error function whose skeleton, parameter transform and flags fit together: parents come first, pre-rotations are
unit, sizes match, and every joint parameter that an enabled model parameter moves is flagged active. -/
structure ErrorBase.Fits (E : ErrorBase) (pt : ParameterTransform ℝ) : Prop where
  skeleton : E.skeleton.Valid
  unit : ∀ jt ∈ E.skeleton.joints, jt.preRotation.normSq = 1
  transform : E.transform = pt.transform
  wf : pt.transform.WF
  offs : pt.offsets.length = pt.transform.rows
  rows : pt.transform.rows = E.skeleton.joints.length * 7
  cols : pt.transform.cols ≤ kMaxModelParams
  activeLength : E.activeJointParams.length = pt.transform.rows
  active : ∀ r i, E.enabledParameters.mem i = true → pt.transform.coeff r i ≠ 0 → E.activeJointParams[r]? = some true

/-- The skeleton state for model parameters `p` (skeleton_solver_function.cpp:51,69,128). -/
noncomputable def ErrorBase.stateFor (E : ErrorBase) (pt : ParameterTransform ℝ) (p : List ℝ) (computeDeriv : Bool) :
    Option (List JointState) :=
  (pt.apply p).bind fun jp => skeletonState E.skeleton jp computeDeriv

/-- The first `n` parameters as a vector. -/
def paramVec (n : Nat) (p : Nat → ℝ) : List ℝ := (List.range n).map p

end Momentum
