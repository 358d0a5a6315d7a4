import Verif.Model.ConstraintError
import Verif.Spec.ParameterTransform
import Verif.Spec.Calculus
import Verif.Spec.Skeleton

/-!
# Specification vocabulary for constraint error functions
-/

namespace Momentum
variable {m nv : Nat}

/-- Where a transform puts the vectors `src` of a constraint: the first `numPos` are points, the others axes (which only
turn). -/
def placed (numPos : Nat) (T : Transform ℝ) (src : Fin nv → Vec3 ℝ) (k : Fin nv) : Vec3 ℝ :=
  if k.val < numPos then T.transformPoint (src k) else T.rotation.rotate (src k)

/-- `evalFunction` places the source vectors `src` with the joint's transform and applies the function `F` to them. -/
structure Describes (eval : JointState → EvalResult m nv) (numPos : Nat) (src : Fin nv → Vec3 ℝ)
    (F : (Fin nv → Vec3 ℝ) → Fin m → ℝ) : Prop where
  v : ∀ js, (eval js).v = placed numPos js.transform src
  f : ∀ js, (eval js).f = F (placed numPos js.transform src)

/-- `D` is the derivative of `F` at `y0`: along every differentiable motion of the vectors through `y0`. -/
def IsDerivOf (F : (Fin nv → Vec3 ℝ) → Fin m → ℝ) (y0 : Fin nv → Vec3 ℝ) (D : Fin nv → Fin m → Vec3 ℝ) : Prop :=
  ∀ (y : ℝ → Fin nv → Vec3 ℝ) (y' : Fin nv → Vec3 ℝ) (t : ℝ), y t = y0 →
    (∀ k, HasVecDerivAt (fun u => y u k) (y' k) t) →
    ∀ i, HasDerivAt (fun u => F (y u) i) (∑ k, (D k i).dot (y' k)) t

/-- The same for the squared length of `F` only: its derivative is that of `F` times `2 F`. -/
def IsSqDerivOf (F : (Fin nv → Vec3 ℝ) → Fin m → ℝ) (y0 : Fin nv → Vec3 ℝ) (D : Fin nv → Fin m → Vec3 ℝ) : Prop :=
  ∀ (y : ℝ → Fin nv → Vec3 ℝ) (y' : Fin nv → Vec3 ℝ) (t : ℝ), y t = y0 →
    (∀ k, HasVecDerivAt (fun u => y u k) (y' k) t) →
    HasDerivAt (fun u => ∑ i, F (y u) i ^ 2) (∑ i, 2 * F y0 i * ∑ k, (D k i).dot (y' k)) t

namespace ConstraintError

/-- An error function whose skeleton, parameter transform and flags fit together: parents come first, pre-rotations are
unit, sizes match, every joint parameter that an enabled model parameter moves is flagged active, and the constraints
refer to joints of the skeleton. -/
structure Valid (E : ConstraintError m nv) (pt : ParameterTransform ℝ) : Prop where
  skeleton : E.skeleton.Valid
  unit : ∀ jt ∈ E.skeleton.joints, jt.preRotation.normSq = 1
  transform : E.transform = pt.transform
  wf : pt.transform.WF
  offs : pt.offsets.length = pt.transform.rows
  rows : pt.transform.rows = E.skeleton.joints.length * 7
  cols : pt.transform.cols ≤ kMaxModelParams
  activeLength : E.activeJointParams.length = pt.transform.rows
  active : ∀ r i, E.enabledParameters.mem i = true → pt.transform.coeff r i ≠ 0 → E.activeJointParams[r]? = some true
  parents : ∀ c ∈ E.constraints, c.parent < E.skeleton.joints.length

/-- The skeleton state for model parameters `p` (skeleton_solver_function.cpp:51,69,128). -/
noncomputable def stateFor (E : ConstraintError m nv) (pt : ParameterTransform ℝ) (p : List ℝ) (computeDeriv : Bool) :
    Option (List JointState) :=
  (pt.apply p).bind fun jp => skeletonState E.skeleton jp computeDeriv

/-- The error as a function of the model parameters. -/
noncomputable def errorAt (E : ConstraintError m nv) (pt : ParameterTransform ℝ) (p : List ℝ) : Option ℝ :=
  (E.stateFor pt p false).bind E.getError

/-- Neither `f` nor a block of `df/dv` is so small, without being zero, that the code takes it for zero. -/
def NotNegligible (E : ConstraintError m nv) (r : EvalResult m nv) : Prop :=
  (r.f = 0 ∨ ∃ i, E.precision < |r.f i|) ∧
    ∀ k, (∀ i, r.dfdv k i = 0) ∨
      ∃ i, E.precision < |(r.dfdv k i).x| ∨ E.precision < |(r.dfdv k i).y| ∨ E.precision < |(r.dfdv k i).z|

/-- Component `b` of the function of constraint `c`, as a function of the model parameters. -/
noncomputable def valueAt (E : ConstraintError m nv) (pt : ParameterTransform ℝ) (c : Constraint m nv) (b : Fin m)
    (p : List ℝ) : Option ℝ :=
  (E.stateFor pt p false).bind fun st => st[c.parent]?.map fun js => (c.eval js).f b

/-- What the code scales the rows of constraint `c` with, when its function has the value `f`. -/
noncomputable def rowScale (E : ConstraintError m nv) (c : Constraint m nv) (f : Fin m → ℝ) : ℝ :=
  Real.sqrt (c.weight * E.weight * E.loss.deriv (∑ b, f b * f b))

end ConstraintError
end Momentum
