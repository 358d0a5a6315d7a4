import Verif.Model.EllipsoidLimit
import Verif.Spec.ErrorFunction
import Verif.Lemmas.SkeletonState

/-!
# Specification: ellipsoid limits
-/

namespace Momentum

/-- `b` undoes `a` and `a` undoes `b`. -/
def Affine.AreInverse (a b : Affine ℝ) : Prop := (∀ x, b.apply (a.apply x) = x) ∧ ∀ x, a.apply (b.apply x) = x

namespace EllipsoidLimit

/-- The limited point in the world. -/
noncomputable def pointIn (c : EllipsoidLimit) (st : List JointState) : Vec3 ℝ :=
  (worldOf st (some c.parent)).transformPoint c.offset

/-- The centre of the ellipsoid in the world. -/
noncomputable def centreIn (c : EllipsoidLimit) (st : List JointState) : Vec3 ℝ :=
  (worldOf st (some c.ellipsoidParent)).transformPoint (c.ellipsoid.apply 0)

/-- The surface of the ellipsoid in the world: the image of the unit sphere. -/
def surfaceIn (c : EllipsoidLimit) (st : List JointState) (q : Vec3 ℝ) : Prop :=
  ∃ n : Vec3 ℝ, n.sqNorm = 1 ∧ q = (worldOf st (some c.ellipsoidParent)).transformPoint (c.ellipsoid.apply n)

/-- The ellipsoid is a ball of radius `r` in the frame of its joint: all points of the surface have that distance from the
centre. -/
def IsBall (c : EllipsoidLimit) (r : ℝ) : Prop :=
  0 < r ∧ ∀ n : Vec3 ℝ, n.sqNorm = 1 → (c.ellipsoid.apply n - c.ellipsoid.apply 0).sqNorm = r ^ 2

/-- The joints exist and the two matrices are inverse to each other. -/
structure Wellformed (c : EllipsoidLimit) (s : Skeleton ℝ) : Prop where
  parent : c.parent < s.joints.length
  ellipsoidParent : c.ellipsoidParent < s.joints.length
  inverse : c.ellipsoid.AreInverse c.ellipsoidInv

/-- A model parameter does not move the ellipsoid. -/
def Fixes (c : EllipsoidLimit) (s : Skeleton ℝ) (A : SparseMat ℝ) (i : Nat) : Prop :=
  ∀ a, s.Anc c.ellipsoidParent a → ∀ k < 7, A.coeff (7 * a + k) i = 0

/-- A model parameter does not change the size of the ellipsoid, and the ellipsoid is on the chain of the limited point. -/
def Carries (c : EllipsoidLimit) (s : Skeleton ℝ) (A : SparseMat ℝ) (i : Nat) : Prop :=
  s.Anc c.parent c.ellipsoidParent ∧ ∀ a, s.Anc c.ellipsoidParent a → A.coeff (7 * a + 6) i = 0

end EllipsoidLimit

/-- The limits as the solver function sees them (skeleton_solver_function.cpp:48-86,108-162). -/
noncomputable def EllipsoidLimits.toErrorFunction (E : EllipsoidLimits) (pt : ParameterTransform ℝ) : ErrorFunction where
  weight := E.weight
  jacobianSize := E.getJacobianSize
  getError p := ((E.stateFor pt (paramVec pt.transform.cols p) false).bind fun st => E.getError st).getD 0
  getGradient p := ((E.stateFor pt (paramVec pt.transform.cols p) true).bind fun st =>
    E.getGradient st fun _ => 0).getD (0, fun _ => 0)
  getJacobian p := ((E.stateFor pt (paramVec pt.transform.cols p) true).bind fun st =>
    E.getJacobian st (fun _ _ => 0) (fun _ => 0)).getD ⟨0, 0, fun _ _ => 0, fun _ => 0⟩

end Momentum
