import Verif.Spec.ParameterTransform
import Verif.Spec.Skeleton
import Verif.Model.SkeletonState

/-!
# What it means to move a pose
-/

namespace Momentum

/-- The world transforms of the joints of a character in the pose given by model parameters. -/
noncomputable def characterPose (s : Skeleton ℝ) (pt : ParameterTransform ℝ) (p : List ℝ) : Option (List (Transform ℝ)) :=
  (pt.apply p).bind fun jp => (skeletonState s jp false).map fun st => st.map JointState.transform

/-- The parameters that place the character in the world: those whose name contains "root_" or "hips". -/
def RigidParameter (pt : ParameterTransform ℝ) (i : Nat) : Prop :=
  ∃ nm, pt.name[i]? = some nm ∧ ("root_".toList <:+: nm.toList ∨ "hips".toList <:+: nm.toList)

/-- Parameter `i` has a coefficient for joint `j`. -/
def MovesJoint (pt : ParameterTransform ℝ) (i j : Nat) : Prop := ∃ e ∈ pt.transform.entries, e.col = i ∧ e.row / 7 = j

/-- The last joint that a rigid parameter moves. -/
structure LastRigidJoint (pt : ParameterTransform ℝ) (r : Nat) : Prop where
  moved : ∃ i, RigidParameter pt i ∧ MovesJoint pt i r
  last : ∀ i j, RigidParameter pt i → MovesJoint pt i j → j ≤ r

/-- A character whose parts fit together, with names that tell the parameters apart. -/
structure PoseCharacter (s : Skeleton ℝ) (pt : ParameterTransform ℝ) : Prop where
  skeleton : s.Valid
  unit : ∀ jt ∈ s.joints, jt.preRotation.normSq = 1
  valid : pt.Valid []
  rows : pt.transform.rows = s.joints.length * 7
  names : pt.name.Nodup

/-- Two transforms with the same position and orientation (a quaternion and its negative are the same orientation). -/
def SamePlacement (a b : Transform ℝ) : Prop := a.translation = b.translation ∧ a.rotation.toMat = b.rotation.toMat

/-- In pose `p` the joint is placed as `target` is. -/
def PlacesJoint (s : Skeleton ℝ) (pt : ParameterTransform ℝ) (joint : Nat) (target : Transform ℝ) (p : List ℝ) : Prop :=
  ∃ ts T, characterPose s pt p = some ts ∧ ts[joint]? = some T ∧ SamePlacement T target

/-- `q` differs from `p` in enabled parameters only. -/
def AgreeOutside (enabled : Nat → Prop) (p q : List ℝ) : Prop := q.length = p.length ∧ ∀ k, ¬enabled k → q[k]? = p[k]?

/-- A solver that changes the enabled parameters only, and that places the joint if the enabled parameters can. -/
def FindsPlacement (s : Skeleton ℝ) (pt : ParameterTransform ℝ) (joint : Nat) (enabled : Nat → Prop)
    (solve : Transform ℝ → Nat → List ℝ → List ℝ) : Prop :=
  ∀ target i p, p.length = pt.transform.cols → AgreeOutside enabled p (solve target i p) ∧
    ((∃ q, AgreeOutside enabled p q ∧ PlacesJoint s pt joint target q) → PlacesJoint s pt joint target (solve target i p))

end Momentum
