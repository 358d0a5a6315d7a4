import Verif.Model.Skeleton
import Mathlib.Analysis.SpecialFunctions.Trigonometric.Basic
import Mathlib.Analysis.SpecialFunctions.Pow.Real

/-!
# momentum/character/joint_state.{h,cpp}, skeleton_state.{h,cpp} over the reals
-/

namespace Momentum

/-- Eigen `Quaternion(AngleAxis(angle, axis))`. -/
noncomputable def Quat.angleAxis (angle : ℝ) (axis : Vec3 ℝ) : Quat ℝ :=
  ⟨Real.cos (angle / 2), Real.sin (angle / 2) * axis.x, Real.sin (angle / 2) * axis.y,
    Real.sin (angle / 2) * axis.z⟩

/-- joint_state.cpp:20 `RotationAxis`. -/
def rotationAxisOf : Fin 3 → Vec3 ℝ
  | 0 => Vec3.unitX
  | 1 => Vec3.unitY
  | 2 => Vec3.unitZ

/-- The seven parameters of one joint: momentum/character/types.h `JointVectorT`
(tx, ty, tz, rx, ry, rz, scale). -/
abbrev JointVec := Fin 7 → ℝ

/-- joint_state.h:24-45 `JointStateT`.  The duplicate field `transformation`
(marked "TODO: Remove") always equals `transform.toAffine3()` and is not stored.
`rotationAxis`/`translationAxis` hold the columns; they are only meaningful when
`derivDirty = false` and are modelled as `0` after a call with `computeDeriv = false` on a fresh
state (the code keeps the previous contents). -/
structure JointState where
  localTransform : Transform ℝ
  transform : Transform ℝ
  translationAxis : Fin 3 → Vec3 ℝ
  rotationAxis : Fin 3 → Vec3 ℝ
  derivDirty : Bool

/-- joint_state.cpp:47-55, one iteration of the rotation loop: records the world axis of rotation
parameter `index` and multiplies the local rotation; state is (local rotation, axes). -/
noncomputable def rotationStep (parentRot : Quat ℝ) (p : JointVec) (computeDeriv : Bool)
    (st : Quat ℝ × (Fin 3 → Vec3 ℝ)) (index : Fin 3) : Quat ℝ × (Fin 3 → Vec3 ℝ) :=
  let axes := if computeDeriv
    then Function.update st.2 index ((parentRot * st.1).rotate (rotationAxisOf index)) else st.2
  (st.1 * Quat.angleAxis (p (⟨3 + index.val, by omega⟩)) (rotationAxisOf index), axes)

/-- joint_state.cpp:22-68 `JointStateT::set`. -/
noncomputable def JointState.set (joint : Joint ℝ) (p : JointVec) (parentState : Option JointState)
    (computeDeriv : Bool) : JointState :=
  let parent : Transform ℝ := match parentState with
    | some ps => ps.transform
    | none => Transform.one
  let translationAxis : Fin 3 → Vec3 ℝ :=
    if computeDeriv then
      match parentState with
      | some ps => ps.transform.toAffine3.linear.col
      | none => Mat3.one.col
    else fun _ => 0
  let rot := ([2, 1, 0] : List (Fin 3)).foldl (rotationStep parent.rotation p computeDeriv)
    (joint.preRotation, fun _ => 0)
  let localT : Transform ℝ :=
    { translation := joint.translationOffset + ⟨p 0, p 1, p 2⟩
      rotation := rot.1
      scale := (2 : ℝ) ^ (p 6) }
  { localTransform := localT
    transform := parent * localT
    translationAxis := translationAxis
    rotationAxis := rot.2
    derivDirty := !computeDeriv }

/-- joint_state.cpp:70-74. `none` is the failed `MT_CHECK`. -/
def JointState.getRotationDerivative (st : JointState) (index : Fin 3) (ref : Vec3 ℝ) :
    Option (Vec3 ℝ) :=
  if st.derivDirty then none else some ((st.rotationAxis index).cross ref)

/-- joint_state.cpp:76-80. -/
def JointState.getTranslationDerivative (st : JointState) (index : Fin 3) : Option (Vec3 ℝ) :=
  if st.derivDirty then none else some (st.translationAxis index)

/-- joint_state.cpp:82-85. -/
noncomputable def JointState.getScaleDerivative (_st : JointState) (ref : Vec3 ℝ) : Vec3 ℝ :=
  Real.log 2 • ref

/-- `jointParameters.v.middleRows<7>(7 * j)` (skeleton_state.cpp:96-110). -/
def jointSlice (params : List ℝ) (j : Nat) : JointVec := fun k => params.getD (7 * j + k.val) 0

/-- skeleton_state.cpp:95-114, one iteration: append the state of the next joint.  The parent's
state must already have been computed (`none` otherwise). -/
noncomputable def skeletonStep (params : List ℝ) (computeDeriv : Bool) (acc : List JointState)
    (joint : Joint ℝ) : Option (List JointState) :=
  match joint.parent with
  | none => some (acc ++ [JointState.set joint (jointSlice params acc.length) none computeDeriv])
  | some p => (acc[p]?).map fun ps =>
      acc ++ [JointState.set joint (jointSlice params acc.length) (some ps) computeDeriv]

/-- skeleton_state.cpp:77-118 `SkeletonStateT::set`; `none` when the size check (line 86) fails. -/
noncomputable def skeletonState (s : Skeleton ℝ) (params : List ℝ) (computeDeriv : Bool) :
    Option (List JointState) :=
  if params.length = s.joints.length * 7
  then s.joints.foldlM (skeletonStep params computeDeriv) []
  else none

/-- State of the loop of `transformAtoB`: (ancestorA, ancestorB, A_to_ancestorA, B_to_ancestorB). -/
structure AtoBState where
  ancA : Option Nat
  ancB : Option Nat
  aTo : Transform ℝ
  bTo : Transform ℝ

/-- skeleton_state.cpp:189-205, the `while (true)` loop of `transformAtoB`. -/
noncomputable def transformAtoBLoop (s : Skeleton ℝ) (state : List JointState) (st : AtoBState) :
    Option AtoBState :=
  match st.ancA, st.ancB with
  | none, some b => do
      let js ← state[b]?
      let p ← s.parentOf b
      transformAtoBLoop s state { st with ancB := p, bTo := js.localTransform * st.bTo }
  | some a, none => do
      let js ← state[a]?
      let p ← s.parentOf a
      transformAtoBLoop s state { st with ancA := p, aTo := js.localTransform * st.aTo }
  | some a, some b =>
      if a < b then do
        let js ← state[b]?
        let p ← s.parentOf b
        transformAtoBLoop s state { st with ancB := p, bTo := js.localTransform * st.bTo }
      else if b < a then do
        let js ← state[a]?
        let p ← s.parentOf a
        transformAtoBLoop s state { st with ancA := p, aTo := js.localTransform * st.aTo }
      else some st
  | none, none => some st
partial_fixpoint

/-- skeleton_state.cpp:177-210 `transformAtoB` (line 208 `MT_CHECK` failure is `none`). -/
noncomputable def transformAtoB (a b : Option Nat) (s : Skeleton ℝ) (state : List JointState) :
    Option (Transform ℝ) :=
  (transformAtoBLoop s state ⟨a, b, Transform.one, Transform.one⟩).bind fun st =>
    if st.ancA = st.ancB then some (st.bTo.inverse * st.aTo) else none

end Momentum
