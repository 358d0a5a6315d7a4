import Verif.Model.SkeletonState
import Mathlib.Algebra.DualNumber

/-!
# pymomentum/tensor_momentum/tensor_skeleton_state.cpp, tensor_joint_parameters_to_positions.cpp

The forward functions and their hand-written backward passes, for one element of the batch (the elements are independent of one
another and written to different rows).  Vectors that are read are given as functions of the index: the sizes are checked by
`TensorChecker` before.  `none` stands for an access outside a list or for a failed check.
-/

namespace Momentum

/-- `ceres::Jet<T, 1>`: a value (`fst`) and a derivative (`snd`); sums and products are those of the dual numbers. -/
abbrev Jet := DualNumber ℝ

namespace Jet
open TrivSqZeroExt

/-- A number as a Jet (`cast<JetType>`). -/
def ofReal (x : ℝ) : Jet := inl x

/-- `ceres::sin`. -/
noncomputable def sin (x : Jet) : Jet := inl (Real.sin x.fst) + inr (Real.cos x.fst * x.snd)

/-- `ceres::cos`. -/
noncomputable def cos (x : Jet) : Jet := inl (Real.cos x.fst) + inr (-Real.sin x.fst * x.snd)

/-- `ceres::pow(f, g)` for `f = T(2.0)`, whose derivative is zero: `f^g * log f * g'`. -/
noncomputable def pow2 (g : Jet) : Jet := inl ((2 : ℝ) ^ g.fst) + inr ((2 : ℝ) ^ g.fst * Real.log 2 * g.snd)

end Jet

/-- `v.cast<JetType>()`. -/
def Vec3.toJet (v : Vec3 ℝ) : Vec3 Jet := ⟨.ofReal v.x, .ofReal v.y, .ofReal v.z⟩

/-- `q.cast<JetType>()`. -/
def Quat.toJet (q : Quat ℝ) : Quat Jet := ⟨.ofReal q.w, .ofReal q.x, .ofReal q.y, .ofReal q.z⟩

/-- `TransformT<JetType>(t)`. -/
def Transform.toJet (t : Transform ℝ) : Transform Jet := ⟨t.rotation.toJet, t.translation.toJet, .ofReal t.scale⟩

/-- Eigen `Quaternion<JetType>(AngleAxis<JetType>(angle, axis))`. -/
noncomputable def Quat.angleAxisJet (angle : Jet) (axis : Vec3 Jet) : Quat Jet :=
  let ha := Jet.ofReal (1 / 2) * angle
  ⟨ha.cos, ha.sin * axis.x, ha.sin * axis.y, ha.sin * axis.z⟩

/-- tensor_skeleton_state.cpp:35-56 `computeLocalTransform`, for `T = JetType`. -/
noncomputable def computeLocalTransform (joint : Joint ℝ) (parameters : Fin 7 → Jet) : Transform Jet where
  translation := joint.translationOffset.toJet + ⟨parameters 0, parameters 1, parameters 2⟩
  rotation := ([2, 1, 0] : List (Fin 3)).foldl (fun rotation index => rotation *
    Quat.angleAxisJet (parameters ⟨3 + index.val, by omega⟩) (rotationAxisOf index).toJet) joint.preRotation.toJet
  scale := Jet.pow2 (parameters 6)

/-- tensor_skeleton_state.cpp:115-121 `jointParams_cur`: the parameters of a joint, with derivative 1 for parameter `d`. -/
def jetParameters (p : JointVec) (d : Fin 7) : Fin 7 → Jet :=
  fun k => TrivSqZeroExt.inl (p k) + TrivSqZeroExt.inr (if k = d then 1 else 0)

/-- tensor_skeleton_state.cpp:128-140: what is added to the gradient; `dLoss` are the eight derivatives for the joint, the
coefficients of the rotation in the order x, y, z, w. -/
noncomputable def jetLoss (dLoss : Fin 8 → ℝ) (xf : Transform Jet) : ℝ :=
  (xf.translation.x * .ofReal (dLoss 0) + xf.translation.y * .ofReal (dLoss 1) + xf.translation.z * .ofReal (dLoss 2)).snd +
  (xf.rotation.x * .ofReal (dLoss 3) + xf.rotation.y * .ofReal (dLoss 4) + xf.rotation.z * .ofReal (dLoss 5) +
    xf.rotation.w * .ofReal (dLoss 6)).snd + (xf.scale * .ofReal (dLoss 7)).snd

/-- tensor_skeleton_state.cpp:114-141, the loop over the parameters of joint `cur`: `f d` is added for parameter `d`. -/
def addSeven (cur : Nat) (f : Fin 7 → ℝ) (gradient : Nat → ℝ) : Nat → ℝ :=
  (List.finRange 7).foldl (fun g (d : Fin 7) => Function.update g (7 * cur + d) (g (7 * cur + d) + f d)) gradient

/-- tensor_skeleton_state.cpp:108-111 `parentXF`. -/
noncomputable def parentTransform (states : List JointState) : Option Nat → Option (Transform ℝ)
  | none => some Transform.one
  | some p => states[p]?.map JointState.transform

/-- tensor_skeleton_state.cpp:107-146, the `while` loop from a joint up to its root. -/
noncomputable def backwardWalk (s : Skeleton ℝ) (params : List ℝ) (states : List JointState) (dLoss : Fin 8 → ℝ)
    (cur : Option Nat) (accum : Transform ℝ) (gradient : Nat → ℝ) : Option (Nat → ℝ) :=
  match cur with
  | none => some gradient
  | some j =>
    match s.joints[j]?, states[j]? with
    | some joint, some js =>
      match parentTransform states joint.parent with
      | none => none
      | some parentXF =>
        backwardWalk s params states dLoss joint.parent (js.localTransform * accum)
          (addSeven j (fun d => jetLoss dLoss (parentXF.toJet * computeLocalTransform joint (jetParameters (jointSlice params j) d) *
            accum.toJet)) gradient)
    | _, _ => none
partial_fixpoint

/-- Eigen `isZero()`: all coefficients at most `prec`, `NumTraits::dummy_precision()` (1e-5 for float, 1e-12 for double). -/
def isZeroVec (prec : ℝ) (v : Fin 8 → ℝ) : Prop := ∀ c, |v c| ≤ prec

/-- Eight consecutive numbers: `segment<8>(8 * iJoint)`. -/
def segment8 (v : Nat → ℝ) (i : Nat) : Fin 8 → ℝ := fun c => v (8 * i + c)

open Classical in
/-- One iteration of the loop tensor_skeleton_state.cpp:74-147. -/
noncomputable def stateBackwardStep (prec : ℝ) (s : Skeleton ℝ) (params : List ℝ) (states : List JointState) (dLoss : Nat → ℝ)
    (gradient : Nat → ℝ) (i : Nat) : Option (Nat → ℝ) :=
  if isZeroVec prec (segment8 dLoss i) then some gradient
  else backwardWalk s params states (segment8 dLoss i) (some i) Transform.one gradient

/-- tensor_skeleton_state.cpp:61-148 `computeSkelStateBackward`; the result is zero to begin with (:344). -/
noncomputable def computeSkelStateBackward (prec : ℝ) (s : Skeleton ℝ) (params : List ℝ) (dLoss : Nat → ℝ) : Option (Nat → ℝ) :=
  (skeletonState s params true).bind fun states =>
    (List.range s.joints.length).foldlM (stateBackwardStep prec s params states dLoss) fun _ => 0

open Classical in
/-- One iteration of the loop tensor_skeleton_state.cpp:164-218. -/
noncomputable def localBackwardStep (prec : ℝ) (s : Skeleton ℝ) (params : List ℝ) (dLoss : Nat → ℝ)
    (gradient : Nat → ℝ) (i : Nat) : Option (Nat → ℝ) :=
  if isZeroVec prec (segment8 dLoss i) then some gradient
  else s.joints[i]?.map fun joint =>
    addSeven i (fun d => jetLoss (segment8 dLoss i) (computeLocalTransform joint (jetParameters (jointSlice params i) d))) gradient

/-- tensor_skeleton_state.cpp:153-219 `computeLocalSkelStateBackward`. -/
noncomputable def computeLocalSkelStateBackward (prec : ℝ) (s : Skeleton ℝ) (params : List ℝ) (dLoss : Nat → ℝ) :
    Option (Nat → ℝ) :=
  (skeletonState s params true).bind fun _ =>
    (List.range s.joints.length).foldlM (localBackwardStep prec s params dLoss) fun _ => 0

/-- tensor_skeleton_state.cpp:272-278: the eight numbers of a joint, coefficients of the rotation in the order x, y, z, w. -/
def stateCoords (t : Transform ℝ) : Fin 8 → ℝ :=
  ![t.translation.x, t.translation.y, t.translation.z, t.rotation.x, t.rotation.y, t.rotation.z, t.rotation.w, t.scale]

/-- tensor_skeleton_state.cpp:234-286 `JointParametersToSkeletonStateFunction::forward`: eight numbers for each joint. -/
noncomputable def jointParametersToSkeletonState (s : Skeleton ℝ) (params : List ℝ) : Option (List (Fin 8 → ℝ)) :=
  (skeletonState s params true).map fun states => states.map fun js => stateCoords js.transform

/-- tensor_skeleton_state.cpp:380-431 `JointParametersToLocalSkeletonStateFunction::forward`. -/
noncomputable def jointParametersToLocalSkeletonState (s : Skeleton ℝ) (params : List ℝ) : Option (List (Fin 8 → ℝ)) :=
  (skeletonState s params true).map fun states => states.map fun js => stateCoords js.localTransform

/-! ## Positions of points attached to joints -/

/-- One point: the joint it is attached to (`parents[i]`) and its position in the frame of this joint (`offsets[3i..]`). -/
structure AttachedPoint where
  parent : Nat
  offset : Vec3 ℝ

/-- tensor_joint_parameters_to_positions.cpp:33-57 `jointParametersToPositions`. -/
noncomputable def jointParametersToPositions (s : Skeleton ℝ) (params : List ℝ) (points : List AttachedPoint) :
    Option (List (Vec3 ℝ)) :=
  (skeletonState s params true).bind fun states =>
    points.mapM fun pt => states[pt.parent]?.map fun js => js.transform.transformPoint pt.offset

/-- tensor_joint_parameters_to_positions.cpp:92-119, the `while` loop from the joint of a point up to its root. -/
noncomputable def positionWalk (s : Skeleton ℝ) (states : List JointState) (dLoss pWorld : Vec3 ℝ)
    (cur : Option Nat) (gradient : Nat → ℝ) : Option (Nat → ℝ) :=
  match cur with
  | none => some gradient
  | some j =>
    match s.joints[j]?, states[j]? with
    | some joint, some js =>
      let posd := pWorld - js.transform.translation
      match js.getTranslationDerivative 0, js.getTranslationDerivative 1, js.getTranslationDerivative 2,
        js.getRotationDerivative 0 posd, js.getRotationDerivative 1 posd, js.getRotationDerivative 2 posd with
      | some t0, some t1, some t2, some r0, some r1, some r2 =>
        positionWalk s states dLoss pWorld joint.parent
          (addSeven j ![dLoss.dot t0, dLoss.dot t1, dLoss.dot t2, dLoss.dot r0, dLoss.dot r1, dLoss.dot r2,
            dLoss.dot (js.getScaleDerivative posd)] gradient)
      | _, _, _, _, _, _ => none
    | _, _ => none
partial_fixpoint

/-- Three consecutive numbers: `segment<3>(3 * i)`. -/
def segment3 (v : Nat → ℝ) (i : Nat) : Vec3 ℝ := ⟨v (3 * i), v (3 * i + 1), v (3 * i + 2)⟩

/-- One iteration of the loop tensor_joint_parameters_to_positions.cpp:77-120. -/
noncomputable def positionBackwardStep (s : Skeleton ℝ) (states : List JointState) (points : List AttachedPoint)
    (dLoss : Nat → ℝ) (st : (Nat → ℝ) × List (Vec3 ℝ)) (i : Nat) : Option ((Nat → ℝ) × List (Vec3 ℝ)) :=
  match points[i]? with
  | none => none
  | some pt =>
    match states[pt.parent]? with
    | none => none
    | some js =>
      let d := segment3 dLoss i
      let lin := js.transform.toAffine3.linear
      (positionWalk s states d (js.transform.transformPoint pt.offset) (some pt.parent) st.1).map fun g =>
        (g, st.2 ++ [⟨(lin.mulVec Vec3.unitX).dot d, (lin.mulVec Vec3.unitY).dot d, (lin.mulVec Vec3.unitZ).dot d⟩])

/-- tensor_joint_parameters_to_positions.cpp:59-121 `d_jointParametersToPositions`: the derivatives with respect to the joint
parameters, and to the offset of each point. -/
noncomputable def jointParametersToPositionsBackward (s : Skeleton ℝ) (params : List ℝ) (points : List AttachedPoint)
    (dLoss : Nat → ℝ) : Option ((Nat → ℝ) × List (Vec3 ℝ)) :=
  (skeletonState s params true).bind fun states =>
    (List.range points.length).foldlM (positionBackwardStep s states points dLoss) (fun _ => 0, [])

end Momentum
