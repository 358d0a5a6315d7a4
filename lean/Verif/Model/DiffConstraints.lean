import Verif.Model.StateError
import Verif.Model.TensorState

/-!
# momentum/diff_ik: fully_differentiable_{position,orientation,state,motion}_error_function.cpp, ceres_utility.h

Error functions that also give the derivative of their gradient in their own inputs.  Over the reals; the weights of constraints,
which are floats in the code, are reals too.  A `ceres::Jet<T, N>` carries `N` derivatives that do not interact with one another;
here each of them is computed by its own run with a Jet of one derivative.  `none` stands for an exception, a failed check or an
access outside a vector.
-/

namespace Momentum

namespace Jet
open TrivSqZeroExt

/-- `ceres::sqrt`. -/
noncomputable def sqrt (x : Jet) : Jet := inl (Real.sqrt x.fst) + inr (x.snd * (1 / (2 * Real.sqrt x.fst)))

/-- Division of `ceres::Jet`s. -/
noncomputable def div (f g : Jet) : Jet :=
  inl (f.fst * (1 / g.fst)) + inr ((f.snd - f.fst * (1 / g.fst) * g.snd) * (1 / g.fst))

/-- A number to differentiate in: derivative one if `seed`, otherwise a constant. -/
def var (x : ℝ) (seed : Bool) : Jet := inl x + inr (if seed then 1 else 0)

end Jet

/-- `q.normalized()` for Jets; they are compared by their values. -/
noncomputable def Quat.normalizedJet (q : Quat Jet) : Quat Jet :=
  let z := q.x * q.x + q.y * q.y + q.z * q.z + q.w * q.w
  if 0 < z.fst then ⟨q.w.div z.sqrt, q.x.div z.sqrt, q.y.div z.sqrt, q.z.div z.sqrt⟩ else q

/-- The sum of the products of the entries (`a.cwiseProduct(b).sum()`). -/
def Mat3.sumProd {R : Type} [CommRing R] (a b : Mat3 R) : R :=
  a.m00 * b.m00 + a.m01 * b.m01 + a.m02 * b.m02 + a.m10 * b.m10 + a.m11 * b.m11 + a.m12 * b.m12 + a.m20 * b.m20 +
    a.m21 * b.m21 + a.m22 * b.m22

/-- The difference of matrices of Jets (or numbers). -/
def Mat3.minus {R : Type} [CommRing R] (a b : Mat3 R) : Mat3 R :=
  ⟨a.m00 - b.m00, a.m01 - b.m01, a.m02 - b.m02, a.m10 - b.m10, a.m11 - b.m11, a.m12 - b.m12, a.m20 - b.m20, a.m21 - b.m21,
    a.m22 - b.m22⟩

/-- math/utility.h:208-216 `crossProductMatrix`, cast to Jets. -/
def crossMatJet (v : Vec3 Jet) : Mat3 Jet := ⟨0, -v.z, v.y, v.z, 0, -v.x, -v.y, v.x, 0⟩

/-- ceres_utility.h:34-44 `buildJetVec<T, 3>`, the derivative in component `k`. -/
def buildJetVec3 (v : Vec3 ℝ) (k : Nat) : Vec3 Jet := ⟨.var v.x (k == 0), .var v.y (k == 1), .var v.z (k == 2)⟩

/-- ceres_utility.h:34-44 `buildJetVec<T, 4>` of the coefficients of a quaternion, which are in the order x, y, z, w. -/
def buildJetQuat (q : Quat ℝ) (k : Nat) : Quat Jet :=
  ⟨.var q.w (k == 3), .var q.x (k == 0), .var q.y (k == 1), .var q.z (k == 2)⟩

/-- ceres_utility.h:18-24 `getRotationDerivative`. -/
def rotationDerivativeJet (js : JointState) (d : Fin 3) (ref : Vec3 Jet) : Vec3 Jet := (js.rotationAxis d).toJet.cross ref

/-- ceres_utility.h:26-32 `getScaleDerivative`. -/
noncomputable def scaleDerivativeJet (ref : Vec3 Jet) : Vec3 Jet := Jet.ofReal (Real.log 2) • ref

/-- ceres_utility.h:46-61 `times_parameterTransform_times_v`, added to `result`. -/
def timesTransformTimesV (A : SparseMat ℝ) (v : Nat → ℝ) (row : Nat) (value : Jet) (result : Jet) : Option Jet :=
  ((A.entries.filter (·.row == row)).foldlM (init := (0 : Jet)) fun r e =>
    if e.col < A.cols then some (r + value * .ofReal e.val * .ofReal (v e.col)) else none).map fun r => result + r

/-! ## Position constraints -/

/-- fully_differentiable_position_error_function.h:19-37 `PositionConstraintT` (without the name). -/
structure DiffPosConstraint where
  offset : Vec3 ℝ
  target : Vec3 ℝ
  parent : Nat
  weight : ℝ

/-- fully_differentiable_position_error_function.h:55-140: the members of `FullyDifferentiablePositionErrorFunctionT`. -/
structure DiffPosition extends ErrorBase where
  constraints : List DiffPosConstraint

/-- fully_differentiable_position_error_function.h:60. -/
noncomputable def kDiffPositionWeight : ℝ := 1 / 10000

/-- Three numbers at `3 * i`: `value.segment<3>(3 * i)`. -/
def listSegment3 (value : List ℝ) (i : Nat) : Vec3 ℝ := ⟨value.getD (3 * i) 0, value.getD (3 * i + 1) 0, value.getD (3 * i + 2) 0⟩

namespace DiffPosition

/-- fully_differentiable_position_error_function.cpp:57-61 `inputs`. -/
def inputs : List String := ["weights", "offsets", "targets"]

/-- fully_differentiable_position_error_function.cpp:63-79 `getInputSize`. -/
def getInputSize (E : DiffPosition) (name : String) : Option Nat :=
  if name = "weights" then some E.constraints.length
  else if name = "offsets" then some (3 * E.constraints.length)
  else if name = "targets" then some (3 * E.constraints.length)
  else none

/-- fully_differentiable_position_error_function.cpp:250-269 `getInputImp` (and fully_differentiable_skeleton_error_function.cpp:15-36). -/
def getInput (E : DiffPosition) (name : String) : Option (List ℝ) :=
  if name = "weights" then some (E.constraints.map (·.weight))
  else if name = "offsets" then some (E.constraints.flatMap fun c => [c.offset.x, c.offset.y, c.offset.z])
  else if name = "targets" then some (E.constraints.flatMap fun c => [c.target.x, c.target.y, c.target.z])
  else none

/-- fully_differentiable_position_error_function.cpp:271-299 `setInputImp`. -/
def setInputImp (E : DiffPosition) (name : String) (value : List ℝ) : Option DiffPosition :=
  if name = "weights" then some { E with constraints := E.constraints.mapIdx fun i c => { c with weight := value.getD i 0 } }
  else if name = "offsets" then some { E with constraints := E.constraints.mapIdx fun i c => { c with offset := listSegment3 value i } }
  else if name = "targets" then some { E with constraints := E.constraints.mapIdx fun i c => { c with target := listSegment3 value i } }
  else none

/-- fully_differentiable_skeleton_error_function.cpp:38-52 `setInput`: the size is checked first. -/
def setInput (E : DiffPosition) (name : String) (value : List ℝ) : Option DiffPosition :=
  (E.getInputSize name).bind fun n => if value.length = n then E.setInputImp name value else none

/-- fully_differentiable_position_error_function.cpp:41-42: where a constraint's point is. -/
def position (c : DiffPosConstraint) (st : List JointState) : Option (Vec3 ℝ) :=
  st[c.parent]?.map fun js => js.transform.transformPoint c.offset

/-- fully_differentiable_position_error_function.cpp:91-98: one iteration of the loop of `getError`. -/
noncomputable def errorStep (st : List JointState) (error : ℝ) (c : DiffPosConstraint) : Option ℝ :=
  (position c st).map fun pos => error + c.weight * (pos - c.target).sqNorm * kDiffPositionWeight

/-- fully_differentiable_position_error_function.cpp:81-102 `getError`. -/
noncomputable def getError (E : DiffPosition) (st : List JointState) : Option ℝ :=
  (E.constraints.foldlM (errorStep st) 0).map fun error => error * E.weight

/-- fully_differentiable_position_error_function.cpp:319-355: the degrees of freedom of a joint in the order of the loop, with the
joint gradient of each. -/
noncomputable def gradDofs (pos diff : Vec3 ℝ) (wgt : ℝ) (js : JointState) : List (Nat × Option ℝ) :=
  let posd := pos - js.transform.translation
  let t (d : Fin 3) : Option ℝ := (js.getTranslationDerivative d).map fun v => diff.dot v * wgt
  let r (d : Fin 3) : Option ℝ := (js.getRotationDerivative d posd).map fun v => diff.dot v * wgt
  [(0, t 0), (3, r 0), (1, t 1), (4, r 1), (2, t 2), (5, r 2), (6, some (diff.dot (js.getScaleDerivative posd) * wgt))]

/-- fully_differentiable_position_error_function.cpp:120-127,301-362: one iteration of the loop of `getGradient`; the state is the
error and `jointGrad_`. -/
noncomputable def gradStep (E : DiffPosition) (st : List JointState) (s : ℝ × (Nat → ℝ)) (c : DiffPosConstraint) :
    Option (ℝ × (Nat → ℝ)) :=
  (position c st).bind fun pos =>
    if c.weight = 0 then some s
    else
      (chainWalk E.skeleton E.activeJointParams st (gradDofs pos (pos - c.target) (c.weight * 2 * kDiffPositionWeight))
        (gradScatter E.transform) none (some c.parent) s.2).map fun g =>
          (s.1 + c.weight * (pos - c.target).sqNorm * kDiffPositionWeight, g)

/-- fully_differentiable_position_error_function.cpp:104-134 `getGradient`: the returned error and the gradient after the call. -/
noncomputable def getGradient (E : DiffPosition) (st : List JointState) (gradient : Nat → ℝ) : Option (ℝ × (Nat → ℝ)) :=
  (E.constraints.foldlM (E.gradStep st) (0, fun _ => 0)).map fun s =>
    (s.1 * E.weight, fun k => gradient k + s.2 k * E.weight)

/-- fully_differentiable_position_error_function.cpp:386-416: the degrees of freedom of a joint, as Jets. -/
noncomputable def dotDofs (pos diff : Vec3 Jet) (wgt : Jet) (js : JointState) : List (Nat × Option Jet) :=
  let posd := pos - js.transform.translation.toJet
  let t (d : Fin 3) : Option Jet := (js.getTranslationDerivative d).map fun v => diff.dot v.toJet * wgt
  let r (d : Fin 3) : Option Jet := some (diff.dot (rotationDerivativeJet js d posd) * wgt)
  [(0, t 0), (3, r 0), (1, t 1), (4, r 1), (2, t 2), (5, r 2), (6, some (diff.dot (scaleDerivativeJet posd) * wgt))]

/-- fully_differentiable_position_error_function.cpp:364-423 `calculatePositionGradient_dot`. -/
noncomputable def gradientDot (E : DiffPosition) (st : List JointState) (parent : Nat) (weight : Jet) (offset target : Vec3 Jet)
    (vec : Nat → ℝ) : Option Jet :=
  st[parent]?.bind fun js =>
    let pos := js.transform.toJet.transformPoint offset
    chainWalk E.skeleton E.activeJointParams st
      (dotDofs pos (pos - target) (.ofReal E.weight * weight * .ofReal 2 * .ofReal kDiffPositionWeight))
      (timesTransformTimesV E.transform vec) none (some parent) 0

/-- fully_differentiable_position_error_function.cpp:435-447,451-462,467-478: what is computed for one constraint. -/
noncomputable def constraintDot (E : DiffPosition) (name : String) (st : List JointState) (vec : Nat → ℝ) (c : DiffPosConstraint) :
    Option (List ℝ) :=
  if name = "weights" then
    (E.gradientDot st c.parent (.var c.weight true) c.offset.toJet c.target.toJet vec).map fun r => [r.snd]
  else if name = "offsets" then
    ([0, 1, 2] : List Nat).mapM fun k =>
      (E.gradientDot st c.parent (.ofReal c.weight) (buildJetVec3 c.offset k) c.target.toJet vec).map (·.snd)
  else if name = "targets" then
    ([0, 1, 2] : List Nat).mapM fun k =>
      (E.gradientDot st c.parent (.ofReal c.weight) c.offset.toJet (buildJetVec3 c.target k) vec).map (·.snd)
  else none

/-- fully_differentiable_position_error_function.cpp:425-485 `d_gradient_d_input_dot`; an unknown name is an exception. -/
noncomputable def dGradientDot (E : DiffPosition) (name : String) (st : List JointState) (vec : Nat → ℝ) : Option (List ℝ) :=
  if name ∈ inputs then (E.constraints.mapM (E.constraintDot name st vec)).map List.flatten else none

end DiffPosition

/-! ## Orientation constraints -/

/-- fully_differentiable_orientation_error_function.h:19-37 `OrientationConstraintT` (without the name). -/
structure DiffRotConstraint where
  offset : Quat ℝ
  target : Quat ℝ
  parent : Nat
  weight : ℝ

/-- fully_differentiable_orientation_error_function.h:38-120: the members. -/
structure DiffOrientation extends ErrorBase where
  constraints : List DiffRotConstraint

/-- fully_differentiable_orientation_error_function.h:42. -/
noncomputable def kDiffOrientationWeight : ℝ := 1 / 10

/-- Four numbers at `4 * i` as a quaternion: `Quaternion(value.segment<4>(4 * i))`, in the order x, y, z, w. -/
def listSegment4 (value : List ℝ) (i : Nat) : Quat ℝ :=
  ⟨value.getD (4 * i + 3) 0, value.getD (4 * i) 0, value.getD (4 * i + 1) 0, value.getD (4 * i + 2) 0⟩

/-- Eigen `q.coeffs()`. -/
def Quat.coeffs (q : Quat ℝ) : List ℝ := [q.x, q.y, q.z, q.w]

namespace DiffOrientation

/-- fully_differentiable_orientation_error_function.cpp:28-32 `inputs`. -/
def inputs : List String := ["weights", "offsets", "targets"]

/-- fully_differentiable_orientation_error_function.cpp:34-50 `getInputSize`. -/
def getInputSize (E : DiffOrientation) (name : String) : Option Nat :=
  if name = "weights" then some E.constraints.length
  else if name = "offsets" then some (4 * E.constraints.length)
  else if name = "targets" then some (4 * E.constraints.length)
  else none

/-- fully_differentiable_orientation_error_function.cpp:191-210 `getInputImp`. -/
def getInput (E : DiffOrientation) (name : String) : Option (List ℝ) :=
  if name = "weights" then some (E.constraints.map (·.weight))
  else if name = "offsets" then some (E.constraints.flatMap fun c => c.offset.coeffs)
  else if name = "targets" then some (E.constraints.flatMap fun c => c.target.coeffs)
  else none

/-- fully_differentiable_orientation_error_function.cpp:212-241 `setInputImp`. -/
noncomputable def setInputImp (E : DiffOrientation) (name : String) (value : List ℝ) : Option DiffOrientation :=
  if name = "weights" then some { E with constraints := E.constraints.mapIdx fun i c => { c with weight := value.getD i 0 } }
  else if name = "offsets" then
    some { E with constraints := E.constraints.mapIdx fun i c => { c with offset := (listSegment4 value i).normalized } }
  else if name = "targets" then
    some { E with constraints := E.constraints.mapIdx fun i c => { c with target := (listSegment4 value i).normalized } }
  else none

/-- fully_differentiable_skeleton_error_function.cpp:38-52 `setInput`: the size is checked first. -/
noncomputable def setInput (E : DiffOrientation) (name : String) (value : List ℝ) : Option DiffOrientation :=
  (E.getInputSize name).bind fun n => if value.length = n then E.setInputImp name value else none

/-- fully_differentiable_orientation_error_function.cpp:66,251: the rotation of a constraint. -/
def rotation (c : DiffRotConstraint) (st : List JointState) : Option (Quat ℝ) :=
  st[c.parent]?.map fun js => js.transform.rotation * c.offset

/-- fully_differentiable_orientation_error_function.cpp:59-69: one iteration of the loop of `getError`. -/
noncomputable def errorStep (st : List JointState) (error : ℝ) (c : DiffRotConstraint) : Option ℝ :=
  (rotation c st).map fun rot =>
    let rotDiff := rot.toMat.minus c.target.toMat
    error + c.weight * rotDiff.sumProd rotDiff * kDiffOrientationWeight

/-- fully_differentiable_orientation_error_function.cpp:52-73 `getError`. -/
noncomputable def getError (E : DiffOrientation) (st : List JointState) : Option ℝ :=
  (E.constraints.foldlM (errorStep st) 0).map fun error => error * E.weight

/-- fully_differentiable_orientation_error_function.cpp:264-277: the degrees of freedom of a joint, with the joint gradient of each. -/
noncomputable def gradDofs (rot rotDiff : Mat3 ℝ) (wgt : ℝ) (js : JointState) : List (Nat × Option ℝ) :=
  let r (d : Fin 3) : Option ℝ := some (2 * wgt * ((crossProductMatrix (js.rotationAxis d)).mul rot).sumProd rotDiff)
  [(3, r 0), (4, r 1), (5, r 2)]

/-- fully_differentiable_orientation_error_function.cpp:88-94,243-284: one iteration of the loop of `getGradient`; the state is the
error and `jointGrad_`. -/
noncomputable def gradStep (E : DiffOrientation) (st : List JointState) (s : ℝ × (Nat → ℝ)) (c : DiffRotConstraint) :
    Option (ℝ × (Nat → ℝ)) :=
  if c.weight = 0 then some s
  else (rotation c st).bind fun rot =>
    let rotDiff := rot.toMat.minus c.target.toMat
    (chainWalk E.skeleton E.activeJointParams st (gradDofs rot.toMat rotDiff (kDiffOrientationWeight * c.weight))
      (gradScatter E.transform) none (some c.parent) s.2).map fun g =>
        (s.1 + rotDiff.sumProd rotDiff * (kDiffOrientationWeight * c.weight), g)

/-- fully_differentiable_orientation_error_function.cpp:75-101 `getGradient`. -/
noncomputable def getGradient (E : DiffOrientation) (st : List JointState) (gradient : Nat → ℝ) : Option (ℝ × (Nat → ℝ)) :=
  (E.constraints.foldlM (E.gradStep st) (0, fun _ => 0)).map fun s =>
    (s.1 * E.weight, fun k => gradient k + s.2 k * E.weight)

/-- fully_differentiable_orientation_error_function.cpp:314-323: the degrees of freedom of a joint, as Jets. -/
noncomputable def dotDofs (rot rotDiff : Mat3 Jet) (wgt : Jet) (js : JointState) : List (Nat × Option Jet) :=
  let r (d : Fin 3) : Option Jet :=
    some (.ofReal 2 * wgt * ((crossMatJet (js.rotationAxis d).toJet).mul rot).sumProd rotDiff)
  [(3, r 0), (4, r 1), (5, r 2)]

/-- fully_differentiable_orientation_error_function.cpp:286-330 `calculateOrientationGradient_dot`. -/
noncomputable def gradientDot (E : DiffOrientation) (st : List JointState) (parent : Nat) (weight : Jet) (offset target : Quat Jet)
    (vec : Nat → ℝ) : Option Jet :=
  st[parent]?.bind fun js =>
    let rot := js.transform.rotation.toJet * offset
    chainWalk E.skeleton E.activeJointParams st
      (dotDofs rot.toMat (rot.toMat.minus target.toMat) (.ofReal E.weight * .ofReal kDiffOrientationWeight * weight))
      (timesTransformTimesV E.transform vec) none (some parent) 0

/-- fully_differentiable_orientation_error_function.cpp:342-352,357-367,372-382: what is computed for one constraint. -/
noncomputable def constraintDot (E : DiffOrientation) (name : String) (st : List JointState) (vec : Nat → ℝ) (c : DiffRotConstraint) :
    Option (List ℝ) :=
  if name = "weights" then
    (E.gradientDot st c.parent (.var c.weight true) c.offset.toJet c.target.toJet vec).map fun r => [r.snd]
  else if name = "offsets" then
    ([0, 1, 2, 3] : List Nat).mapM fun k =>
      (E.gradientDot st c.parent (.ofReal c.weight) (buildJetQuat c.offset k).normalizedJet c.target.toJet vec).map (·.snd)
  else if name = "targets" then
    ([0, 1, 2, 3] : List Nat).mapM fun k =>
      (E.gradientDot st c.parent (.ofReal c.weight) c.offset.toJet (buildJetQuat c.target k).normalizedJet vec).map (·.snd)
  else none

/-- fully_differentiable_orientation_error_function.cpp:332-389 `d_gradient_d_input_dot`. -/
noncomputable def dGradientDot (E : DiffOrientation) (name : String) (st : List JointState) (vec : Nat → ℝ) : Option (List ℝ) :=
  if name ∈ inputs then (E.constraints.mapM (E.constraintDot name st vec)).map List.flatten else none

end DiffOrientation

/-! ## Target states -/

namespace StateError

/-- fully_differentiable_state_error_function.cpp:29-32 `inputs`. -/
def inputs : List String := ["targetPositionWeights", "targetRotationWeights", "targetState"]

/-- fully_differentiable_state_error_function.cpp:34-44 `getInputSize`. -/
def getInputSize (E : StateError) (name : String) : Option Nat :=
  if name = "targetPositionWeights" ∨ name = "targetRotationWeights" then some E.skeleton.joints.length
  else if name = "targetState" then some (8 * E.skeleton.joints.length)
  else none

/-- fully_differentiable_state_error_function.cpp:55-61: eight numbers for a joint. -/
noncomputable def stateCoeffs (t : Transform ℝ) : List ℝ :=
  [t.translation.x, t.translation.y, t.translation.z] ++ t.rotation.normalized.coeffs ++ [t.scale]

/-- fully_differentiable_state_error_function.cpp:46-66 `getInputImp`. -/
noncomputable def getInput (E : StateError) (name : String) : Option (List ℝ) :=
  if name = "targetPositionWeights" then some E.targetPositionWeights
  else if name = "targetRotationWeights" then some E.targetRotationWeights
  else if name = "targetState" then
    ((List.range E.skeleton.joints.length).mapM fun i => E.targetState[i]?.map stateCoeffs).map List.flatten
  else none

/-- fully_differentiable_state_error_function.cpp:77-82: the target of joint `i`. -/
noncomputable def stateSegment (value : List ℝ) (i : Nat) : Transform ℝ where
  translation := ⟨value.getD (8 * i) 0, value.getD (8 * i + 1) 0, value.getD (8 * i + 2) 0⟩
  rotation := Quat.normalized
    ⟨value.getD (8 * i + 6) 0, value.getD (8 * i + 3) 0, value.getD (8 * i + 4) 0, value.getD (8 * i + 5) 0⟩
  scale := value.getD (8 * i + 7) 0

/-- fully_differentiable_state_error_function.cpp:68-88 `setInputImp`, with state_error_function.cpp:51-55,75-82
(`setTargetState`, `setTargetWeights`). -/
noncomputable def setInputImp (E : StateError) (name : String) (value : List ℝ) : Option StateError :=
  if name = "targetPositionWeights" then
    if value.length = E.skeleton.joints.length ∧ E.targetRotationWeights.length = E.skeleton.joints.length then
      some { E with targetPositionWeights := value } else none
  else if name = "targetRotationWeights" then
    if E.targetPositionWeights.length = E.skeleton.joints.length ∧ value.length = E.skeleton.joints.length then
      some { E with targetRotationWeights := value } else none
  else if name = "targetState" then
    some { E with targetState := (List.range E.skeleton.joints.length).map (stateSegment value) }
  else none

/-- fully_differentiable_skeleton_error_function.cpp:38-52 `setInput`: the size is checked first. -/
noncomputable def setInput (E : StateError) (name : String) (value : List ℝ) : Option StateError :=
  (E.getInputSize name).bind fun n => if value.length = n then E.setInputImp name value else none

/-- fully_differentiable_state_error_function.cpp:125-157: the degrees of freedom of an ancestor, as Jets. -/
noncomputable def dotDofs (pos : Vec3 ℝ) (rot : Mat3 Jet) (diff : Vec3 Jet) (rotDiff : Mat3 Jet) (pwgt rwgt : Jet) (js : JointState) :
    List (Nat × Option Jet) :=
  let posd := pos - js.transform.translation
  let t (d : Fin 3) : Option Jet := (js.getTranslationDerivative d).map fun v => .ofReal 2 * diff.dot v.toJet * pwgt
  let r (d : Fin 3) : Option Jet := (js.getRotationDerivative d posd).map fun v =>
    .ofReal 2 * diff.dot v.toJet * pwgt +
      .ofReal 2 * rwgt * ((crossMatJet (js.rotationAxis d).toJet).mul rot).sumProd rotDiff
  [(0, t 0), (3, r 0), (1, t 1), (4, r 1), (2, t 2), (5, r 2),
    (6, some (.ofReal 2 * diff.dot (js.getScaleDerivative posd).toJet * pwgt))]

/-- fully_differentiable_state_error_function.cpp:90-167 `calculateGradient_dot`; the check of the number of states is an exception. -/
noncomputable def gradientDot (E : StateError) (st : List JointState) (i : Nat) (translation : Vec3 Jet) (rotation : Quat Jet)
    (positionWeight rotationWeight : Jet) (vec : Nat → ℝ) : Option Jet :=
  if st.length = E.skeleton.joints.length then
    st[i]?.bind fun js =>
      let rwgt := .ofReal kStateOrientationWeight * .ofReal E.rotWgt * .ofReal E.weight * rotationWeight
      let pwgt := .ofReal kStatePositionWeight * .ofReal E.posWgt * .ofReal E.weight * positionWeight
      let rot := js.transform.rotation.toJet.toMat
      chainWalk E.skeleton E.activeJointParams st
        (dotDofs js.transform.translation rot (js.transform.translation.toJet - translation) (rot.minus rotation.toMat) pwgt rwgt)
        (timesTransformTimesV E.transform vec) none (some i) 0
  else none

/-- fully_differentiable_state_error_function.cpp:185-196,201-212,215-247: what is computed for joint `i`. -/
noncomputable def jointDot (E : StateError) (name : String) (st : List JointState) (vec : Nat → ℝ) (i : Nat) : Option (List ℝ) := do
  let target ← E.targetState[i]?
  let pw ← E.targetPositionWeights[i]?
  let rw ← E.targetRotationWeights[i]?
  let q := target.rotation.normalized
  if name = "targetPositionWeights" then
    (E.gradientDot st i target.translation.toJet q.toJet (.var pw true) (.ofReal rw) vec).map fun r => [r.snd]
  else if name = "targetRotationWeights" then
    (E.gradientDot st i target.translation.toJet q.toJet (.ofReal pw) (.var rw true) vec).map fun r => [r.snd]
  else if name = "targetState" then do
    let dt ← ([0, 1, 2] : List Nat).mapM fun k =>
      (E.gradientDot st i (buildJetVec3 target.translation k) q.toJet (.ofReal pw) (.ofReal rw) vec).map (·.snd)
    let dq ← ([0, 1, 2, 3] : List Nat).mapM fun k =>
      (E.gradientDot st i target.translation.toJet (buildJetQuat q k).normalizedJet (.ofReal pw) (.ofReal rw) vec).map (·.snd)
    some (dt ++ dq ++ [0])
  else none

/-- fully_differentiable_state_error_function.cpp:169-252 `d_gradient_d_input_dot`. -/
noncomputable def dGradientDot (E : StateError) (name : String) (st : List JointState) (vec : Nat → ℝ) : Option (List ℝ) :=
  if E.targetState.isEmpty then (E.getInputSize name).map fun n => List.replicate n 0
  else if name ∈ inputs then
    ((List.range E.skeleton.joints.length).mapM (E.jointDot name st vec)).map List.flatten
  else none

end StateError

/-! ## Target model parameters -/

namespace ParamsError

/-- fully_differentiable_motion_error_function.cpp:29-32 `inputs`. -/
def inputs : List String := ["target_parameters", "target_weights"]

/-- fully_differentiable_motion_error_function.cpp:34-42 `getInputSize`. -/
def getInputSize (E : ParamsError) (name : String) : Option Nat :=
  if name = "target_parameters" ∨ name = "target_weights" then some E.transform.cols else none

/-- fully_differentiable_motion_error_function.cpp:44-65 `getInputImp`: zeros if nothing of the right size has been set. -/
noncomputable def getInput (E : ParamsError) (name : String) : Option (List ℝ) :=
  if name = "target_parameters" then
    some (if E.targetParameters.length ≠ E.transform.cols then List.replicate E.transform.cols 0 else E.targetParameters)
  else if name = "target_weights" then
    some (if E.targetWeights.length ≠ E.transform.cols then List.replicate E.transform.cols 0 else E.targetWeights)
  else none

/-- fully_differentiable_motion_error_function.cpp:67-78 `setInputImp`. -/
def setInputImp (E : ParamsError) (name : String) (value : List ℝ) : Option ParamsError :=
  if name = "target_parameters" then some { E with targetParameters := value }
  else if name = "target_weights" then some { E with targetWeights := value }
  else none

/-- fully_differentiable_skeleton_error_function.cpp:38-52 `setInput`: the size is checked first. -/
def setInput (E : ParamsError) (name : String) (value : List ℝ) : Option ParamsError :=
  (E.getInputSize name).bind fun n => if value.length = n then E.setInputImp name value else none

/-- fully_differentiable_motion_error_function.cpp:80-111 `d_gradient_d_input_dot`; vectors of different sizes are an error. -/
noncomputable def dGradientDot (E : ParamsError) (name : String) (params : List ℝ) (vec : Nat → ℝ) : Option (List ℝ) :=
  if E.targetWeights.length ≠ E.transform.cols ∨ E.targetParameters.length ≠ E.transform.cols then
    some (List.replicate E.transform.cols 0)
  else if name = "target_parameters" then
    some (E.targetWeights.mapIdx fun i w => -2 * E.weight * kMotionWeight * (w * w) * vec i)
  else if name = "target_weights" then
    if params.length = E.targetParameters.length then
      some (E.targetWeights.mapIdx fun i w =>
        4 * E.weight * kMotionWeight * w * (params.getD i 0 - E.targetParameters.getD i 0) * vec i)
    else none
  else none

end ParamsError

end Momentum
