import Verif.Model.StateError
import Verif.Model.SequenceFunction

/-!
# Error functions of two consecutive frames: momentum/character_sequence_solver/state_sequence_error_function.cpp and
model_parameters_sequence_error_function.cpp

Over the reals.  `none` stands for a failed check or an access outside a vector.
-/

namespace Momentum

/-- Work on `n` entries from `start`: `gradient.segment(start, n)`, or for columns `jacobian.block(_, start, _, n)`. -/
def onSegment {α : Type} (start n : Nat) (f : (Nat → α) → Option (Nat → α)) (g : Nat → α) : Option (Nat → α) :=
  match f fun k => g (start + k) with
  | none => none
  | some g' => some fun k => if start ≤ k ∧ k < start + n then g' (k - start) else g k

/-- state_sequence_error_function.h:60-78: the members.  The members of the base class (sequence_error_function.h:80-85) are
those of `ErrorBase`. -/
structure StateSeqError extends ErrorBase where
  targetPositionWeights : List ℝ
  targetRotationWeights : List ℝ
  posWgt : ℝ
  rotWgt : ℝ

namespace StateSeqError

/-- state_sequence_error_function.cpp:18-27, the constructor. -/
def create (b : ErrorBase) : StateSeqError where
  toErrorBase := { b with weight := 1 }
  targetPositionWeights := List.replicate b.skeleton.joints.length 1
  targetRotationWeights := List.replicate b.skeleton.joints.length 1
  posWgt := 1
  rotWgt := 1

/-- state_sequence_error_function.cpp:39-48 `setTargetWeights`. -/
def setTargetWeights (E : StateSeqError) (pos rot : List ℝ) : Option StateSeqError :=
  if pos.length = E.skeleton.joints.length ∧ rot.length = E.skeleton.joints.length then
    some { E with targetPositionWeights := pos, targetRotationWeights := rot }
  else none

/-- state_sequence_error_function.cpp:71-73: rotation in the second frame minus rotation in the first. -/
def rotDiff (prev next : JointState) : Mat3 ℝ := next.transform.rotation.toMat.sub prev.transform.rotation.toMat

/-- state_sequence_error_function.cpp:77-78. -/
def posDiff (prev next : JointState) : Vec3 ℝ := next.transform.translation - prev.transform.translation

/-- What the loops read for joint `i`: its two states and its two weights (rotation first). -/
def jointData (E : StateSeqError) (prev next : List JointState) (i : Nat) : Option (JointState × JointState × ℝ × ℝ) := do
  let a ← prev[i]?
  let b ← next[i]?
  let rw ← E.targetRotationWeights[i]?
  let pw ← E.targetPositionWeights[i]?
  some (a, b, rw, pw)

/-- state_sequence_error_function.cpp:66-80: one iteration of the loop of `getError`. -/
noncomputable def errorStep (E : StateSeqError) (prev next : List JointState) (error : ℝ) (i : Nat) : Option ℝ := do
  let (a, b, rw, pw) ← E.jointData prev next i
  let error := error + sqNormFn (rotDiff a b).flat * kStateOrientationWeight * E.rotWgt * rw
  some (error + (posDiff a b).sqNorm * kStatePositionWeight * E.posWgt * pw)

/-- state_sequence_error_function.cpp:50-84 `getError`.  The weights of the header (:77-78) are those of
`StateErrorFunctionT`. -/
noncomputable def getError (E : StateSeqError) (prev next : List JointState) : Option ℝ := do
  let error ← (List.range E.skeleton.joints.length).foldlM (E.errorStep prev next) 0
  some (error * E.weight)

/-- state_sequence_error_function.cpp:123-189 `addGradient` for joint `i`, one of the two frames and its sign.  The values are
those of the state error function, with the sign multiplied into the weights. -/
noncomputable def addGradient (E : StateSeqError) (st : List JointState) (i : Nat) (js : JointState) (sign : ℝ) (diff : Vec3 ℝ)
    (rd : Mat3 ℝ) (pwgt rwgt : ℝ) (g : Nat → ℝ) : Option (Nat → ℝ) :=
  chainWalk E.skeleton E.activeJointParams st
    (StateError.gradDofs js.transform.translation js.transform.rotation.toMat diff rd (sign * pwgt) (sign * rwgt))
    (gradScatter E.transform) none (some i) g

open Classical in
/-- state_sequence_error_function.cpp:104-193: one iteration of the loop of `getGradient`. -/
noncomputable def gradStep (E : StateSeqError) (prev next : List JointState) (s : ℝ × (Nat → ℝ)) (i : Nat) :
    Option (ℝ × (Nat → ℝ)) := do
  let (a, b, rw, pw) ← E.jointData prev next i
  if rw = 0 ∧ pw = 0 then some s
  else
    let rwgt := kStateOrientationWeight * E.rotWgt * E.weight * rw
    let error := s.1 + sqNormFn (rotDiff a b).flat * rwgt
    let pwgt := kStatePositionWeight * E.posWgt * E.weight * pw
    let error := error + (posDiff a b).sqNorm * pwgt
    let g ← onSegment 0 E.transform.cols (E.addGradient prev i a (-1) (posDiff a b) (rotDiff a b) pwgt rwgt) s.2
    let g ← onSegment E.transform.cols E.transform.cols
      (E.addGradient next i b 1 (posDiff a b) (rotDiff a b) pwgt rwgt) g
    some (error, g)

/-- state_sequence_error_function.cpp:86-197 `getGradient`. -/
noncomputable def getGradient (E : StateSeqError) (prev next : List JointState) (gradient : Nat → ℝ) :
    Option (ℝ × (Nat → ℝ)) :=
  (List.range E.skeleton.joints.length).foldlM (E.gradStep prev next) (0, gradient)

open Classical in
/-- state_sequence_error_function.cpp:199-204 `getJacobianSize`. -/
noncomputable def getJacobianSize (E : StateSeqError) : Nat :=
  ((List.zip E.targetPositionWeights E.targetRotationWeights).filter fun w => w.1 ≠ 0 ∨ w.2 ≠ 0).length * 12

/-- state_sequence_error_function.cpp:256-320 `addJacobian`, see `addGradient`. -/
noncomputable def addJacobian (E : StateSeqError) (st : List JointState) (i : Nat) (js : JointState) (sign wgt awgt : ℝ)
    (offset : Nat) (J : Nat → Nat → ℝ) : Option (Nat → Nat → ℝ) :=
  chainWalk E.skeleton E.activeJointParams st
    (StateError.jacDofs js.transform.translation js.transform.rotation.toMat (sign * wgt) (sign * awgt))
    (jacScatter E.transform offset) none (some i) J

open Classical in
/-- state_sequence_error_function.cpp:228-325: one iteration of the loop of `getJacobian`; `rows` is `offset`. -/
noncomputable def jacStep (E : StateSeqError) (prev next : List JointState) (s : JacobianResult) (i : Nat) :
    Option JacobianResult := do
  let (a, b, rw, pw) ← E.jointData prev next i
  if rw = 0 ∧ pw = 0 then some s
  else
    let rwgt := kStateOrientationWeight * E.rotWgt * E.weight * rw
    let error := s.error + sqNormFn (rotDiff a b).flat * rwgt
    let awgt := Real.sqrt rwgt
    let pwgt := kStatePositionWeight * E.posWgt * E.weight * pw
    let wgt := Real.sqrt pwgt
    let error := error + (posDiff a b).sqNorm * pwgt
    let res := StateError.stack12 (wgt • posDiff a b) fun i => (rotDiff a b).flat i * awgt
    let e ← onSegment 0 E.transform.cols (E.addJacobian prev i a (-1) wgt awgt s.rows) s.e
    let e ← onSegment E.transform.cols E.transform.cols (E.addJacobian next i b 1 wgt awgt s.rows) e
    some
      { error := error
        rows := s.rows + 12
        e := e
        residual := fun t => if h : s.rows ≤ t ∧ t < s.rows + 12 then res ⟨t - s.rows, by omega⟩ else s.residual t }

/-- state_sequence_error_function.cpp:206-331 `getJacobian`. -/
noncomputable def getJacobian (E : StateSeqError) (prev next : List JointState) (jacobian : Nat → Nat → ℝ)
    (residual : Nat → ℝ) : Option JacobianResult :=
  (List.range E.skeleton.joints.length).foldlM (E.jacStep prev next) ⟨0, 0, jacobian, residual⟩

/-- The error function as the sequence solver function sees it (sequence_solver_function.cpp:166-401): two frames, the
skeleton states computed from their parameters, zeros in the outputs.  The values for parameters whose state cannot be computed
do not matter. -/
noncomputable def toSeqErrorFunction (E : StateSeqError) (state : (Nat → ℝ) → Option (List JointState)) : SeqErrorFunction where
  weight := E.weight
  numFrames := 2
  jacobianSize := E.getJacobianSize
  getError p := ((state (p 0)).bind fun a => (state (p 1)).bind fun b => E.getError a b).getD 0
  getGradient p := ((state (p 0)).bind fun a => (state (p 1)).bind fun b => E.getGradient a b fun _ => 0).getD (0, fun _ => 0)
  getJacobian p := ((state (p 0)).bind fun a => (state (p 1)).bind fun b => E.getJacobian a b (fun _ _ => 0) fun _ => 0).getD
    ⟨0, 0, fun _ _ => 0, fun _ => 0⟩

end StateSeqError

/-! ## Model parameters -/

/-- model_parameters_sequence_error_function.h:50-60: the members. -/
structure ParamsSeqError extends ErrorBase where
  targetWeights : List ℝ

namespace ParamsSeqError

/-- model_parameters_sequence_error_function.cpp:17-23, the constructor. -/
def create (b : ErrorBase) : ParamsSeqError where
  toErrorBase := { b with weight := 1 }
  targetWeights := List.replicate b.transform.cols 1

/-- model_parameters_sequence_error_function.cpp:35-38. -/
def mismatch (E : ParamsSeqError) : Prop := E.targetWeights.length ≠ E.transform.cols

instance (E : ParamsSeqError) : Decidable E.mismatch := inferInstanceAs (Decidable (_ ≠ _))

/-- model_parameters_sequence_error_function.cpp:50: the weighted difference of parameter `i` (with the weight). -/
def pdiff (E : ParamsSeqError) (prev next : List ℝ) (i : Nat) : Option (ℝ × ℝ) := do
  let w ← E.targetWeights[i]?
  let a ← prev[i]?
  let b ← next[i]?
  some (w, w * (b - a))

open Classical in
/-- model_parameters_sequence_error_function.cpp:49-52. -/
noncomputable def errorStep (E : ParamsSeqError) (prev next : List ℝ) (error : ℝ) (i : Nat) : Option ℝ := do
  let en ← E.enabledParameters.test i
  let (w, d) ← E.pdiff prev next i
  if en = true ∧ 0 < w then some (error + d * d) else some error

/-- model_parameters_sequence_error_function.cpp:30-57 `getError`.  `kMotionWeight` is that of `ModelParametersErrorFunctionT`
(.h:59). -/
noncomputable def getError (E : ParamsSeqError) (prev next : List ℝ) : Option ℝ :=
  if E.mismatch then some 0
  else do
    let error ← (List.range E.transform.cols).foldlM (E.errorStep prev next) 0
    some (error * E.weight * kMotionWeight)

open Classical in
/-- model_parameters_sequence_error_function.cpp:80-87. -/
noncomputable def gradStep (E : ParamsSeqError) (prev next : List ℝ) (s : ℝ × (Nat → ℝ)) (i : Nat) : Option (ℝ × (Nat → ℝ)) := do
  let en ← E.enabledParameters.test i
  let (w, d) ← E.pdiff prev next i
  if en = true ∧ 0 < w then
    let g := Function.update s.2 i (s.2 i - 2 * w * d * E.weight * kMotionWeight)
    let g := Function.update g (E.transform.cols + i) (g (E.transform.cols + i) + 2 * w * d * E.weight * kMotionWeight)
    some (s.1 + d * d, g)
  else some s

/-- model_parameters_sequence_error_function.cpp:59-92 `getGradient`. -/
noncomputable def getGradient (E : ParamsSeqError) (prev next : List ℝ) (gradient : Nat → ℝ) : Option (ℝ × (Nat → ℝ)) :=
  if E.mismatch then some (0, gradient)
  else do
    let s ← (List.range E.transform.cols).foldlM (E.gradStep prev next) (0, gradient)
    some (s.1 * E.weight * kMotionWeight, s.2)

open Classical in
/-- model_parameters_sequence_error_function.cpp:94-97 `getJacobianSize`. -/
noncomputable def getJacobianSize (E : ParamsSeqError) : Nat := (E.targetWeights.filter fun w => 0 < w).length

open Classical in
/-- model_parameters_sequence_error_function.cpp:137-146; `rows` is `out`. -/
noncomputable def jacStep (E : ParamsSeqError) (prev next : List ℝ) (s : JacobianResult) (i : Nat) : Option JacobianResult := do
  let en ← E.enabledParameters.test i
  let (w, d) ← E.pdiff prev next i
  if en = true ∧ 0 < w then
    let sWeight := Real.sqrt (E.weight * kMotionWeight)
    let e := Function.update s.e i (Function.update (s.e i) s.rows (-sWeight * w))
    let e := Function.update e (E.transform.cols + i) (Function.update (e (E.transform.cols + i)) s.rows (sWeight * w))
    some ⟨s.error + d * d, s.rows + 1, e, Function.update s.residual s.rows (d * sWeight)⟩
  else some s

/-- model_parameters_sequence_error_function.cpp:99-154 `getJacobian`. -/
noncomputable def getJacobian (E : ParamsSeqError) (prev next : List ℝ) (jacobian : Nat → Nat → ℝ) (residual : Nat → ℝ) :
    Option JacobianResult :=
  if E.mismatch then some ⟨0, 0, jacobian, residual⟩
  else do
    let s ← (List.range E.transform.cols).foldlM (E.jacStep prev next) (⟨0, 0, jacobian, residual⟩ : JacobianResult)
    some { s with error := s.error * E.weight * kMotionWeight }

/-- The error function as the sequence solver function sees it. -/
noncomputable def toSeqErrorFunction (E : ParamsSeqError) : SeqErrorFunction where
  weight := E.weight
  numFrames := 2
  jacobianSize := E.getJacobianSize
  getError p := (E.getError ((List.range E.transform.cols).map (p 0)) ((List.range E.transform.cols).map (p 1))).getD 0
  getGradient p := (E.getGradient ((List.range E.transform.cols).map (p 0)) ((List.range E.transform.cols).map (p 1))
    fun _ => 0).getD (0, fun _ => 0)
  getJacobian p := (E.getJacobian ((List.range E.transform.cols).map (p 0)) ((List.range E.transform.cols).map (p 1))
    (fun _ _ => 0) fun _ => 0).getD ⟨0, 0, fun _ _ => 0, fun _ => 0⟩

end ParamsSeqError
end Momentum
