import Verif.Model.ErrorBase
import Verif.Model.ConstraintError

/-!
# momentum/character_solver/state_error_function.cpp and model_parameters_error_function.cpp

Over the reals.  The constants are the decimal numbers of the source (in the code, their nearest floats).
-/

namespace Momentum

/-- Eigen `q.normalized()`; the zero quaternion is left as it is. -/
noncomputable def Quat.normalized (q : Quat ℝ) : Quat ℝ :=
  if 0 < q.normSq then
    ⟨q.w / Real.sqrt q.normSq, q.x / Real.sqrt q.normSq, q.y / Real.sqrt q.normSq, q.z / Real.sqrt q.normSq⟩
  else q

/-- Eigen `a - b`. -/
def Mat3.sub (a b : Mat3 ℝ) : Mat3 ℝ :=
  ⟨a.m00 - b.m00, a.m01 - b.m01, a.m02 - b.m02, a.m10 - b.m10, a.m11 - b.m11, a.m12 - b.m12, a.m20 - b.m20,
    a.m21 - b.m21, a.m22 - b.m22⟩

/-- The entries of a matrix as Eigen stores them, column by column (`Map<VectorX>(m.data(), 9)`). -/
def Mat3.flat (a : Mat3 ℝ) (i : Fin 9) : ℝ :=
  (a.col (i.divNat (m := 3) (n := 3))).toFn (i.modNat (m := 3) (n := 3))

/-- math/utility.h:208-216 `crossProductMatrix`. -/
def crossProductMatrix (v : Vec3 ℝ) : Mat3 ℝ := ⟨0, -v.z, v.y, v.z, 0, -v.x, -v.y, v.x, 0⟩

/-- state_error_function.h:66-82: the members of `StateErrorFunctionT`. -/
structure StateError extends ErrorBase where
  targetState : List (Transform ℝ)
  targetParameters : List ℝ
  targetParameterWeights : List ℝ
  targetPositionWeights : List ℝ
  targetRotationWeights : List ℝ
  posWgt : ℝ
  rotWgt : ℝ
  /-- Eigen's `dummy_precision`, used by `isZero()`. -/
  precision : ℝ

/-- state_error_function.h:80. -/
noncomputable def kStatePositionWeight : ℝ := 1 / 1000
/-- state_error_function.h:81. -/
def kStateOrientationWeight : ℝ := 1

namespace StateError

/-- state_error_function.cpp:21-32,54-57, the constructor followed by `setTargetState`. -/
def create (b : ErrorBase) (precision : ℝ) (target : List (Transform ℝ)) : StateError where
  toErrorBase := { b with weight := 1 }
  targetState := target
  targetParameters := List.replicate b.transform.cols 0
  targetParameterWeights := List.replicate b.transform.cols 0
  targetPositionWeights := List.replicate b.skeleton.joints.length 1
  targetRotationWeights := List.replicate b.skeleton.joints.length 1
  posWgt := 1
  rotWgt := 1
  precision := precision

/-- state_error_function.cpp:104-105: `(params.v - targetParameters_).cwiseProduct(targetParameterWeights_)`; vectors of
different sizes are an error. -/
def pdiff (E : StateError) (params : List ℝ) : Option (List ℝ) :=
  if E.targetParameterWeights.length = params.length then
    some (List.zipWith (· * ·) (List.zipWith (· - ·) params E.targetParameters) E.targetParameterWeights)
  else none

/-- Eigen `squaredNorm()`. -/
def sqNormList (l : List ℝ) : ℝ := (l.map fun x => x * x).sum

/-- state_error_function.cpp:116-118: rotation of the joint minus the normalized target rotation. -/
noncomputable def rotDiff (target : Transform ℝ) (js : JointState) : Mat3 ℝ :=
  js.transform.rotation.toMat.sub target.rotation.normalized.toMat

/-- state_error_function.cpp:122. -/
def posDiff (target : Transform ℝ) (js : JointState) : Vec3 ℝ := js.transform.translation - target.translation

/-- What the loops read for joint `i`: its target, its state, its two weights (rotation first). -/
def jointData (E : StateError) (st : List JointState) (i : Nat) : Option (Transform ℝ × JointState × ℝ × ℝ) := do
  let target ← E.targetState[i]?
  let js ← st[i]?
  let rw ← E.targetRotationWeights[i]?
  let pw ← E.targetPositionWeights[i]?
  some (target, js, rw, pw)

/-- state_error_function.cpp:110-124: one iteration of the loop of `getError`. -/
noncomputable def errorStep (E : StateError) (st : List JointState) (error : ℝ) (i : Nat) : Option ℝ := do
  let (target, js, rw, pw) ← E.jointData st i
  let error := error + sqNormFn (rotDiff target js).flat * kStateOrientationWeight * E.rotWgt * rw
  some (error + (posDiff target js).sqNorm * kStatePositionWeight * E.posWgt * pw)

/-- state_error_function.cpp:100-102: no reasonable data. -/
def mismatch (E : StateError) (params : List ℝ) (st : List JointState) : Prop :=
  E.targetState.length ≠ st.length ∨ E.targetParameters.length ≠ params.length

instance (E : StateError) (params : List ℝ) (st : List JointState) : Decidable (E.mismatch params st) :=
  inferInstanceAs (Decidable (_ ∨ _))

/-- state_error_function.cpp:84-128 `getError`.  The check of the number of joint parameters in the state is left out:
the state here does not contain them. -/
noncomputable def getError (E : StateError) (params : List ℝ) (st : List JointState) : Option ℝ :=
  if st.isEmpty then some 0
  else if E.mismatch params st then some 0
  else do
    let pdiff ← E.pdiff params
    let error ← (List.range E.skeleton.joints.length).foldlM (E.errorStep st) (0 + sqNormList pdiff)
    some (error * E.weight)

/-- state_error_function.cpp:186-229: the degrees of freedom of an ancestor `js` of a joint at `pos` with rotation matrix
`rot`, in the order of the loop, with the joint gradient of each. -/
noncomputable def gradDofs (pos : Vec3 ℝ) (rot : Mat3 ℝ) (diff : Vec3 ℝ) (rotDiff : Mat3 ℝ) (pwgt rwgt : ℝ)
    (js : JointState) : List (Nat × Option ℝ) :=
  let posd := pos - js.transform.translation
  let t (d : Fin 3) : Option ℝ := (js.getTranslationDerivative d).map fun v => 2 * diff.dot v * pwgt
  let r (d : Fin 3) : Option ℝ := (js.getRotationDerivative d posd).map fun v =>
    2 * diff.dot v * pwgt +
      2 * rwgt * ∑ i, ((crossProductMatrix (js.rotationAxis d)).mul rot).flat i * rotDiff.flat i
  [(0, t 0), (3, r 0), (1, t 1), (4, r 1), (2, t 2), (5, r 2),
    (6, some (2 * diff.dot (js.getScaleDerivative posd) * pwgt))]

open Classical in
/-- state_error_function.cpp:161-233: one iteration of the loop of `getGradient`. -/
noncomputable def gradStep (E : StateError) (st : List JointState) (s : ℝ × (Nat → ℝ)) (i : Nat) :
    Option (ℝ × (Nat → ℝ)) := do
  let (target, js, rw, pw) ← E.jointData st i
  if rw = 0 ∧ pw = 0 then some s
  else
    let rwgt := kStateOrientationWeight * E.rotWgt * E.weight * rw
    let error := s.1 + sqNormFn (rotDiff target js).flat * rwgt
    let pwgt := kStatePositionWeight * E.posWgt * E.weight * pw
    let error := error + (posDiff target js).sqNorm * pwgt
    let g ← chainWalk E.skeleton E.activeJointParams st
      (gradDofs js.transform.translation js.transform.rotation.toMat (posDiff target js) (rotDiff target js) pwgt rwgt)
      (gradScatter E.transform) none (some i) s.2
    some (error, g)

/-- state_error_function.cpp:130-237 `getGradient`: the returned error and the gradient after the call. -/
noncomputable def getGradient (E : StateError) (params : List ℝ) (st : List JointState) (gradient : Nat → ℝ) :
    Option (ℝ × (Nat → ℝ)) :=
  if st.isEmpty then some (0, gradient)
  else if E.mismatch params st then some (0, gradient)
  else do
    let pdiff ← E.pdiff params
    (List.range E.skeleton.joints.length).foldlM (E.gradStep st)
      (0 + sqNormList pdiff * E.weight, fun k => gradient k + 2 * pdiff.getD k 0 * E.weight)

open Classical in
/-- state_error_function.cpp:239-247 `getJacobianSize`. -/
noncomputable def getJacobianSize (E : StateError) : Nat :=
  ((List.zip E.targetPositionWeights E.targetRotationWeights).filter fun w => w.1 ≠ 0 ∨ w.2 ≠ 0).length * 12 +
    (if ∀ w ∈ E.targetParameterWeights, |w| ≤ E.precision then 0 else E.targetParameterWeights.length)

/-- Three rows of position and nine of rotation. -/
def stack12 (p : Vec3 ℝ) (r : Fin 9 → ℝ) (i : Fin 12) : ℝ :=
  if h : i.val < 3 then p.toFn ⟨i.val, h⟩ else r ⟨i.val - 3, by omega⟩

/-- state_error_function.cpp:327-371: the degrees of freedom as in `gradDofs`, with the twelve rows of each.  (The code
does not touch the rotation rows for translations and scale; here zeros are added to them.) -/
noncomputable def jacDofs (pos : Vec3 ℝ) (rot : Mat3 ℝ) (wgt awgt : ℝ) (js : JointState) :
    List (Nat × Option (Fin 12 → ℝ)) :=
  let posd := pos - js.transform.translation
  let t (d : Fin 3) : Option (Fin 12 → ℝ) := (js.getTranslationDerivative d).map fun v => stack12 (wgt • v) fun _ => 0
  let r (d : Fin 3) : Option (Fin 12 → ℝ) := (js.getRotationDerivative d posd).map fun v =>
    stack12 (wgt • v) fun i => ((crossProductMatrix (js.rotationAxis d)).mul rot).flat i * awgt
  [(0, t 0), (3, r 0), (1, t 1), (4, r 1), (2, t 2), (5, r 2),
    (6, some (stack12 (wgt • js.getScaleDerivative posd) fun _ => 0))]

open Classical in
/-- state_error_function.cpp:281-376: one iteration of the loop of `getJacobian`; `rows` is `offset`. -/
noncomputable def jacStep (E : StateError) (st : List JointState) (s : JacobianResult) (i : Nat) :
    Option JacobianResult := do
  let (target, js, rw, pw) ← E.jointData st i
  if rw = 0 ∧ pw = 0 then some s
  else
    let rwgt := kStateOrientationWeight * E.rotWgt * E.weight * rw
    let error := s.error + sqNormFn (rotDiff target js).flat * rwgt
    let awgt := Real.sqrt rwgt
    let pwgt := kStatePositionWeight * E.posWgt * E.weight * pw
    let wgt := Real.sqrt pwgt
    let error := error + (posDiff target js).sqNorm * pwgt
    let res := stack12 (wgt • posDiff target js) fun i => (rotDiff target js).flat i * awgt
    let e ← chainWalk E.skeleton E.activeJointParams st
      (jacDofs js.transform.translation js.transform.rotation.toMat wgt awgt) (jacScatter E.transform s.rows) none (some i)
      s.e
    some
      { error := error
        rows := s.rows + 12
        e := e
        residual := fun t => if h : s.rows ≤ t ∧ t < s.rows + 12 then res ⟨t - s.rows, by omega⟩ else s.residual t }

open Classical in
/-- state_error_function.cpp:262-278: the part for the model parameters, on top of the blocks given. -/
noncomputable def jacParams (E : StateError) (params : List ℝ) (jacobian : Nat → Nat → ℝ) (residual : Nat → ℝ) :
    Option JacobianResult :=
  if ∀ w ∈ E.targetParameterWeights, |w| ≤ E.precision then some ⟨0, 0, jacobian, residual⟩
  else do
    let pdiff ← E.pdiff params
    let sWeight := Real.sqrt E.weight
    some
      { error := 0 + sqNormList pdiff * E.weight
        rows := 0 + params.length
        e := fun c t => if c = t ∧ c < pdiff.length then E.targetParameterWeights.getD c 0 * sWeight else jacobian c t
        residual := fun t => if t < pdiff.length then pdiff.getD t 0 * sWeight else residual t }

/-- state_error_function.cpp:249-382 `getJacobian` on blocks with the contents given; `usedRows` is the value of that
variable before the call. -/
noncomputable def getJacobian (E : StateError) (params : List ℝ) (st : List JointState) (jacobian : Nat → Nat → ℝ)
    (residual : Nat → ℝ) (usedRows : Nat) : Option JacobianResult :=
  if E.mismatch params st then some ⟨0, usedRows, jacobian, residual⟩
  else do
    let s ← E.jacParams params jacobian residual
    (List.range E.skeleton.joints.length).foldlM (E.jacStep st) s

end StateError

/-! ## Model parameters -/

/-- model_parameters_error_function.h:46-58: the members. -/
structure ParamsError extends ErrorBase where
  targetParameters : List ℝ
  targetWeights : List ℝ

/-- model_parameters_error_function.h:57. -/
noncomputable def kMotionWeight : ℝ := 1 / 10

namespace ParamsError

/-- model_parameters_error_function.cpp:47-49. -/
def mismatch (E : ParamsError) (params : List ℝ) : Prop :=
  E.targetParameters.length ≠ params.length ∨ E.targetWeights.length ≠ params.length

instance (E : ParamsError) (params : List ℝ) : Decidable (E.mismatch params) := inferInstanceAs (Decidable (_ ∨ _))

/-- model_parameters_error_function.cpp:55: the weighted difference of parameter `i` (with the weight). -/
def pdiff (E : ParamsError) (params : List ℝ) (i : Nat) : Option (ℝ × ℝ) := do
  let w ← E.targetWeights[i]?
  let p ← params[i]?
  let t ← E.targetParameters[i]?
  some (w, w * (p - t))

/-- model_parameters_error_function.cpp:42-62 `getError`. -/
noncomputable def getError (E : ParamsError) (params : List ℝ) : Option ℝ :=
  if E.mismatch params then some 0
  else do
    let error ← (List.range params.length).foldlM (init := (0 : ℝ)) fun error i => do
      if ← E.enabledParameters.test i then
        let (_, d) ← E.pdiff params i
        some (error + d * d)
      else some error
    some (error * E.weight * kMotionWeight)

/-- model_parameters_error_function.cpp:64-86 `getGradient`. -/
noncomputable def getGradient (E : ParamsError) (params : List ℝ) (gradient : Nat → ℝ) : Option (ℝ × (Nat → ℝ)) :=
  if E.mismatch params then some (0, gradient)
  else do
    let s ← (List.range params.length).foldlM (init := ((0 : ℝ), gradient)) fun s i => do
      if ← E.enabledParameters.test i then
        let (w, d) ← E.pdiff params i
        some (s.1 + d * d, Function.update s.2 i (s.2 i + 2 * w * d * E.weight * kMotionWeight))
      else some s
    some (s.1 * E.weight * kMotionWeight, s.2)

open Classical in
/-- model_parameters_error_function.cpp:88-91 `getJacobianSize`. -/
noncomputable def getJacobianSize (E : ParamsError) : Nat := (E.targetWeights.filter fun w => 0 < w).length

open Classical in
/-- model_parameters_error_function.cpp:93-131 `getJacobian` on blocks with the contents given; `rows` is `out`. -/
noncomputable def getJacobian (E : ParamsError) (params : List ℝ) (jacobian : Nat → Nat → ℝ) (residual : Nat → ℝ) :
    Option JacobianResult :=
  if E.mismatch params then some ⟨0, 0, jacobian, residual⟩
  else do
    let sWeight := Real.sqrt (E.weight * kMotionWeight)
    let s ← (List.range params.length).foldlM (init := (⟨0, 0, jacobian, residual⟩ : JacobianResult)) fun s i => do
      if ← E.enabledParameters.test i then
        let (w, d) ← E.pdiff params i
        if 0 < w then
          some
            { error := s.error + d * d
              rows := s.rows + 1
              e := Function.update s.e i (Function.update (s.e i) s.rows (sWeight * w))
              residual := Function.update s.residual s.rows (d * sWeight) }
        else some s
      else some s
    some { s with error := s.error * E.weight * kMotionWeight }

end ParamsError
end Momentum
