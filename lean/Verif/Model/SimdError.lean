import Verif.Model.SimdConstraints
import Verif.Model.ErrorBase
import Verif.Model.ConstraintError

/-!
# momentum/character_solver/simd_{position,plane,normal}_error_function.cpp: the evaluations

Over the reals, with packets of `W` numbers (`kSimdPacketSize`, or 8 in the AVX versions).  `none` stands for a failed check
or an access outside a vector or block.  The packet instructions are modelled lane by lane; `rsqrt`, an approximation, as
the exact reciprocal root.  Converting to float is not modelled.
-/

namespace Momentum

/-! ## Memory shared by threads -/

/-- An assignment to some cells: `cell += x` (`load`, e.g. simd_position_error_function.cpp:222-223, or for the lanes of a
packet together :286-292) or `cell = x` (:358-366). -/
structure PacketOp (α : Type) where
  load : Bool
  cells : List (α × ℝ)

/-- A thread: the assignments it has still to make, and the old values once it has read them for the first of these. -/
structure Worker (α : Type) where
  ops : List (PacketOp α)
  pending : Option (List ℝ)

section
variable {α : Type} [DecidableEq α]

/-- The cells after writing. -/
def PacketOp.write (op : PacketOp α) (old : List ℝ) (mem : α → ℝ) : α → ℝ :=
  (op.cells.zip old).foldl (fun mem c => Function.update mem c.1.1 (if op.load then c.2 + c.1.2 else c.1.2)) mem

/-- The assignment without interference. -/
def PacketOp.exec (op : PacketOp α) (mem : α → ℝ) : α → ℝ := op.write (op.cells.map fun c => mem c.1) mem

/-- Assignments one after another. -/
def execOps (ops : List (PacketOp α)) (mem : α → ℝ) : α → ℝ := ops.foldl (fun mem op => op.exec mem) mem

/-- Thread `t` reads the cells of its next assignment, or writes them. -/
def parStep (s : (α → ℝ) × List (Worker α)) (t : Nat) : (α → ℝ) × List (Worker α) :=
  match s.2[t]? with
  | none => s
  | some w =>
    match w.ops, w.pending with
    | [], _ => s
    | op :: _, none => (s.1, s.2.set t { w with pending := some (op.cells.map fun c => s.1 c.1) })
    | op :: rest, some old => (op.write old s.1, s.2.set t ⟨rest, none⟩)

/-- `parallel_for` over the tasks with the threads interleaved as the schedule says (every task in a thread of its own: with
fewer threads there are fewer interleavings).  `none` if some task has not been finished. -/
def parRun (tasks : List (List (PacketOp α))) (schedule : List Nat) (mem : α → ℝ) : Option (α → ℝ) :=
  let s := schedule.foldl parStep (mem, tasks.map fun ops => ⟨ops, none⟩)
  if s.2.all fun w => w.ops.isEmpty then some s.1 else none

end

/-! ## Packets -/

/-- The `W` lanes of a packet. -/
abbrev Lanes (W : Nat) : Type := Fin W → ℝ

/-- The packets of a joint: `for (index = 0; index < constraintCount; index += kSimdPacketSize)`
(simd_position_error_function.cpp:125, etc.). -/
def packetStarts (W count : Nat) : List Nat := (List.range ((count + W - 1) / W)).map (· * W)

/-- The packets loaded from the arrays at `jointId * kMaxConstraints + index` (simd_position_error_function.cpp:126-146,
etc.). -/
def SimdStore.load {n : Nat} (S : SimdStore ℝ n) (W j index : Nat) : Option (Fin (n + 1) → Lanes W) :=
  if S.addr n (j * kMaxConstraints + index) + W ≤ (n + 1) * S.dataSize then
    some fun k l => S.mem (S.addr k (j * kMaxConstraints + index) + l)
  else none

/-- What one of the classes computes for a packet of constraints: the contribution to the error, the derivative for each of
the degrees of freedom of a joint further up, in the order of the code, in `getGradient` and in `getJacobian`, and the
residual.  The last two take `weight_`. -/
structure SimdKernel (n m W : Nat) where
  scale : ℝ
  error : (Fin (n + 1) → Lanes W) → JointState → Lanes W
  grad : (Fin (n + 1) → Lanes W) → JointState → JointState → List (Nat × Option (Lanes W))
  residual : ℝ → (Fin (n + 1) → Lanes W) → JointState → Fin m → Lanes W
  jac : ℝ → (Fin (n + 1) → Lanes W) → JointState → JointState → List (Nat × Option (Fin m → Lanes W))

/-- simd_position_error_function.h:118-127 and similar: the members, with the constraints as they are when the evaluation
starts.  `maxThreads_` is left out: all schedules are considered. -/
structure SimdError (n : Nat) where
  base : ErrorBase
  store : Option (SimdStore ℝ n)
  jacobianOffset : List Nat

/-- An entry of the Jacobian or of the residual. -/
inductive JacCell where
  | jac (col row : Nat)
  | res (row : Nat)
  deriving DecidableEq

namespace SimdError
variable {n m W : Nat}

/-- One packet in `getError`. -/
noncomputable def errorPacket (K : SimdKernel n m W) (S : SimdStore ℝ n) (js : JointState) (j : Nat) (error : ℝ)
    (index : Nat) : Option ℝ :=
  (S.load W j index).bind fun v => some (error + ∑ l, K.error v js l)

/-- The constraints of one joint. -/
noncomputable def errorJoint (K : SimdKernel n m W) (S : SimdStore ℝ n) (st : List JointState) (error : ℝ) (j : Nat) :
    Option ℝ :=
  st[j]?.bind fun js => (packetStarts W (S.count j)).foldlM (errorPacket K S js j) error

/-- simd_position_error_function.cpp:106-152, :530-595 `getError` (simd_plane_error_function.cpp:109-155, :480-543,
simd_normal_error_function.cpp:118-163).  The sum over the lanes is taken packet by packet (in the code, except for the AVX
versions, after the loop). -/
noncomputable def getError (E : SimdError n) (K : SimdKernel n m W) (st : List JointState) : Option ℝ :=
  match E.store with
  | none => some 0
  | some S =>
    if S.numJoints ≤ st.length then
      ((List.range S.numJoints).foldlM (errorJoint K S st) 0).bind fun error => some (error * K.scale * E.base.weight)
    else none

/-- simd_position_error_function.cpp:218-224 and similar: `gradient[col] += drjit::sum(val) * value`, appended to the
assignments of the task. -/
noncomputable def gradEmit (A : SparseMat ℝ) (row : Nat) (val : Lanes W) (ops : List (PacketOp Nat)) :
    Option (List (PacketOp Nat)) :=
  (A.entries.filter (·.row == row)).foldlM (init := ops) fun ops e =>
    if e.col < A.cols then some (ops ++ [⟨true, [(e.col, (∑ l, val l) * e.val)]⟩]) else none

/-- One packet in `getGradient`: the error and the assignments.  The check `jointIndex < numJoints` cannot fail, parents
coming before their children. -/
noncomputable def gradPacket (K : SimdKernel n m W) (B : ErrorBase) (S : SimdStore ℝ n) (st : List JointState)
    (js : JointState) (j : Nat) (s : ℝ × List (PacketOp Nat)) (index : Nat) : Option (ℝ × List (PacketOp Nat)) :=
  (S.load W j index).bind fun v =>
    (chainWalk B.skeleton B.activeJointParams st (K.grad v js) (gradEmit B.transform) none (some j) s.2).bind fun ops =>
      some (s.1 + ∑ l, K.error v js l, ops)

/-- The task of joint `j` in `getGradient` (simd_position_error_function.cpp:172-269, :616-763;
simd_plane_error_function.cpp:174-273, :566-724; simd_normal_error_function.cpp:174-261). -/
noncomputable def gradTask (K : SimdKernel n m W) (B : ErrorBase) (S : SimdStore ℝ n) (st : List JointState) (j : Nat) :
    Option (ℝ × List (PacketOp Nat)) :=
  st[j]?.bind fun js => (packetStarts W (S.count j)).foldlM (gradPacket K B S st js j) (0, [])

/-- simd_position_error_function.cpp:154-276 and simd_plane_error_function.cpp:157-281 `getGradient`: the tasks write to
`gradient` without synchronisation. -/
noncomputable def getGradient (E : SimdError n) (K : SimdKernel n m W) (st : List JointState) (schedule : List Nat)
    (gradient : Nat → ℝ) : Option (ℝ × (Nat → ℝ)) :=
  match E.store with
  | none => some (0, gradient)
  | some S =>
    ((List.range S.numJoints).mapM (gradTask K E.base S st)).bind fun tasks =>
      (parRun (tasks.map (·.2)) schedule gradient).bind fun g =>
        some (K.scale * E.base.weight * (tasks.map (·.1)).sum, g)

/-- simd_normal_error_function.cpp:165-264 `getGradient`: one joint after the other. -/
noncomputable def getGradientSerial (E : SimdError n) (K : SimdKernel n m W) (st : List JointState) (gradient : Nat → ℝ) :
    Option (ℝ × (Nat → ℝ)) :=
  match E.store with
  | none => some (0, gradient)
  | some S =>
    ((List.range S.numJoints).mapM (gradTask K E.base S st)).bind fun tasks =>
      some ((tasks.map (·.1)).sum * K.scale * E.base.weight, execOps (tasks.flatMap (·.2)) gradient)

/-- What one thread of the AVX versions has done with the joints it was given (simd_position_error_function.cpp:610-763). -/
noncomputable def gradLocal (E : SimdError n) (K : SimdKernel n m W) (S : SimdStore ℝ n) (st : List JointState)
    (joints : List Nat) : Option (ℝ × (Nat → ℝ)) :=
  (joints.mapM (gradTask K E.base S st)).bind fun tasks =>
    some ((tasks.map (·.1)).sum, execOps (tasks.flatMap (·.2)) fun _ => 0)

/-- simd_position_error_function.cpp:597-781 and simd_plane_error_function.cpp:545-742 `getGradient` of the AVX versions:
every thread adds up an error and a gradient of its own for the joints it is given, one list per thread in `parts`. -/
noncomputable def getGradientAvx (E : SimdError n) (K : SimdKernel n m W) (st : List JointState) (parts : List (List Nat))
    (gradient : Nat → ℝ) : Option (ℝ × (Nat → ℝ)) :=
  match E.store with
  | none => some (0, gradient)
  | some S =>
    (parts.mapM (gradLocal E K S st)).bind fun locals =>
      some ((locals.map (·.1)).sum * K.scale * E.base.weight,
        fun i => gradient i + (locals.map fun l => l.2 i).sum * E.base.weight)

/-- simd_position_error_function.cpp:278-294 `jacobian_jointParams_to_modelParams` for each of the `m` blocks of `W` rows of
the packet, appended to the assignments of the task; `rows` is `jacobian.rows()`. -/
def jacEmit (A : SparseMat ℝ) (rows offset row : Nat) (jc : Fin m → Lanes W) (ops : List (PacketOp JacCell)) :
    Option (List (PacketOp JacCell)) :=
  (List.finRange m).foldlM (init := ops) fun ops (c : Fin m) =>
    if offset + W * c + W ≤ rows then
      (A.entries.filter (·.row == row)).foldlM (init := ops) fun ops e =>
        if e.col < A.cols then
          some (ops ++ [⟨true, (List.finRange W).map fun (l : Fin W) => (JacCell.jac e.col (offset + W * c + l), e.val * jc c l)⟩])
        else none
    else none

/-- simd_position_error_function.cpp:356-366 (simd_plane_error_function.cpp:361-362): the residual, `m` packets. -/
def resEmit (rows offset : Nat) (r : Fin m → Lanes W) (ops : List (PacketOp JacCell)) : Option (List (PacketOp JacCell)) :=
  (List.finRange m).foldlM (init := ops) fun ops (c : Fin m) =>
    if offset + W * c + W ≤ rows then
      some (ops ++ [⟨false, (List.finRange W).map fun (l : Fin W) => (JacCell.res (offset + W * c + l), r c l)⟩])
    else none

/-- One packet in `getJacobian`: the error and the assignments; `first` is `jacobianOffset_[jointId]`, with `addressOffset`
in the AVX versions. -/
noncomputable def jacPacket (K : SimdKernel n m W) (B : ErrorBase) (S : SimdStore ℝ n) (st : List JointState) (rows first : Nat)
    (js : JointState) (j : Nat) (s : ℝ × List (PacketOp JacCell)) (index : Nat) : Option (ℝ × List (PacketOp JacCell)) :=
  (S.load W j index).bind fun v =>
    (resEmit rows (first + index * m) (K.residual B.weight v js) s.2).bind fun ops =>
      (chainWalk B.skeleton B.activeJointParams st (K.jac B.weight v js) (jacEmit B.transform rows (first + index * m))
        none (some j) ops).bind fun ops => some (s.1 + ∑ l, K.error v js l, ops)

/-- The task of joint `j` in `getJacobian` (simd_position_error_function.cpp:318-460, :810-1017;
simd_plane_error_function.cpp:324-420; simd_normal_error_function.cpp:307-394, :468-668). -/
noncomputable def jacTask (K : SimdKernel n m W) (E : SimdError n) (S : SimdStore ℝ n) (st : List JointState)
    (rows shift j : Nat) : Option (ℝ × List (PacketOp JacCell)) :=
  st[j]?.bind fun js => E.jacobianOffset[j]?.bind fun first =>
    (packetStarts W (S.count j)).foldlM (jacPacket K E.base S st rows (first + shift) js j) (0, [])

/-- The Jacobian and the residual as one memory. -/
def jacMem (jacobian : Nat → Nat → ℝ) (residual : Nat → ℝ) : JacCell → ℝ
  | .jac i t => jacobian i t
  | .res t => residual t

/-- simd_position_error_function.cpp:296-468, :783-1026, simd_plane_error_function.cpp:301-428,
simd_normal_error_function.cpp:284-403, :438-677 `getJacobian` on a block of `rows` rows.  `shift` is `addressOffset` (zero
except in the AVX versions), see `computeOffset`.  The AVX versions sum up squares of residuals instead of the weighted
squares, the same number when weights are not negative. -/
noncomputable def getJacobian (E : SimdError n) (K : SimdKernel n m W) (st : List JointState) (schedule : List Nat)
    (rows shift : Nat) (jacobian : Nat → Nat → ℝ) (residual : Nat → ℝ) : Option JacobianResult :=
  match E.store with
  | none => some ⟨0, 0, jacobian, residual⟩
  | some S =>
    if S.numJoints ≤ E.jacobianOffset.length then
      ((List.range S.numJoints).mapM (jacTask K E S st rows shift)).bind fun tasks =>
        (parRun (tasks.map (·.2)) schedule (jacMem jacobian residual)).bind
          fun mem => some ⟨K.scale * E.base.weight * (tasks.map (·.1)).sum, rows, fun i t => mem (.jac i t),
            fun t => mem (.res t)⟩
    else none

/-- The rows of `count` constraints of dimension `m`, in whole packets (simd_position_error_function.cpp:479-485,
simd_plane_error_function.cpp:439-441, simd_normal_error_function.cpp:414-416). -/
def rowsOf (m W count : Nat) : Nat := (count + W - 1) / W * W * m

/-- One step of `getJacobianSize`. -/
def sizeStep (m W : Nat) (S : SimdStore ℝ n) (s : Nat × List Nat) (j : Nat) : Nat × List Nat :=
  (s.1 + rowsOf m W (S.count j), s.2 ++ [s.1])

/-- simd_position_error_function.cpp:470-488 (:1028-1046), simd_plane_error_function.cpp:430-444 (:973-991),
simd_normal_error_function.cpp:405-419 (:679-697) `getJacobianSize`: the number of rows, and the object with
`jacobianOffset_` set. -/
def getJacobianSize (E : SimdError n) (m W : Nat) : Nat × SimdError n :=
  match E.store with
  | none => (0, E)
  | some S =>
    let s := (List.range S.numJoints).foldl (sizeStep m W S) (0, [])
    (s.1, { E with jacobianOffset := s.2 })

/-- momentum/simd/simd.h:53-65 `computeOffset` for alignment to 8 floats: `position` is the index of the first float of the
block, counted from an aligned address. -/
def computeOffset (position : Nat) : Nat :=
  let addressOffset := 8 - position % 8
  if addressOffset = 8 then 0 else addressOffset

end SimdError

/-! ## The classes -/

/-- Three of the packets as vectors. -/
def laneVec {n W : Nat} (v : Fin (n + 1) → Lanes W) (a b c : Fin (n + 1)) (l : Fin W) : Vec3 ℝ := ⟨v a l, v b l, v c l⟩

/-- `kPositionWeight` (simd_position_error_function.h:110) and `kPlaneWeight` (simd_plane_error_function.h:109,
simd_normal_error_function.h:112). -/
noncomputable def kSimdWeight : ℝ := 1 / 10000

/-- The degrees of freedom in the order of most of the loops: translation and rotation alternating, then scale. -/
def sevenDofs {α : Type} (t r : Fin 3 → Option α) (s : Option α) : List (Nat × Option α) :=
  [(0, t 0), (3, r 0), (1, t 1), (4, r 1), (2, t 2), (5, r 2), (6, s)]

section
variable {W : Nat}

/-- `pos_world - target` (simd_position_error_function.cpp:129-141; arrays 0-2 the offset, 3-5 the target, 6 the weight). -/
noncomputable def positionDiff (v : Fin 7 → Lanes W) (js : JointState) (l : Fin W) : Vec3 ℝ :=
  js.transform.transformPoint (laneVec v 0 1 2 l) - laneVec v 3 4 5 l

/-- `SimdPositionErrorFunction` (simd_position_error_function.cpp:125-147, :180-262, :326-454). -/
noncomputable def simdPosition : SimdKernel 6 3 W where
  scale := kSimdWeight
  error v js l := v 6 l * (positionDiff v js l).dot (positionDiff v js l)
  grad v js js' :=
    let diff := positionDiff v js
    let wgt : Lanes W := fun l => 2 * (kSimdWeight * v 6 l)
    let posd (l : Fin W) := js.transform.transformPoint (laneVec v 0 1 2 l) - js'.transform.translation
    sevenDofs (fun d => (js'.getTranslationDerivative d).map fun axis l => (diff l).dot axis * wgt l)
      (fun d => some fun l => (diff l).dot ((js'.rotationAxis d).cross (posd l)) * wgt l)
      (some fun l => Real.log 2 * (diff l).dot (posd l) * wgt l)
  residual weight v js c l := Real.sqrt (kSimdWeight * weight * v 6 l) * (positionDiff v js l).toFn c
  jac weight v js js' :=
    let wgt : Lanes W := fun l => Real.sqrt (kSimdWeight * weight * v 6 l)
    let posd (l : Fin W) := js.transform.transformPoint (laneVec v 0 1 2 l) - js'.transform.translation
    sevenDofs (fun d => (js'.getTranslationDerivative d).map fun axis c l => axis.toFn c * wgt l)
      (fun d => some fun c l => ((js'.rotationAxis d).cross (posd l)).toFn c * wgt l)
      (some fun c l => (posd l).toFn c * (Real.log 2 * wgt l))

/-- `SimdPositionErrorFunctionAVX` (simd_position_error_function.cpp:640-760, :818-1010): the same, except that the
translation axes are read without checking that they are up to date. -/
noncomputable def simdPositionAvx : SimdKernel 6 3 8 where
  scale := kSimdWeight
  error v js l := v 6 l * (positionDiff v js l).dot (positionDiff v js l)
  grad v js js' :=
    let diff := positionDiff v js
    let wt : Lanes 8 := fun l => 2 * kSimdWeight * v 6 l
    let posd (l : Fin 8) := js.transform.transformPoint (laneVec v 0 1 2 l) - js'.transform.translation
    sevenDofs (fun d => some fun l => (diff l).dot (js'.translationAxis d) * wt l)
      (fun d => some fun l => (diff l).dot ((js'.rotationAxis d).cross (posd l)) * wt l)
      (some fun l => (diff l).dot (posd l) * wt l * Real.log 2)
  residual weight v js c l := Real.sqrt (kSimdWeight * weight * v 6 l) * (positionDiff v js l).toFn c
  jac weight v js js' :=
    let wgt : Lanes 8 := fun l => Real.sqrt (kSimdWeight * weight * v 6 l)
    let posd (l : Fin 8) := js.transform.transformPoint (laneVec v 0 1 2 l) - js'.transform.translation
    sevenDofs (fun d => some fun c l => (js'.translationAxis d).toFn c * wgt l)
      (fun d => some fun c l => ((js'.rotationAxis d).cross (posd l)).toFn c * wgt l)
      (some fun c l => (posd l).toFn c * (Real.log 2 * wgt l))

/-- The distance to the plane in `SimdPlaneErrorFunction` (simd_plane_error_function.cpp:128-144; arrays 0-2 the offset, 3-5
the normal, 6 the target, 7 the weight): the normal is rotated with the joint. -/
noncomputable def planeDist (v : Fin 8 → Lanes W) (js : JointState) (l : Fin W) : ℝ :=
  (js.transform.transformPoint (laneVec v 0 1 2 l)).dot (js.transform.rotation.rotate (laneVec v 3 4 5 l)) - v 6 l

/-- `SimdPlaneErrorFunction` (simd_plane_error_function.cpp:128-149, :184-265, :332-415). -/
noncomputable def simdPlane : SimdKernel 7 1 W where
  scale := kSimdWeight
  error v js l := v 7 l * planeDist v js l ^ 2
  grad v js js' :=
    let dist := planeDist v js
    let normal (l : Fin W) := js.transform.rotation.rotate (laneVec v 3 4 5 l)
    let wgt : Lanes W := fun l => 2 * kSimdWeight * v 7 l * dist l
    let posd (l : Fin W) := js.transform.transformPoint (laneVec v 0 1 2 l) - js'.transform.translation
    sevenDofs (fun d => (js'.getTranslationDerivative d).map fun axis l => dist l * (normal l).dot axis * wgt l)
      (fun d => some fun l => dist l * (normal l).dot ((js'.rotationAxis d).cross (posd l)) * wgt l)
      (some fun l => dist l * Real.log 2 * (normal l).dot (posd l) * wgt l)
  residual weight v js _ l := planeDist v js l * Real.sqrt (kSimdWeight * weight * v 7 l)
  jac weight v js js' :=
    let normal (l : Fin W) := js.transform.rotation.rotate (laneVec v 3 4 5 l)
    let wgt : Lanes W := fun l => Real.sqrt (kSimdWeight * weight * v 7 l)
    let posd (l : Fin W) := js.transform.transformPoint (laneVec v 0 1 2 l) - js'.transform.translation
    sevenDofs (fun d => (js'.getTranslationDerivative d).map fun axis _ l => (normal l).dot axis * wgt l)
      (fun d => some fun _ l => (normal l).dot ((js'.rotationAxis d).cross (posd l)) * wgt l)
      (some fun _ l => (normal l).dot (posd l) * (Real.log 2 * wgt l))

/-- The distance to the plane in `SimdPlaneErrorFunctionAVX` (simd_plane_error_function.cpp:500-535): the normal is not
rotated. -/
noncomputable def planeDistAvx (v : Fin 8 → Lanes W) (js : JointState) (l : Fin W) : ℝ :=
  (js.transform.transformPoint (laneVec v 0 1 2 l)).dot (laneVec v 3 4 5 l) - v 6 l

/-- `SimdPlaneErrorFunctionAVX` (simd_plane_error_function.cpp:495-538, :580-722, :800-955); for `getJacobian` see
`getJacobianPlaneAvx`. -/
noncomputable def simdPlaneAvx : SimdKernel 7 1 8 where
  scale := kSimdWeight
  error v js l := v 7 l * (planeDistAvx v js l * planeDistAvx v js l)
  grad v js js' :=
    let normal (l : Fin 8) := laneVec v 3 4 5 l
    let wt : Lanes 8 := fun l => 2 * kSimdWeight * planeDistAvx v js l * v 7 l
    let posd (l : Fin 8) := js.transform.transformPoint (laneVec v 0 1 2 l) - js'.transform.translation
    sevenDofs (fun d => some fun l => (normal l).dot (js'.translationAxis d) * wt l)
      (fun d => some fun l => (normal l).dot ((js'.rotationAxis d).cross (posd l)) * wt l)
      (some fun l => (normal l).dot (posd l) * wt l * Real.log 2)
  residual weight v js _ l := Real.sqrt (kSimdWeight * weight * v 7 l) * planeDistAvx v js l
  jac weight v js js' :=
    let normal (l : Fin 8) := laneVec v 3 4 5 l
    let wgt : Lanes 8 := fun l => Real.sqrt (kSimdWeight * weight * v 7 l)
    let posd (l : Fin 8) := js.transform.transformPoint (laneVec v 0 1 2 l) - js'.transform.translation
    sevenDofs (fun d => some fun _ l => (normal l).dot (js'.translationAxis d) * wgt l)
      (fun d => some fun _ l => (normal l).dot ((js'.rotationAxis d).cross (posd l)) * wgt l)
      (some fun _ l => (normal l).dot (posd l) * (Real.log 2 * wgt l))

/-- The distance in `SimdNormalErrorFunction` (simd_normal_error_function.cpp:139-156; arrays 0-2 the offset, 3-5 the normal,
6-8 the target, 9 the weight). -/
noncomputable def normalDist (v : Fin 10 → Lanes W) (js : JointState) (l : Fin W) : ℝ :=
  (js.transform.transformPoint (laneVec v 0 1 2 l) - laneVec v 6 7 8 l).dot (js.transform.rotation.rotate (laneVec v 3 4 5 l))

/-- `SimdNormalErrorFunction` (simd_normal_error_function.cpp:137-159, :180-257, :314-392). -/
noncomputable def simdNormal : SimdKernel 9 1 W where
  scale := kSimdWeight
  error v js l := v 9 l * normalDist v js l ^ 2
  grad v js js' :=
    let dist := normalDist v js
    let normal (l : Fin W) := js.transform.rotation.rotate (laneVec v 3 4 5 l)
    let wgt : Lanes W := fun l => v 9 l * (2 * kSimdWeight)
    let posd (l : Fin W) := js.transform.transformPoint (laneVec v 0 1 2 l) - js'.transform.translation
    sevenDofs (fun d => (js'.getTranslationDerivative d).map fun axis l => dist l * (normal l).dot axis * wgt l)
      (fun d => some fun l =>
        -dist l * (js'.rotationAxis d).dot ((normal l).cross (laneVec v 6 7 8 l - js'.transform.translation)) * wgt l)
      (some fun l => dist l * Real.log 2 * (normal l).dot (posd l) * wgt l)
  residual weight v js _ l := normalDist v js l * Real.sqrt (v 9 l * kSimdWeight * weight)
  jac weight v js js' :=
    let normal (l : Fin W) := js.transform.rotation.rotate (laneVec v 3 4 5 l)
    let wgt : Lanes W := fun l => Real.sqrt (v 9 l * kSimdWeight * weight)
    let posd (l : Fin W) := js.transform.transformPoint (laneVec v 0 1 2 l) - js'.transform.translation
    let t (d : Fin 3) : Option (Fin 1 → Lanes W) :=
      (js'.getTranslationDerivative d).map fun axis _ l => (normal l).dot axis * wgt l
    let r (d : Fin 3) : Option (Fin 1 → Lanes W) := some fun _ l =>
      -(js'.rotationAxis d).dot ((normal l).cross (laneVec v 6 7 8 l - js'.transform.translation)) * wgt l
    [(0, t 0), (1, t 1), (2, t 2), (3, r 0), (4, r 1), (5, r 2),
      (6, some fun _ l => (normal l).dot (posd l) * (Real.log 2 * wgt l))]

/-- The direction in `SimdNormalErrorFunctionAVX` (simd_normal_error_function.cpp:489-527): the linear part of the joint's
transform applied to the normal, and made a unit vector. -/
noncomputable def normalAvx (v : Fin 10 → Lanes W) (js : JointState) (l : Fin W) : Vec3 ℝ :=
  let nml := js.transform.rotation.rotate (js.transform.scale • laneVec v 3 4 5 l)
  (Real.sqrt (max (nml.dot nml) (1 / 10000)))⁻¹ • nml

/-- `SimdNormalErrorFunctionAVX` (simd_normal_error_function.cpp:483-660); the error and the gradient are those of
`SimdNormalErrorFunction`. -/
noncomputable def simdNormalAvx : SimdKernel 9 1 8 where
  scale := kSimdWeight
  error v js l := v 9 l * ((js.transform.transformPoint (laneVec v 0 1 2 l)).dot (normalAvx v js l) -
    (laneVec v 6 7 8 l).dot (normalAvx v js l)) ^ 2
  grad := simdNormal.grad
  residual weight v js _ l := Real.sqrt (kSimdWeight * weight * v 9 l) *
    ((js.transform.transformPoint (laneVec v 0 1 2 l)).dot (normalAvx v js l) - (laneVec v 6 7 8 l).dot (normalAvx v js l))
  jac weight v js js' :=
    let normal := normalAvx v js
    let wgt : Lanes 8 := fun l => Real.sqrt (kSimdWeight * weight * v 9 l)
    let posd (l : Fin 8) := js.transform.transformPoint (laneVec v 0 1 2 l) - js'.transform.translation
    sevenDofs (fun d => some fun _ l => (normal l).dot (js'.translationAxis d) * wgt l)
      (fun d => some fun _ l =>
        (js'.rotationAxis d).dot ((laneVec v 6 7 8 l - js'.transform.translation).cross (normal l)) * wgt l)
      (some fun _ l => (normal l).dot (posd l) * (Real.log 2 * wgt l))

/-- One packet in `SimdPlaneErrorFunctionAVX::getJacobian` (simd_plane_error_function.cpp:800-957): packets that reach the
last row are skipped.  The residual is stored after the Jacobian, which makes no difference, the entries being different. -/
noncomputable def planePacketAvx (B : ErrorBase) (S : SimdStore ℝ 7) (st : List JointState) (rows first : Nat) (js : JointState)
    (j : Nat) (s : ℝ × List (PacketOp JacCell)) (index : Nat) : Option (ℝ × List (PacketOp JacCell)) :=
  if rows ≤ first + index + 8 then some s else SimdError.jacPacket simdPlaneAvx B S st rows first js j s index

/-- The task of joint `j` (simd_plane_error_function.cpp:787-958). -/
noncomputable def planeTaskAvx (E : SimdError 7) (S : SimdStore ℝ 7) (st : List JointState) (rows shift j : Nat) :
    Option (ℝ × List (PacketOp JacCell)) :=
  st[j]?.bind fun js => E.jacobianOffset[j]?.bind fun first =>
    (packetStarts 8 (S.count j)).foldlM (planePacketAvx E.base S st rows (first + shift) js j) (0, [])

/-- simd_plane_error_function.cpp:744-971 `SimdPlaneErrorFunctionAVX::getJacobian`, on a block of `rows` rows.
`jacobianOffset_` is computed again; it has to have been resized by `getJacobianSize`. -/
noncomputable def getJacobianPlaneAvx (E : SimdError 7) (st : List JointState) (schedule : List Nat) (rows shift : Nat)
    (jacobian : Nat → Nat → ℝ) (residual : Nat → ℝ) : Option JacobianResult :=
  match E.store with
  | none => some ⟨0, 0, jacobian, residual⟩
  | some S =>
    if S.numJoints ≤ E.jacobianOffset.length then
      let s := E.getJacobianSize 1 8
      ((List.range S.numJoints).mapM (planeTaskAvx s.2 S st rows shift)).bind fun tasks =>
        (parRun (tasks.map (·.2)) schedule (SimdError.jacMem jacobian residual)).bind
          fun mem => some ⟨kSimdWeight * E.base.weight * (tasks.map (·.1)).sum, if rows ≤ s.1 then rows - 1 else s.1,
            fun i t => mem (.jac i t), fun t => mem (.res t)⟩
    else none

end

end Momentum
