import Verif.Model.SequenceSolver
import Verif.Model.BlockQr
import Verif.Model.ParameterTransform

/-!
# Several poses at once: momentum/character_sequence_solver/multipose_solver_function.cpp and multipose_solver.cpp

Some of the model parameters are universal: they have one value for all poses.  The others, the generic ones, have a value in
every pose (frame).  There are no terms between frames, and all parameters are in the joined vector.

Vectors, matrices and numbers are as in `Verif.Model.SequenceFunction`.  The skeleton states are functions of the parameters.
The checks of the sizes of arguments always hold here.
-/

namespace Momentum

/-- multipose_solver_function.h:19-78 `MultiposeSolverFunctionT`.  `np` is `numAllModelParameters()`, `nFrames` the size of
`states_`, `flag` says where `universal_` is positive. -/
structure MultiposeFunction where
  np : Nat
  nFrames : Nat
  flag : Nat → Bool
  /-- `parameterIndexMap_`. -/
  indexMap : Nat → Nat
  /-- `genericParameters_`. -/
  generic : List Nat
  /-- `universalParameters_`. -/
  universal : List Nat
  /-- `frameParameters_`. -/
  frames : Nat → Nat → ℝ
  /-- `errorFunctions_`. -/
  frameErrors : Nat → List ErrorFunction
  /-- `actualParameters_`. -/
  actualParameters : Nat

namespace MultiposeFunction

/-- multipose_solver_function.cpp:41-50: the loop of the constructor. -/
def mapStep (universal : Nat → Bool) (s : (Nat → Nat) × List Nat × List Nat) (i : Nat) : (Nat → Nat) × List Nat × List Nat :=
  if universal i then (Function.update s.1 i s.2.2.length, s.2.1, s.2.2 ++ [i])
  else (Function.update s.1 i s.2.1.length, s.2.1 ++ [i], s.2.2)

/-- multipose_solver_function.cpp:18-54, the constructor. -/
def make (np : Nat) (universal : Nat → Bool) (nFrames : Nat) : MultiposeFunction :=
  let s := (List.range np).foldl (mapStep universal) (fun _ => 0, [], [])
  { np := np, nFrames := nFrames, flag := universal, indexMap := s.1, generic := s.2.1, universal := s.2.2
    frames := fun _ _ => 0, frameErrors := fun _ => []
    actualParameters := s.2.1.length * nFrames + s.2.2.length }

/-- multipose_solver_function.cpp:52 `numParameters_`. -/
def numParameters (M : MultiposeFunction) : Nat := M.generic.length * M.nFrames + M.universal.length

/-- multipose_solver_function.cpp:109-114, 132-137, 226-231, 330-343: the place of parameter `i` of frame `f`, as it is computed
in these loops. -/
def slot (M : MultiposeFunction) (f i : Nat) : Nat :=
  if M.flag i then M.generic.length * M.nFrames + M.indexMap i else M.generic.length * f + M.indexMap i

/-- multipose_solver_function.cpp:58-64: the last enabled parameter, or 0. -/
def lastEnabled (np : Nat) (ps : Nat → Bool) : Nat := (List.range np).foldl (fun a i => if ps i then i else a) 0

/-- multipose_solver_function.cpp:56-86 `setEnabledParameters`.  `active` is `setActiveJoints` of the error functions with the
joint parameters that belong to `ps`. -/
def setEnabledParameters (M : MultiposeFunction) (ps : Nat → Bool) (active : ErrorFunction → ErrorFunction) : MultiposeFunction :=
  let a := lastEnabled M.np ps
  { M with
    actualParameters :=
      if a > 0 then
        if M.flag a then M.generic.length * M.nFrames + M.indexMap a + 1
        else M.generic.length * (M.nFrames - 1) + M.indexMap a + 1
      else a
    frameErrors := fun f => if f < M.nFrames then (M.frameErrors f).map active else M.frameErrors f }

/-- multipose_solver_function.cpp:88-96 `setFrameParameters`; `none` if the check fails. -/
def setFrameParameters (M : MultiposeFunction) (frame : Nat) (p : Nat → ℝ) : Option MultiposeFunction :=
  if frame < M.nFrames then some { M with frames := Function.update M.frames frame p } else none

/-- multipose_solver_function.cpp:98-101 `getUniversalParameters`; `none` if there is no frame. -/
def getUniversalParameters (M : MultiposeFunction) : Option (Nat → ℝ) :=
  if M.nFrames = 0 then none else some fun i => M.frames 0 i * if M.flag i then 1 else 0

/-- multipose_solver_function.cpp:103-120 `getJoinedParameterVector`; the vector is made without initialisation, `init` is what
it contains. -/
def joined (M : MultiposeFunction) (init : Nat → ℝ) : Nat → ℝ :=
  (List.range M.nFrames).foldl (fun res f =>
    (List.range M.np).foldl (fun res i => Function.update res (M.slot f i) (M.frames f i)) res) init

/-- multipose_solver_function.cpp:128-141 `setFrameParametersFromJoinedParameterVector`, `setJoinedParameterVector`. -/
def setJoined (M : MultiposeFunction) (v : Nat → ℝ) : MultiposeFunction :=
  { M with frames := fun f =>
      if f < M.nFrames then (List.range M.np).foldl (fun p i => Function.update p i (v (M.slot f i))) (M.frames f)
      else M.frames f }

/-- `res.set(i)` of a parameter set with `kMaxModelParams` places: throws if there is no such place. -/
def setPlace (s : Option (Nat → Bool)) (i : Nat) : Option (Nat → Bool) :=
  s.bind fun s => if i < kMaxModelParams then some (Function.update s i true) else none

/-- multipose_solver_function.cpp:143-153 `getUniversalParameterSet`; `none` if it throws. -/
def getUniversalParameterSet (M : MultiposeFunction) : Option (Nat → Bool) :=
  (List.range M.universal.length).foldl (fun s i => setPlace s (M.generic.length * M.nFrames + i)) (some fun _ => false)

/-- multipose_solver_function.cpp:155-170 `getUniversalLocatorParameterSet`; `locator i` says that the name of parameter `i` starts
with an underscore. -/
def getUniversalLocatorParameterSet (M : MultiposeFunction) (locator : Nat → Bool) : Option (Nat → Bool) :=
  ((List.range M.np).foldl (fun (s : Option (Nat → Bool) × Nat) i =>
    if M.flag i then
      ((if locator i then setPlace s.1 (M.generic.length * M.nFrames + s.2) else s.1), s.2 + 1)
    else s) (some fun _ => false, 0)).1

/-- multipose_solver_function.cpp:172-198 `getError`. -/
noncomputable def getError (M : MultiposeFunction) (v : Nat → ℝ) : ℝ × MultiposeFunction :=
  let M := M.setJoined v
  ((List.range M.nFrames).foldl (fun e f => (weighted (M.frameErrors f)).foldl (fun e F => e + F.getError (M.frames f)) e) 0, M)

/-- multipose_solver_function.cpp:219-232: the error functions of frame `f`, whose gradients are added up and then distributed. -/
noncomputable def gradFrame (M : MultiposeFunction) (s : ℝ × (Nat → ℝ)) (f : Nat) : ℝ × (Nat → ℝ) :=
  let g := (weighted (M.frameErrors f)).foldl (fun (g : ℝ × (Nat → ℝ)) F =>
    (g.1 + (F.getGradient (M.frames f)).1, fun i => g.2 i + (F.getGradient (M.frames f)).2 i)) (s.1, fun _ => 0)
  (g.1, (List.range M.np).foldl (fun grad i => Function.update grad (M.slot f i) (grad (M.slot f i) + g.2 i)) s.2)

/-- multipose_solver_function.cpp:200-236 `getGradient`. -/
noncomputable def getGradient (M : MultiposeFunction) (v : Nat → ℝ) : ℝ × (Nat → ℝ) × MultiposeFunction :=
  let M := M.setJoined v
  let s := (List.range M.nFrames).foldl M.gradFrame (0, fun _ => 0)
  (s.1, s.2, M)

/-- multipose_solver_function.cpp:262-282 `jacobianSize`. -/
noncomputable def jacobianSize (M : MultiposeFunction) : Nat :=
  padForSSE ((List.range M.nFrames).foldl (fun n f => (weighted (M.frameErrors f)).foldl (fun n F => n + F.jacobianSize) n) 0)

/-- The error, `position`, `localPosition`, the residual and the temporary Jacobian of a frame. -/
structure FrameFill where
  error : ℝ
  position : Nat
  localPosition : Nat
  residual : Nat → ℝ
  temp : Nat → Nat → ℝ

/-- multipose_solver_function.cpp:309-321: one error function of frame `f`.  The block of the temporary Jacobian always fits into
it. -/
noncomputable def jacTermStep (M : MultiposeFunction) (f : Nat) (s : FrameFill) (F : ErrorFunction) : FrameFill :=
  let r := F.getJacobian (M.frames f)
  { error := s.error + r.error
    position := s.position + F.jacobianSize
    localPosition := s.localPosition + F.jacobianSize
    residual := fun t => if s.position ≤ t ∧ t < s.position + r.rows then r.residual (t - s.position) else s.residual t
    temp := fun j t =>
      if s.localPosition ≤ t ∧ t < s.localPosition + r.rows then r.e j (t - s.localPosition) else s.temp j t }

/-- multipose_solver_function.cpp:297-345: frame `f`. -/
noncomputable def jacFrame (M : MultiposeFunction) (s : SequenceFunction.Fill) (f : Nat) : SequenceFunction.Fill :=
  let w := (weighted (M.frameErrors f)).foldl (M.jacTermStep f) ⟨s.error, s.position, 0, s.residual, fun _ _ => 0⟩
  { error := w.error
    position := w.position
    residual := w.residual
    e := (List.range M.np).foldl (fun e i =>
      SequenceFunction.setColumn s.position w.localPosition e (M.slot f i) (w.temp i)) s.e }

/-- multipose_solver_function.cpp:284-289: the matrices are made anew and zero if they have too few rows or another number of
columns.  Otherwise they keep what they contain. -/
noncomputable def resizeBuffers (M : MultiposeFunction) (b : SequenceFunction.Buffers) : SequenceFunction.Buffers :=
  if M.jacobianSize > b.rows ∨ M.numParameters ≠ b.cols then ⟨M.jacobianSize, M.numParameters, fun _ _ => 0, fun _ => 0⟩ else b

/-- multipose_solver_function.cpp:238-349 `getJacobian`.  The result has `actualRows` and the matrices that were passed in as they
are afterwards. -/
noncomputable def getJacobian (M : MultiposeFunction) (v : Nat → ℝ) (b : SequenceFunction.Buffers) :
    ℝ × Nat × SequenceFunction.Buffers × MultiposeFunction :=
  let M := M.setJoined v
  let b := M.resizeBuffers b
  let s := (List.range M.nFrames).foldl M.jacFrame ⟨0, 0, b.e, b.residual⟩
  (s.error, M.jacobianSize, ⟨b.rows, b.cols, s.e, s.residual⟩, M)

/-- multipose_solver_function.cpp:364-370 `addErrorFunction`; `none` if the check fails. -/
def addErrorFunction (M : MultiposeFunction) (frame : Nat) (F : ErrorFunction) : Option MultiposeFunction :=
  if frame < M.nFrames then some { M with frameErrors := Function.update M.frameErrors frame (M.frameErrors frame ++ [F]) }
  else none

end MultiposeFunction

/-- multipose_solver.h:35-61, the members that matter. -/
structure MultiposeSolver where
  regularization : ℝ
  parameters : Nat → ℝ
  fn : MultiposeFunction

/-- multipose_solver.cpp:71-91: one error function of frame `f`.  `tol` is that of `BlockQr.add`. -/
noncomputable def MultiposeFunction.solveTerm (tol : ℝ) (M : MultiposeFunction) (f : Nat) (s : BlockQr × ℝ) (F : ErrorFunction) :
    Option (BlockQr × ℝ) := do
  let r := F.getJacobian (M.frames f)
  let rows := padForSSE F.jacobianSize
  let e : Nat → Nat → ℝ := fun j t => if t < r.rows then r.e j t else 0
  let q ← s.1.add tol f ⟨rows, M.np, e, true, M.generic⟩ ⟨rows, M.np, e, true, M.universal⟩ rows
    fun t => if t < r.rows then r.residual t else 0
  some (q, s.2 + r.error)

/-- multipose_solver.cpp:60-93: the system and the error. -/
noncomputable def MultiposeSolver.assemble (tol : ℝ) (s : MultiposeSolver) : Option (BlockQr × ℝ) :=
  let M := s.fn.setJoined s.parameters
  (List.range M.nFrames).foldlM (fun p f => (weighted (M.frameErrors f)).foldlM (M.solveTerm tol f) p)
    (BlockQr.start M.universal.length (Real.sqrt s.regularization), 0)

open Classical in
/-- multipose_solver.cpp:46-99 `doIteration`.  The solver afterwards and `error_`.  `none` if a size check fails, in `x_dense`
or in `updateParameters` (multipose_solver_function.cpp:351-362), which needs as many entries as there are parameters. -/
noncomputable def MultiposeSolver.doIteration (tol : ℝ) (s : MultiposeSolver) : Option (MultiposeSolver × ℝ) := do
  let q ← s.assemble tol
  if ¬ q.1.NoGap then none
  else if q.1.off q.1.nBlocks + q.1.nCommon ≠ s.fn.numParameters then none
  else
    let p : Nat → ℝ := fun j => s.parameters j - q.1.xDense j
    some ({ s with parameters := p, fn := (s.fn.setJoined s.parameters).setJoined p }, q.2)

end Momentum
