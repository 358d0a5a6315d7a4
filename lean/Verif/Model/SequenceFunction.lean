import Verif.Model.Solver

/-!
# The objective of a sequence: momentum/character_sequence_solver/sequence_solver_function.cpp

Some of the model parameters are universal: they have one value for all frames.  The others have a value in every frame.  The
solver sees one joined vector of the enabled ones.

As in `Verif.Model.Solver` vectors are functions on indices with their sizes carried separately, matrices are stored by
columns, and numbers are real.  The loops over frames that run in parallel (`dispenso::parallel_for`) write only to the entries
of their own frame; they are modelled frame by frame.  The checks of the sizes of vectors always hold here.
-/

namespace Momentum

/-- sequence_error_function.h:17-85 `SequenceErrorFunctionT`: an error function of the parameters of `numFrames` consecutive
frames.  Gradient and Jacobian have `np` entries or columns per frame, one frame after the other.  The skeleton states are
functions of the parameters.  `getJacobian` reports the rows it used and writes no others; it is given a matrix of zeros. -/
structure SeqErrorFunction where
  weight : ℝ
  numFrames : Nat
  jacobianSize : Nat
  getError : (Nat → Nat → ℝ) → ℝ
  getGradient : (Nat → Nat → ℝ) → ℝ × (Nat → ℝ)
  getJacobian : (Nat → Nat → ℝ) → JacobianResult

/-- `gsl::make_span(frameParameters_).subspan(f, n)`. -/
def subspan (frames : Nat → Nat → ℝ) (f n : Nat) : Nat → Nat → ℝ := fun k i => if k < n then frames (f + k) i else 0

open Classical in
/-- The sequence error functions the solver looks at (`getWeight() <= 0` is skipped). -/
noncomputable def weightedSeq (fs : List SeqErrorFunction) : List SeqErrorFunction := fs.filter fun f => 0 < f.weight

/-- sequence_solver_function.h:22-108 `SequenceSolverFunctionT`.  `np` is `numAllModelParameters()`, `nFrames` the size of
`states_`. -/
structure SequenceFunction where
  np : Nat
  nFrames : Nat
  universalParameters : Nat → Bool
  /-- `perFrameParameterIndices_`. -/
  perFrame : List Nat
  /-- `universalParameterIndices_`. -/
  universal : List Nat
  /-- `frameParameters_`. -/
  frames : Nat → Nat → ℝ
  /-- `perFrameErrorFunctions_`. -/
  frameErrors : Nat → List ErrorFunction
  /-- `sequenceErrorFunctions_`. -/
  sequenceErrors : Nat → List SeqErrorFunction

namespace SequenceFunction

/-- sequence_solver_function.cpp:72-82: the loop of `updateParameterSets`. -/
def setsStep (universalParameters active : Nat → Bool) (s : List Nat × List Nat) (i : Nat) : List Nat × List Nat :=
  if active i then if universalParameters i then (s.1, s.2 ++ [i]) else (s.1 ++ [i], s.2) else s

/-- sequence_solver_function.cpp:62-87 `updateParameterSets`. -/
def updateParameterSets (S : SequenceFunction) (active : Nat → Bool) : SequenceFunction :=
  let s := (List.range S.np).foldl (setsStep S.universalParameters active) ([], [])
  { S with perFrame := s.1, universal := s.2 }

/-- sequence_solver_function.cpp:84-86 `numParameters_`, `actualParameters_`. -/
def numParameters (S : SequenceFunction) : Nat := S.perFrame.length * S.nFrames + S.universal.length

/-- sequence_solver_function.cpp:25-39, the constructor. -/
def make (np : Nat) (universal : Nat → Bool) (nFrames : Nat) : SequenceFunction :=
  updateParameterSets ⟨np, nFrames, universal, [], [], fun _ _ => 0, fun _ => [], fun _ => []⟩ fun _ => true

/-- sequence_solver_function.cpp:41-60 `setEnabledParameters`.  `active` and `activeSeq` are `setActiveJoints` of the error
functions with the joint parameters that belong to `ps`. -/
def setEnabledParameters (S : SequenceFunction) (ps : Nat → Bool) (active : ErrorFunction → ErrorFunction)
    (activeSeq : SeqErrorFunction → SeqErrorFunction) : SequenceFunction :=
  let S := S.updateParameterSets ps
  { S with frameErrors := fun f => (S.frameErrors f).map active, sequenceErrors := fun f => (S.sequenceErrors f).map activeSeq }

/-- sequence_solver_function.cpp:89-97 `setFrameParameters`; `none` if the check fails. -/
def setFrameParameters (S : SequenceFunction) (frame : Nat) (p : Nat → ℝ) : Option SequenceFunction :=
  if frame < S.nFrames then some { S with frames := Function.update S.frames frame p } else none

/-- sequence_solver_function.cpp:99-109 `getUniversalParameters`; `none` if there is no frame. -/
def getUniversalParameters (S : SequenceFunction) : Option (Nat → ℝ) :=
  if S.nFrames = 0 ∧ (List.range S.np).any S.universalParameters then none
  else some fun i => if i < S.np ∧ S.universalParameters i = true then S.frames 0 i else 0

/-- sequence_solver_function.cpp:122-125. -/
def joinFrame (perFrame : List Nat) (p : Nat → ℝ) (f : Nat) (res : Nat → ℝ) : Nat → ℝ :=
  (List.range perFrame.length).foldl (fun res k => Function.update res (perFrame.length * f + k) (p (perFrame.getD k 0))) res

/-- sequence_solver_function.cpp:111-135 `getJoinedParameterVectorFromFrameParameters`; `none` if the first of no frames is
read. -/
def joined (S : SequenceFunction) (frames : Nat → Nat → ℝ) : Option (Nat → ℝ) :=
  let res := (List.range S.nFrames).foldl (fun res f => joinFrame S.perFrame (frames f) f res) fun _ => 0
  if S.nFrames = 0 ∧ S.universal ≠ [] then none
  else some ((List.range S.universal.length).foldl (fun res k =>
    Function.update res (S.perFrame.length * S.nFrames + k) (frames 0 (S.universal.getD k 0))) res)

/-- sequence_solver_function.cpp:137-140 `getJoinedParameterVector`. -/
def getJoinedParameterVector (S : SequenceFunction) : Option (Nat → ℝ) := S.joined S.frames

/-- sequence_solver_function.cpp:154-162: what happens to the parameters `p` of frame `f`. -/
def setFrame (S : SequenceFunction) (v : Nat → ℝ) (f : Nat) (p : Nat → ℝ) : Nat → ℝ :=
  let p := (List.range S.perFrame.length).foldl (fun p k =>
    Function.update p (S.perFrame.getD k 0) (v (S.perFrame.length * f + k))) p
  (List.range S.universal.length).foldl (fun p k =>
    Function.update p (S.universal.getD k 0) (v (S.perFrame.length * S.nFrames + k))) p

/-- sequence_solver_function.cpp:142-164 `setJoinedParameterVector`, `setFrameParametersFromJoinedParameterVector`. -/
def setJoined (S : SequenceFunction) (v : Nat → ℝ) : SequenceFunction :=
  { S with frames := fun f => if f < S.nFrames then S.setFrame v f (S.frames f) else S.frames f }

/-- sequence_solver_function.cpp:180-203: `perFrameErrors[f]`. -/
noncomputable def frameError (S : SequenceFunction) (f : Nat) : ℝ :=
  (weightedSeq (S.sequenceErrors f)).foldl (fun e F => e + F.getError (subspan S.frames f F.numFrames))
    ((weighted (S.frameErrors f)).foldl (fun e F => e + F.getError (S.frames f)) 0)

/-- sequence_solver_function.cpp:166-206 `getError`. -/
noncomputable def getError (S : SequenceFunction) (v : Nat → ℝ) : ℝ × SequenceFunction :=
  let S := S.setJoined v
  ((List.range S.nFrames).foldl (fun e f => e + S.frameError f) 0, S)

/-- Add to the segment of a vector with `n` entries from `start`. -/
def addSegment (start n : Nat) (g v : Nat → ℝ) : Nat → ℝ := fun j =>
  if start ≤ j ∧ j < start + n then v j + g (j - start) else v j

/-- sequence_solver_function.cpp:228-235: the error functions of frame `f`. -/
noncomputable def gradFrame (S : SequenceFunction) (s : ℝ × (Nat → ℝ)) (f : Nat) : ℝ × (Nat → ℝ) :=
  (weighted (S.frameErrors f)).foldl (fun s F => (s.1 + (F.getGradient (S.frames f)).1,
    addSegment (f * S.np) S.np (F.getGradient (S.frames f)).2 s.2)) s

/-- sequence_solver_function.cpp:237-249: the sequence error functions that start at frame `f`. -/
noncomputable def gradSeq (S : SequenceFunction) (s : ℝ × (Nat → ℝ)) (f : Nat) : ℝ × (Nat → ℝ) :=
  (weightedSeq (S.sequenceErrors f)).foldl (fun s F => (s.1 + (F.getGradient (subspan S.frames f F.numFrames)).1,
    addSegment (f * S.np) (F.numFrames * S.np) (F.getGradient (subspan S.frames f F.numFrames)).2 s.2)) s

/-- sequence_solver_function.cpp:252-265: the gradient of frame `f` is added to the joined gradient. -/
def gatherFrame (S : SequenceFunction) (full gradient : Nat → ℝ) (f : Nat) : Nat → ℝ :=
  let gradient := (List.range S.perFrame.length).foldl (fun g k =>
    Function.update g (S.perFrame.length * f + k) (g (S.perFrame.length * f + k) + full (f * S.np + S.perFrame.getD k 0)))
    gradient
  (List.range S.universal.length).foldl (fun g k =>
    Function.update g (S.perFrame.length * S.nFrames + k)
      (g (S.perFrame.length * S.nFrames + k) + full (f * S.np + S.universal.getD k 0))) gradient

/-- sequence_solver_function.cpp:208-268 `getGradient`. -/
noncomputable def getGradient (S : SequenceFunction) (v : Nat → ℝ) : ℝ × (Nat → ℝ) × SequenceFunction :=
  let S := S.setJoined v
  let s := (List.range S.nFrames).foldl S.gradFrame (0, fun _ => 0)
  let s := (List.range S.nFrames).foldl S.gradSeq s
  (s.1, (List.range S.nFrames).foldl (S.gatherFrame s.2) (fun _ => 0), S)

/-- The matrices that are passed to `getJacobian` and filled there. -/
structure Buffers where
  rows : Nat
  cols : Nat
  e : Nat → Nat → ℝ
  residual : Nat → ℝ

/-- sequence_solver_function.cpp:295-315 `jacobianSize`. -/
noncomputable def jacobianSize (S : SequenceFunction) : Nat :=
  (List.range S.nFrames).foldl (fun n f => (weightedSeq (S.sequenceErrors f)).foldl (fun n F => n + F.jacobianSize)
    ((weighted (S.frameErrors f)).foldl (fun n F => n + F.jacobianSize) n)) 0

/-- sequence_solver_function.cpp:317-324: the matrices are made anew and zero if they have too few rows or another number of
columns.  Otherwise they keep what they contain. -/
noncomputable def resizeBuffers (S : SequenceFunction) (b : Buffers) : Buffers :=
  if b.rows < S.jacobianSize ∨ S.numParameters ≠ b.cols then ⟨S.jacobianSize, S.numParameters, fun _ _ => 0, fun _ => 0⟩ else b

/-- The accumulated error, the position and the matrices. -/
structure Fill where
  error : ℝ
  position : Nat
  e : Nat → Nat → ℝ
  residual : Nat → ℝ

/-- `m.block(position, j, rows, 1) = c.block(0, ·, rows, 1)` for column `j`. -/
def setColumn (position rows : Nat) (e : Nat → Nat → ℝ) (j : Nat) (c : Nat → ℝ) : Nat → Nat → ℝ :=
  Function.update e j fun t => if position ≤ t ∧ t < position + rows then c (t - position) else e j t

/-- `m.block(position, j, rows, 1) += c.block(0, ·, rows, 1)` for column `j`. -/
def addColumn (position rows : Nat) (e : Nat → Nat → ℝ) (j : Nat) (c : Nat → ℝ) : Nat → Nat → ℝ :=
  Function.update e j fun t => if position ≤ t ∧ t < position + rows then e j t + c (t - position) else e j t

/-- sequence_solver_function.cpp:334-362: one error function of frame `f`. -/
noncomputable def jacFrameStep (S : SequenceFunction) (f : Nat) (s : Fill) (F : ErrorFunction) : Fill :=
  let r := F.getJacobian (S.frames f)
  let e := (List.range S.perFrame.length).foldl (fun e k =>
    setColumn s.position r.rows e (S.perFrame.length * f + k) (r.e (S.perFrame.getD k 0))) s.e
  let e := (List.range S.universal.length).foldl (fun e k =>
    setColumn s.position r.rows e (S.perFrame.length * S.nFrames + k) (r.e (S.universal.getD k 0))) e
  { error := s.error + r.error
    position := s.position + r.rows
    e := e
    residual := fun t =>
      if s.position ≤ t ∧ t < s.position + r.rows then r.residual (t - s.position) else s.residual t }

/-- sequence_solver_function.cpp:383-395: the columns for frame `k` of a sequence error function that starts at frame `f`. -/
noncomputable def jacSubframe (S : SequenceFunction) (f position : Nat) (r : JacobianResult) (e : Nat → Nat → ℝ) (k : Nat) :
    Nat → Nat → ℝ :=
  let e := (List.range S.perFrame.length).foldl (fun e q =>
    setColumn position r.rows e (S.perFrame.length * (f + k) + q) (r.e (k * S.np + S.perFrame.getD q 0))) e
  (List.range S.universal.length).foldl (fun e q =>
    addColumn position r.rows e (S.perFrame.length * S.nFrames + q) (r.e (k * S.np + S.universal.getD q 0))) e

/-- sequence_solver_function.cpp:366-398: one sequence error function that starts at frame `f`. -/
noncomputable def jacSeqStep (S : SequenceFunction) (f : Nat) (s : Fill) (F : SeqErrorFunction) : Fill :=
  let r := F.getJacobian (subspan S.frames f F.numFrames)
  { error := s.error + r.error
    position := s.position + r.rows
    e := (List.range F.numFrames).foldl (S.jacSubframe f s.position r) s.e
    residual := fun t =>
      if s.position ≤ t ∧ t < s.position + r.rows then r.residual (t - s.position) else s.residual t }

/-- sequence_solver_function.cpp:270-401 `getJacobian`.  The result has the matrices that were passed in as they are
afterwards, and `actualRows`. -/
noncomputable def getJacobian (S : SequenceFunction) (v : Nat → ℝ) (b : Buffers) : ℝ × Nat × Buffers × SequenceFunction :=
  let S := S.setJoined v
  let b := S.resizeBuffers b
  let s := (List.range S.nFrames).foldl (fun s f => (weighted (S.frameErrors f)).foldl (S.jacFrameStep f) s)
    (⟨0, 0, b.e, b.residual⟩ : Fill)
  let s := (List.range S.nFrames).foldl (fun s f => (weightedSeq (S.sequenceErrors f)).foldl (S.jacSeqStep f) s) s
  (s.error, S.jacobianSize, ⟨b.rows, b.cols, s.e, s.residual⟩, S)

/-- sequence_solver_function.cpp:417-430 `addErrorFunction` for one frame; `none` if the check fails. -/
def addErrorFunction (S : SequenceFunction) (frame : Nat) (F : ErrorFunction) : Option SequenceFunction :=
  if frame < S.nFrames then some { S with frameErrors := Function.update S.frameErrors frame (S.frameErrors frame ++ [F]) }
  else none

/-- sequence_solver_function.cpp:421-424 `addErrorFunction(kAllFrames, …)`. -/
def addErrorFunctionAll (S : SequenceFunction) (F : ErrorFunction) : Option SequenceFunction :=
  (List.range S.nFrames).foldlM (fun S f => S.addErrorFunction f F) S

/-- sequence_solver_function.cpp:432-449 `addSequenceErrorFunction` for one frame; `none` if a check fails. -/
def addSequenceErrorFunction (S : SequenceFunction) (frame : Nat) (F : SeqErrorFunction) : Option SequenceFunction :=
  if frame < S.nFrames ∧ frame + F.numFrames ≤ S.nFrames then
    some { S with sequenceErrors := Function.update S.sequenceErrors frame (S.sequenceErrors frame ++ [F]) }
  else none

/-- sequence_solver_function.cpp:436-442 `addSequenceErrorFunction(kAllFrames, …)`. -/
def addSequenceErrorFunctionAll (S : SequenceFunction) (F : SeqErrorFunction) : Option SequenceFunction :=
  if F.numFrames ≤ S.nFrames then
    (List.range (S.nFrames - F.numFrames + 1)).foldlM (fun S f => S.addSequenceErrorFunction f F) S
  else some S

end SequenceFunction
end Momentum
