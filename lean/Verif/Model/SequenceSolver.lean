import Verif.Model.SequenceFunction
import Verif.Model.SequencePipeline

/-!
# An iteration of the sequence solver: momentum/character_sequence_solver/sequence_solver.cpp

As in `Verif.Model.Solver` vectors are functions on indices, matrices are stored by columns, numbers are real.  The progress
bar, profiling and the sums of the numbers of functions it is given are left out.
-/

namespace Momentum

/-- sequence_solver.cpp:78-81 `padForSSE`. -/
def padForSSE (value : Nat) : Nat := value + 8 - value % 8

namespace SequenceFunction

/-- sequence_solver.cpp:61-74 `initializeSolver`: the bandwidth in frames. -/
def bandwidth (S : SequenceFunction) : Nat :=
  (List.range S.nFrames).foldl (fun b f => (S.sequenceErrors f).foldl (fun b F => max b F.numFrames) b) 1

/-- sequence_solver.cpp:83-93 `computeJacobianSize` of the error functions of a frame. -/
noncomputable def frameRows (S : SequenceFunction) (f : Nat) : Nat :=
  (weighted (S.frameErrors f)).foldl (fun n F => n + F.jacobianSize) 0

/-- sequence_solver.cpp:83-93 `computeJacobianSize` of the sequence error functions of a frame. -/
noncomputable def seqRows (S : SequenceFunction) (f : Nat) : Nat :=
  (weightedSeq (S.sequenceErrors f)).foldl (fun n F => n + F.jacobianSize) 0

/-- The block `(offset, 0)` of the Jacobian with `cols` columns and the rows from `offset` of the residual are given to
`getJacobian`, which reports the rows it used. -/
def putBlock (cols : Nat) (s : Fill) (r : JacobianResult) : Fill where
  error := s.error + r.error
  position := s.position + r.rows
  e := fun j t => if j < cols ∧ s.position ≤ t ∧ t < s.position + r.rows then r.e j (t - s.position) else s.e j t
  residual := fun t => if s.position ≤ t ∧ t < s.position + r.rows then r.residual (t - s.position) else s.residual t

/-- sequence_solver.cpp:113-131: one error function of frame `f`.  `none` if the block does not fit into the matrix. -/
def perFrameStep (S : SequenceFunction) (f size : Nat) (s : Fill) (F : ErrorFunction) : Option Fill :=
  if s.position + F.jacobianSize ≤ size then some (putBlock S.np s (F.getJacobian (S.frames f))) else none

/-- sequence_solver.cpp:97-138 `computePerFrameJacobian`.  The skeleton state is a function of the parameters. -/
noncomputable def perFrameJacobian (S : SequenceFunction) (f : Nat) : Option Fill :=
  (weighted (S.frameErrors f)).foldlM (S.perFrameStep f (padForSSE (S.frameRows f))) ⟨0, 0, fun _ _ => 0, fun _ => 0⟩

/-- sequence_solver.cpp:150-171: one sequence error function that starts at frame `f`.  `none` if it looks at more than `bwCur`
frames or the block does not fit. -/
def sequenceStep (S : SequenceFunction) (f bwCur size : Nat) (s : Fill) (F : SeqErrorFunction) : Option Fill :=
  if F.numFrames ≤ bwCur ∧ s.position + F.jacobianSize ≤ size then
    some (putBlock (F.numFrames * S.np) s (F.getJacobian (subspan S.frames f F.numFrames)))
  else none

/-- sequence_solver.cpp:176-179: the columns of universal parameter `u` for the later frames are added to that of the first. -/
def mergeColumn (np bwCur : Nat) (e : Nat → Nat → ℝ) (u : Nat) : Nat → Nat → ℝ :=
  (List.range' 1 (bwCur - 1)).foldl (fun e k => Function.update e u fun t => e u t + e (k * np + u) t) e

/-- sequence_solver.cpp:140-188 `computeSequenceJacobian`. -/
noncomputable def sequenceJacobian (S : SequenceFunction) (f bw : Nat) : Option Fill := do
  let bwCur := min (S.nFrames - f) bw
  let s ← (weightedSeq (S.sequenceErrors f)).foldlM (S.sequenceStep f bwCur (padForSSE (S.seqRows f)))
    ⟨0, 0, fun _ _ => 0, fun _ => 0⟩
  some { s with e := S.universal.foldl (mergeColumn S.np bwCur) s.e }

/-- sequence_solver.cpp:192-206 `buildSequenceColumnIndices`. -/
def sequenceColumns (S : SequenceFunction) (bw : Nat) : List Nat :=
  (List.range bw).flatMap fun k => S.perFrame.map (· + k * S.np)

/-- The Jacobians of all frames, as `processPerFrameErrors_serial` and `_parallel` use them. -/
noncomputable def blocks (S : SequenceFunction) : Option (SequenceBlocks ℝ) := do
  let l ← (List.range S.nFrames).mapM S.perFrameJacobian
  some { nFrames := S.nFrames
         perFrame := S.perFrame
         universal := S.universal
         np := S.np
         rows := fun f => padForSSE (S.frameRows f)
         jacobian := fun f => (l[f]?.map Fill.e).getD fun _ _ => 0
         residual := fun f => (l[f]?.map Fill.residual).getD fun _ => 0
         error := fun f => (l[f]?.map Fill.error).getD 0 }

/-- sequence_solver.cpp:417-440: one pass of the loop of `processSequenceErrors_serial`.  The test that the Jacobian has rows is
left out: it has at least eight. -/
noncomputable def sequencePassStep (S : SequenceFunction) (bw : Nat) (p : BandQr × ℝ) (f : Nat) : Option (BandQr × ℝ) := do
  let bwCur := min (S.nFrames - f) bw
  let J ← S.sequenceJacobian f bw
  let q ← p.1.add (f * S.perFrame.length)
    ⟨padForSSE (S.seqRows f), bwCur * S.np, J.e, true, (S.sequenceColumns bw).take (bwCur * S.perFrame.length)⟩
    ⟨padForSSE (S.seqRows f), bwCur * S.np, J.e, true, S.universal⟩ (padForSSE (S.seqRows f)) J.residual
  some (q, p.2 + J.error)

/-- sequence_solver.cpp:401-443 `processSequenceErrors_serial`.  `none` also for the division by zero. -/
noncomputable def sequencePass (S : SequenceFunction) (qr : BandQr) : Option (BandQr × ℝ) :=
  if ∀ f < S.nFrames, S.sequenceErrors f = [] then some (qr, 0)
  else if S.perFrame.length = 0 ∨ qr.bw % S.perFrame.length ≠ 0 then none
  else (List.range S.nFrames).foldlM (S.sequencePassStep (qr.bw / S.perFrame.length)) (qr, 0)

/-- `SequenceSolverFunctionT` as a solver function; its private state is the parameters of the frames.  (`getJacobian` gets new
matrices each time; the sequence solver does not call it.)
sequence_solver_function.cpp:403-415 `updateParameters`. -/
noncomputable def solverFunction : SolverFunction SequenceFunction where
  getError S v := S.getError v
  getGradient S v := S.getGradient v
  getJacobian S v :=
    let r := S.getJacobian v ⟨0, 0, fun _ _ => 0, fun _ => 0⟩
    (⟨r.1, r.2.1, r.2.2.1.e, r.2.2.1.residual⟩, r.2.2.2)
  afterUpdate S v := S.setJoined v
  setEnabled S ps := S.setEnabledParameters ps id id
  actualParameters S := S.numParameters

end SequenceFunction

/-- sequence_solver.h:60-150, the members that matter. -/
structure SequenceSolver where
  regularization : ℝ
  doLineSearch : Bool
  bandwidth : Nat
  parameters : Nat → ℝ
  fn : SequenceFunction

/-- How the pass over the frames is carried out: `none` one after the other, or by tasks under a schedule. -/
abbrev FramePass := Option (List (Nat × Nat) × List (Nat × Bool))

/-- sequence_solver.cpp:465-474, the first of the two summands. -/
noncomputable def SequenceBlocks.pass (Q : SequenceBlocks ℝ) (mode : FramePass) (qr : BandQr) : Option (BandQr × ℝ) :=
  match mode with
  | none => Q.serial qr
  | some (tasks, schedule) => Q.parallel tasks schedule qr

/-- sequence_solver.cpp:445-474: the system that is solved, and the error. -/
noncomputable def SequenceSolver.assemble (s : SequenceSolver) (mode : FramePass) : Option (BandQr × ℝ) := do
  let qr ← BandQr.start (s.fn.nFrames * s.fn.perFrame.length) s.fn.universal.length (s.bandwidth * s.fn.perFrame.length)
    (Real.sqrt s.regularization)
  let fn := s.fn.setJoined s.parameters
  let p ← (← fn.blocks).pass mode qr
  let q ← fn.sequencePass p.1
  some (q.1, 0 + p.2 + q.2)

/-- sequence_solver.cpp:445-504 `doIteration`.  The solver afterwards and `error_`. -/
noncomputable def SequenceSolver.doIteration (s : SequenceSolver) (mode : FramePass) : Option (SequenceSolver × ℝ) := do
  let q ← s.assemble mode
  let fn := s.fn.setJoined s.parameters
  let searchDir ← q.1.xDense
  if s.doLineSearch then
    let atb ← q.1.atTimesB
    let innerProd := -∑ i ∈ Finset.range (q.1.nBand + q.1.nCommon), atb i * searchDir i
    let l := lineSearch SequenceFunction.solverFunction (fun alpha e => (1 / 10000) * alpha * -innerProd ≤ q.2 - e)
      s.parameters searchDir fn
    some ({ s with parameters := l.1, fn := l.2 }, q.2)
  else
    let u := SequenceFunction.solverFunction.updateParameters fn s.parameters searchDir
    some ({ s with parameters := u.1, fn := u.2 }, q.2)

end Momentum
