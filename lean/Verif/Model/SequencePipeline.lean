import Verif.Model.BandedQr

/-!
# The parallel pipeline of the sequence solver

momentum/character_sequence_solver/sequence_solver.{h,cpp}: `processErrorFunctions_parallel`.

One task per range of frames.  A task computes the Jacobian of each of its frames and folds the part of the parameters of that
frame into the shared solver, at the same time as all other tasks.  What is left, the part of the universal parameters, goes
into a buffer and is folded into the solver in the order of the frames, by whichever task holds the solver's mutex.

The model is a transition system: every task has a program counter, one step of one task happens at a time, and a schedule is a
list of the tasks that take the next step.  Locks are explicit; a task that waits for a mutex that is held cannot take a step.
The folding of a block into the solver is not one step: it goes column by column, and other tasks may run between two columns.
One column is one step; that no other task touches what that step reads and writes is proved, so a finer interleaving makes no
difference.  Memory is sequentially consistent.  Numbers are abstract here (`K` needs only an addition and a zero, without any
laws) so that what is proved holds of floating point numbers too.

`dispenso::parallel_for` is trusted to call the task for ranges that cover each frame once, in any number and order, each on
its own thread or one after the other, and to return when all calls have returned.  The progress bar is not modelled.
-/

namespace Momentum

/-- What the pipeline does with the frames: sequence_solver.h:112-116 `processJac` and
online_householder_qr.cpp:536-566 `addMutating(A_common, b)`, column by column.  `S` is the shared solver, `L` the matrices a
call of `processJac` works on, `R` the Jacobian and residual it returns. -/
structure FrameJobs (S L R K : Type) where
  nFrames : Nat
  /-- sequence_solver.cpp:96-138 `computePerFrameJacobian`: the Jacobian and residual of a frame.  They depend on the parameters of the frame, which
  nobody writes here, and on the state of its skeleton, which no other frame uses. -/
  start : Nat → L
  /-- The number of columns of `zeroBandedPart`. -/
  steps : Nat → Nat
  /-- One column of `zeroBandedPart`; `none` is a failed check. -/
  step : Nat → Nat → S → L → Option (S × L)
  /-- What is kept for the last stage. -/
  result : Nat → L → R
  error : Nat → K
  /-- The number of columns of `addMutating(A_common, b)`. -/
  addSteps : Nat
  /-- One column of it. -/
  addStep : Nat → S → R → Option (S × R)

/-- sequence_solver.h:94-108 `UniversalJacobianResid`. -/
structure PipeItem (R K : Type) where
  frame : Nat
  rest : R
  error : K

/-- Where a task is in the code of sequence_solver.cpp:281-329. -/
inductive PipePc (L R K : Type) where
  /-- 283: about to test `iFrame < rangeEnd`. -/
  | head (i : Nat)
  /-- 289: inside `processJac(i)`, `k` columns done. -/
  | work (i k : Nat) (l : L)
  /-- 292: waiting for `reorderBufferMutex`. -/
  | pushWait (i : Nat) (r : PipeItem R K)
  /-- 293: about to push; holds `reorderBufferMutex`. -/
  | push (i : Nat) (r : PipeItem R K)
  /-- 297: about to look at the top of the buffer; holds `reorderBufferMutex`. -/
  | scan (i : Nat)
  /-- 299: waiting for `readyJacobiansMutex`; holds `reorderBufferMutex`. -/
  | readyWait (i : Nat)
  /-- 300: about to move the top to the queue; holds both. -/
  | move (i : Nat)
  /-- 302: about to increment `nextToProcess` and pop; holds `reorderBufferMutex`. -/
  | advance (i : Nat)
  /-- 308: about to try to lock `qrSolverMutex`. -/
  | tryDrain
  /-- 313: waiting for `readyJacobiansMutex`; holds `qrSolverMutex`. -/
  | takeWait
  /-- 314: about to take from the queue; holds both. -/
  | take
  /-- 323: inside `addMutating`, `k` columns done; holds `qrSolverMutex`. -/
  | add (k : Nat) (rest : R) (r : PipeItem R K)
  /-- The task has returned. -/
  | stop

/-- sequence_solver.cpp:264-275: the variables shared by the tasks; the owners of the three mutexes; where the tasks are. -/
structure PipeState (S L R K : Type) where
  solver : S
  errorSum : K
  /-- `reorderBuffer`, smallest frame first (a heap whose top is the smallest, 228-252). -/
  reorder : List (PipeItem R K)
  /-- `readyJacobians`. -/
  ready : List (PipeItem R K)
  /-- `nextToProcess`. -/
  next : Nat
  reorderBy : Option Nat
  readyBy : Option Nat
  qrBy : Option Nat
  pcs : Nat → PipePc L R K

variable {S L R K : Type}

/-- sequence_solver.cpp:231-234 `PriorityQueue::push`, as insertion into a sorted list. -/
def PipeItem.insert (r : PipeItem R K) : List (PipeItem R K) → List (PipeItem R K)
  | [] => [r]
  | a :: as => if r.frame ≤ a.frame then r :: a :: as else a :: r.insert as

/-- Task `t` moves on to `pc`. -/
def PipeState.goto (σ : PipeState S L R K) (t : Nat) (pc : PipePc L R K) : PipeState S L R K :=
  { σ with pcs := Function.update σ.pcs t pc }

/-- The state in which `parallel_for` starts the tasks. -/
def PipeState.init [Zero K] (s : S) (tasks : List (Nat × Nat)) : PipeState S L R K where
  solver := s
  errorSum := 0
  reorder := []
  ready := []
  next := 0
  reorderBy := none
  readyBy := none
  qrBy := none
  pcs := fun t => .head ((tasks.getD t (0, 0)).1)

/-- sequence_solver.cpp:281-329: one step of task `t`; `none` if it cannot take one.  `tryFails` says whether `try_lock` fails
although the mutex is free, which it may. -/
def PipeState.step [Add K] (J : FrameJobs S L R K) (tasks : List (Nat × Nat)) (σ : PipeState S L R K) (t : Nat)
    (tryFails : Bool) : Option (PipeState S L R K) := do
  let range ← tasks[t]?
  match σ.pcs t with
  | .head i =>
    if i < range.2 then
      if J.nFrames ≤ i then some (σ.goto t .stop) else some (σ.goto t (.work i 0 (J.start i)))
    else some (σ.goto t .tryDrain)
  | .work i k l =>
    if k < J.steps i then
      let (s, l') ← J.step i k σ.solver l
      some ({ σ with solver := s }.goto t (.work i (k + 1) l'))
    else some (σ.goto t (.pushWait i ⟨i, J.result i l, J.error i⟩))
  | .pushWait i r =>
    if σ.reorderBy = none then some ({ σ with reorderBy := some t }.goto t (.push i r)) else none
  | .push i r => some ({ σ with reorder := r.insert σ.reorder }.goto t (.scan i))
  | .scan i =>
    match σ.reorder with
    | a :: _ =>
      if a.frame = σ.next then some (σ.goto t (.readyWait i))
      else some ({ σ with reorderBy := none }.goto t (.head (i + 1)))
    | [] => some ({ σ with reorderBy := none }.goto t (.head (i + 1)))
  | .readyWait i => if σ.readyBy = none then some ({ σ with readyBy := some t }.goto t (.move i)) else none
  | .move i =>
    let top ← σ.reorder.head?
    some ({ σ with ready := σ.ready ++ [top], readyBy := none }.goto t (.advance i))
  | .advance i => some ({ σ with next := σ.next + 1, reorder := σ.reorder.tail }.goto t (.scan i))
  | .tryDrain =>
    if σ.qrBy = none ∧ tryFails = false then some ({ σ with qrBy := some t }.goto t .takeWait)
    else some (σ.goto t .stop)
  | .takeWait => if σ.readyBy = none then some ({ σ with readyBy := some t }.goto t .take) else none
  | .take =>
    match σ.ready with
    | a :: as => some ({ σ with ready := as, readyBy := none }.goto t (.add 0 a.rest a))
    | [] => some ({ σ with readyBy := none, qrBy := none }.goto t .stop)
  | .add k rest r =>
    if k < J.addSteps then
      let (s, rest') ← J.addStep k σ.solver rest
      some ({ σ with solver := s }.goto t (.add (k + 1) rest' r))
    else some ({ σ with errorSum := σ.errorSum + r.error }.goto t .takeWait)
  | .stop => none

/-- A schedule: which task takes the next step, and whether a `try_lock` then fails for no reason. -/
def PipeState.run [Add K] (J : FrameJobs S L R K) (tasks : List (Nat × Nat)) (schedule : List (Nat × Bool))
    (σ : PipeState S L R K) : Option (PipeState S L R K) :=
  schedule.foldlM (fun σ c => σ.step J tasks c.1 c.2) σ

/-- `parallel_for` returns: every task has returned. -/
def PipeState.Returned (tasks : List (Nat × Nat)) (σ : PipeState S L R K) : Prop :=
  ∀ t, t < tasks.length → σ.pcs t = .stop

/-- online_householder_qr.cpp:536-566 `addMutating(A_common, b)` from start to end. -/
def FrameJobs.addAll (J : FrameJobs S L R K) (s : S) (r : R) : Option (S × R) :=
  (List.range J.addSteps).foldlM (fun p k => J.addStep k p.1 p.2) (s, r)

/-- The first `k` columns of `processJac(f)` with nothing in between. -/
def FrameJobs.workUpTo (J : FrameJobs S L R K) (s : S) (f k : Nat) : Option (S × L) :=
  (List.range k).foldlM (fun p i => J.step f i p.1 p.2) (s, J.start f)

/-- sequence_solver.cpp:337-342 and 347-352: one pass of the loops that empty the queue and the buffer. -/
def FrameJobs.absorb [Add K] (J : FrameJobs S L R K) (p : S × K) (r : PipeItem R K) : Option (S × K) := do
  let q ← J.addAll p.1 r.rest
  some (q.1, p.2 + r.error)

/-- sequence_solver.cpp:331-354: after `parallel_for` the calling thread takes the mutexes and empties the queue, then the
buffer. -/
def PipeState.finish [Add K] (J : FrameJobs S L R K) (σ : PipeState S L R K) : Option (S × K) :=
  if σ.reorderBy = none ∧ σ.readyBy = none ∧ σ.qrBy = none then do
    let p ← σ.ready.foldlM J.absorb (σ.solver, σ.errorSum)
    σ.reorder.foldlM J.absorb p
  else none

/-- sequence_solver.cpp:211-224: one pass of the loop of `processPerFrameErrors_serial`, with the two halves of `addMutating`
(online_householder_qr.cpp:470-478) written out. -/
def FrameJobs.serialStep [Add K] (J : FrameJobs S L R K) (p : S × K) (f : Nat) : Option (S × K) := do
  let q ← J.workUpTo p.1 f (J.steps f)
  J.absorb (q.1, p.2) ⟨f, J.result f q.2, J.error f⟩

/-- sequence_solver.cpp:205-226 `processPerFrameErrors_serial`. -/
def FrameJobs.serial [Add K] [Zero K] (J : FrameJobs S L R K) (s : S) : Option (S × K) :=
  (List.range J.nFrames).foldlM J.serialStep (s, 0)

/-! ## The banded solver -/

/-- online_householder_qr.h:543-575: the entries of the solver that change. -/
structure BandRows where
  Rb : Nat → Nat → ℝ
  Rc : Nat → Nat → ℝ
  y : Nat → ℝ

/-- The matrices `zeroBandedPart` works on. -/
structure BandBlock where
  Ab : Nat → Nat → ℝ
  Ac : Nat → Nat → ℝ
  b : Nat → ℝ

/-- A Jacobian and residual for the universal parameters. -/
structure CommonBlock where
  rows : Nat
  A : Nat → Nat → ℝ
  b : Nat → ℝ

/-- The frames of a sequence as `computePerFrameJacobian` leaves them: a matrix (by columns) and a residual with `rows f` rows,
and the selections of columns. -/
structure SequenceBlocks (K : Type) where
  nFrames : Nat
  perFrame : List Nat
  universal : List Nat
  np : Nat
  rows : Nat → Nat
  jacobian : Nat → Nat → Nat → ℝ
  residual : Nat → Nat → ℝ
  error : Nat → K

/-- `ColumnIndexedMatrix(jacobian, perFrameParameterIndices_)`. -/
def SequenceBlocks.band (Q : SequenceBlocks K) (f : Nat) : ColMat := ⟨Q.rows f, Q.np, Q.jacobian f, true, Q.perFrame⟩

/-- `ColumnIndexedMatrix(jacobian, universalParameterIndices_)`. -/
def SequenceBlocks.common (Q : SequenceBlocks K) (f : Nat) : ColMat := ⟨Q.rows f, Q.np, Q.jacobian f, true, Q.universal⟩

/-- online_householder_qr.cpp:546-565: one pass of the column loop of `addMutating(A_common, b)`. -/
noncomputable def commonPivot (nBand nCommon : Nat) (k : Nat) (s : BandRows) (r : CommonBlock) : BandRows × CommonBlock :=
  let w := qrPivot nCommon r.rows (fun j => j) ⟨fun i j => s.Rc (i + nBand) j, fun i => s.y (nBand + i), r.A, r.b⟩ k
  ({ s with
     Rc := fun i j => if i < nBand then s.Rc i j else w.R (i - nBand) j
     y := fun i => if i < nBand then s.y i else w.y (i - nBand) },
   { r with A := w.A, b := w.b })

/-- sequence_solver.cpp:359-398 `processPerFrameErrors_parallel`: the jobs it hands to the pipeline.  `bw` is the bandwidth of
the solver.  Of the Jacobian only the columns of the universal parameters are kept, and if there are none nothing is. -/
noncomputable def SequenceBlocks.jobs (Q : SequenceBlocks K) (bw : Nat) : FrameJobs BandRows BandBlock CommonBlock K where
  nFrames := Q.nFrames
  start := fun f => ⟨Q.jacobian f, Q.jacobian f, Q.residual f⟩
  steps := fun _ => Q.perFrame.length
  step := fun f k s l => do
    let w ← bandPivot bw Q.universal.length Q.perFrame.length (Q.rows f) (f * Q.perFrame.length) (Q.band f).idx
      (Q.common f).idx ⟨s.Rb, s.Rc, s.y, l.Ab, l.Ac, l.b⟩ k
    some (⟨w.Rb, w.Rc, w.y⟩, ⟨w.Ab, w.Ac, w.b⟩)
  result := fun f l =>
    if Q.universal.isEmpty then ⟨0, fun _ _ => 0, fun _ => 0⟩
    else ⟨Q.rows f, fun j => l.Ac ((Q.common f).idx j), l.b⟩
  error := Q.error
  addSteps := Q.universal.length
  addStep := fun k s r => some (commonPivot (Q.nFrames * Q.perFrame.length) Q.universal.length k s r)

/-- sequence_solver.cpp:205-226 `processPerFrameErrors_serial` with the solver as a whole. -/
noncomputable def SequenceBlocks.serial [Add K] [Zero K] (Q : SequenceBlocks K) (s : BandQr) : Option (BandQr × K) :=
  (List.range Q.nFrames).foldlM (fun p f => do
    let s' ← p.1.add (f * Q.perFrame.length) (Q.band f) (Q.common f) (Q.rows f) (Q.residual f)
    some (s', p.2 + Q.error f)) (s, 0)

/-- sequence_solver.cpp:359-398 under a schedule: `none` if the schedule is not one, or does not run to the end. -/
noncomputable def SequenceBlocks.parallel [Add K] [Zero K] (Q : SequenceBlocks K) (tasks : List (Nat × Nat))
    (schedule : List (Nat × Bool)) (s : BandQr) : Option (BandQr × K) := do
  let σ ← (PipeState.init (⟨s.Rb, s.Rc, s.y⟩ : BandRows) tasks).run (Q.jobs s.bw) tasks schedule
  let p ← σ.finish (Q.jobs s.bw)
  some ({ s with Rb := p.1.Rb, Rc := p.1.Rc, y := p.1.y }, p.2)

end Momentum
