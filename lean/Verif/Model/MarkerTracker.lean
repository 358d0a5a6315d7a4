import Verif.Model.TrackerUtils
import Verif.Model.SequenceFunction
import Verif.Model.ReplaceHierarchy

/-!
# The marker tracker

momentum/marker_tracking/marker_tracker.cpp: `trackPosesPerframe`, `trackSequence` and the choice of frames in `calibrateModel`;
momentum/marker_tracking/process_markers.cpp: the choice of frames in `processMarkers`.  The solvers are parameters: what they are given is
modelled, what they do with it is in other modules.  A motion is the list of its columns; a column that was not written is `none`.  The
result `none` of a loop stands for a run that does not end.  `throws` is a failed check.
-/

namespace Momentum.MarkerTracker

/-- `for (size_t iFrame = 0, solverFrame = 0; iFrame < numFrames; iFrame += frameStride, ++solverFrame)`. -/
def strideLoop {σ : Type} (stride n : Nat) (body : σ → Nat → Nat → Outcome σ) (i k : Nat) (s : σ) : Option (Outcome σ) :=
  if i < n then
    match body s i k with
    | .ok t => strideLoop stride n body (i + stride) (k + 1) t
    | .throws => some .throws
    | .ub => some .ub
  else some (.ok s)
partial_fixpoint

/-- marker_tracker.cpp:167-169 and 321-323: the columns from `i` on, as long as they are in the stride and in the motion; `left` turns of
the stride are left. -/
def fillLoop {α : Type} (n i : Nat) (c : α) : Nat → Nat → List (Option α) → List (Option α)
  | 0, _, motion => motion
  | left + 1, j, motion => if i + j < n then fillLoop n i c left (j + 1) (motion.set (i + j) (some c)) else motion

section
variable {K : Type}

/-- What `GaussNewtonSolver::solve` is given, besides the start: the enabled parameters, the number of iterations, the constraints for the
markers, and the weight and target of the smoothness term.  Limits, floor and collisions are the same in all calls. -/
structure SolveCall (K : Type) where
  enabled : Nat → Bool
  maxIter : Nat
  constraints : List (MarkerConstraint K)
  smoothing : K
  target : List K

/-- What matters of `TrackingConfig`. -/
structure TrackConfig (K : Type) where
  minVisPercent : K
  smoothing : K
  maxIter : Nat

/-- What matters of `ParameterTransform`: the number of parameters, `getPoseParameters()`, `getRigidParameters()`, and the parameter set
`locators`, empty if there is none. -/
structure TrackParameters where
  count : Nat
  pose : Nat → Bool
  rigid : Nat → Bool
  locators : Nat → Bool

/-- marker_tracker.cpp:193-198: `poseParams`. -/
def TrackParameters.tracked (P : TrackParameters) : Nat → Bool := fun i => P.pose i && !P.locators i

/-- marker_tracker.cpp:253-260: `dof` and `needsInit`, and the target of the smoothness term. -/
structure TrackState (K : Type) where
  dof : List K
  needsInit : Bool
  target : List K

variable [Field K] [LinearOrder K]

/-- marker_tracker.cpp:276-318: a frame with the given constraints. -/
def poseFrame (solve : SolveCall K → List K → List K) (cfg : TrackConfig K) (P : TrackParameters) (globals : List K) (continuous : Bool)
    (numMarkers : Nat) (st : TrackState K) (cs : List (MarkerConstraint K)) : TrackState K :=
  let dof := if continuous then st.dof else globals
  if (cs.length : K) > (numMarkers : K) * cfg.minVisPercent then
    let start := if st.needsInit then solve ⟨P.rigid, 50, cs, 0, st.target⟩ dof else dof
    ⟨solve ⟨P.tracked, cfg.maxIter, cs, cfg.smoothing, start⟩ start, st.needsInit && !continuous, start⟩
  else { st with dof := dof }

/-- marker_tracker.cpp:274-325: one turn of the loop; `constrData.at` throws. -/
def poseStep (solve : SolveCall K → List K → List K) (cfg : TrackConfig K) (P : TrackParameters) (globals : List K) (stride n : Nat)
    (numMarkers : Nat) (constrData : List (List (MarkerConstraint K))) (s : TrackState K × List (Option (List K))) (i _k : Nat) :
    Outcome (TrackState K × List (Option (List K))) :=
  match constrData[i]? with
  | none => .throws
  | some cs =>
    let st := poseFrame solve cfg P globals (stride < 5) numMarkers s.1 cs
    .ok (st, fillLoop n i st.dof stride 0 s.2)

/-- marker_tracker.cpp:174-337 `trackPosesPerframe`.  The first target of the smoothness term is zero; `dof.head(6)` of fewer than six
parameters is undefined behaviour. -/
def trackPosesPerframe (solve : SolveCall K → List K → List K) (cfg : TrackConfig K) (P : TrackParameters) (locators : List (Locator K))
    (markerData : List (List (Marker K))) (globals : List K) (stride : Nat) : Option (Outcome (List (Option (List K)))) :=
  match markerData with
  | [] => some .throws
  | first :: _ =>
    if globals.length ≠ P.count then some .throws
    else if P.count < 6 then some .ub
    else
      let needsInit := (globals.take 6).all (fun x => x = 0) || !decide (stride < 5)
      thenStep (strideLoop stride markerData.length
          (poseStep solve cfg P globals stride markerData.length first.length (createConstraintData markerData locators)) 0 0
          (⟨globals, needsInit, List.replicate P.count 0⟩, List.replicate markerData.length none)) fun s =>
        some (.ok s.2)

end

/-- marker_tracker.cpp:83-110: the start of one frame.  The error functions that are added are left to the solver. -/
def startStep (initial : List (Nat → ℝ)) (S : SequenceFunction) (i k : Nat) : Outcome SequenceFunction :=
  match initial[i]? with
  | none => .ok S
  | some c =>
    match S.setFrameParameters k c with
    | none => .throws
    | some S' => .ok S'

/-- marker_tracker.cpp:163-170: one turn of the last loop; `getFrameParameters` has no check. -/
def resultStep (S : SequenceFunction) (stride n : Nat) (motion : List (Option (Nat → ℝ))) (i k : Nat) : Outcome (List (Option (Nat → ℝ))) :=
  if k < S.nFrames then .ok (fillLoop n i (S.frames k) stride 0 motion) else .ub

/-- marker_tracker.cpp:31-172 `trackSequence`.  `solve` gives the final parameters for the function and the start.  While it runs, the
solver writes to the frames what it tries; only enabled parameters are written, and `getError` at the end writes them again, so that only
the last values remain.  A stride of zero is a division by zero.  `rows` is the number of rows of the matrix of the initial motion. -/
noncomputable def trackSequence (solve : SequenceFunction → (Nat → ℝ) → (Nat → ℝ)) (P : TrackParameters) (scaling : Nat → Bool)
    (globalParams : Nat → Bool) (numFrames : Nat) (rows : Nat) (initial : List (Nat → ℝ)) (stride : Nat) :
    Option (Outcome (List (Option (Nat → ℝ)))) :=
  if numFrames = 0 ∨ initial.length < numFrames ∨ rows ≠ P.count then some .throws
  else if stride = 0 then some .ub
  else
    let S := SequenceFunction.make P.count (fun i => scaling i || P.locators i) ((numFrames - 1) / stride + 1)
    thenStep (strideLoop stride numFrames (startStep initial) 0 0 S) fun S =>
      let S := S.updateParameterSets fun i => P.tracked i || globalParams i
      match S.getJoinedParameterVector with
      | none => some .ub
      | some x =>
        let S := S.setJoined (solve S x)
        strideLoop stride numFrames (resultStep S stride numFrames) 0 0 (List.replicate numFrames none)

/-- marker_tracker.cpp:351-353 and 454-456: the stride of a calibration, for up to 2^31 frames; without frames the difference wraps
around; a division by zero is undefined behaviour. -/
def calibrationStride (numFrames calibFrames : Nat) : Outcome Nat :=
  if numFrames = 0 ∨ calibFrames = 0 then .ub else .ok (max 1 ((numFrames - 1) / calibFrames))

/-- process_markers.cpp:30-38: the frames that are used; `size_t` wraps around.  A span that ends before it starts has a wrapped size. -/
def window {α : Type} (markerData : List α) (firstFrame maxFrames : Nat) : Outcome (List α) :=
  if firstFrame > markerData.length then .throws
  else
    let lastFrame := if maxFrames > 0 then min ((firstFrame + maxFrames) % 2 ^ 64) markerData.length else markerData.length
    if lastFrame < firstFrame then .ub else .ok ((markerData.drop firstFrame).take (lastFrame - firstFrame))

/-- process_markers.cpp:21-57 `processMarkers` without calibration. -/
def processMarkers {K : Type} [Field K] [LinearOrder K] (solve : SolveCall K → List K → List K) (cfg : TrackConfig K) (P : TrackParameters)
    (locators : List (Locator K)) (markerData : List (List (Marker K))) (identity : List K) (firstFrame maxFrames : Nat) :
    Option (Outcome (List (Option (List K)))) :=
  match window markerData firstFrame maxFrames with
  | .ok data => trackPosesPerframe solve cfg P locators data identity 1
  | .throws => some .throws
  | .ub => some .ub

end Momentum.MarkerTracker
