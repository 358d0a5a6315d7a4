import Verif.Model.SkeletonState
import Verif.Model.ParameterTransform
import Verif.Model.Utility
import Mathlib.Data.List.Infix

/-!
# momentum/character_solver/transform_pose.cpp, and what it uses of momentum/character/character.cpp and parameter_transform.cpp

The Gauss-Newton solver that is run inside is a parameter here (`solve`), as are the random numbers.  `none` is a failed check, an
exception or an access outside a list.
-/

namespace Momentum

/-- `s.find(pattern) != std::string::npos`. -/
def containsText (pattern s : String) : Bool := decide (pattern.toList <:+: s.toList)

/-- parameter_transform.cpp:152, the condition. -/
def isRigidName (nm : String) : Bool := containsText "root_" nm || containsText "hips" nm

/-- parameter_transform.cpp:151-154, one iteration. -/
def rigidStep (result : ParameterSet) (ni : String × Nat) : Option ParameterSet :=
  if isRigidName ni.1 then result.set ni.2 true else some result

/-- parameter_transform.cpp:147-157 `getRigidParameters`. -/
def getRigidParameters (names : List String) : Option ParameterSet :=
  names.zipIdx.foldlM rigidStep ParameterSet.empty

section
variable {K : Type}

/-- character.cpp:133-147, one coefficient. -/
def activeJointStep (nJoints : Nat) (ps : ParameterSet) (result : List Bool) (e : Triplet K) : Option (List Bool) :=
  (ps.test e.col).bind fun b =>
    if b = false then some result
    else if e.row / 7 < nJoints then some (result.set (e.row / 7) true)
    else none

/-- character.cpp:128-151 `parametersToActiveJoints`. -/
def parametersToActiveJoints (nJoints : Nat) (A : SparseMat K) (ps : ParameterSet) : Option (List Bool) :=
  A.entries.foldlM (activeJointStep nJoints ps) (List.replicate nJoints false)

/-- character.cpp:165-178, one coefficient. -/
def activeParamStep (cols : Nat) (activeJoints : List Bool) (result : ParameterSet) (e : Triplet K) : Option ParameterSet :=
  if e.col < cols then
    activeJoints[e.row / 7]?.bind fun b => if b then result.set e.col true else some result
  else none

/-- character.cpp:153-182 `activeJointsToParameters`. -/
def activeJointsToParameters (nJoints : Nat) (A : SparseMat K) (activeJoints : List Bool) : Option ParameterSet :=
  if activeJoints.length = nJoints then A.entries.foldlM (activeParamStep A.cols activeJoints) ParameterSet.empty
  else none

/-- transform_pose.cpp:40-45. -/
def numRigidJoints (rigidJoints : List Bool) : Nat :=
  rigidJoints.zipIdx.foldl (fun n bi => if bi.1 then bi.2 + 1 else n) 0

end

/-- transform_pose.cpp:28-75 `createRigidBodySkeleton`. -/
noncomputable def createRigidBodySkeleton (s : Skeleton ℝ) (pt : ParameterTransform ℝ) :
    Option (Skeleton ℝ × ParameterTransform ℝ) := do
  let rigid ← getRigidParameters pt.name
  let rigidJoints ← parametersToActiveJoints s.joints.length pt.transform rigid
  let n := numRigidJoints rigidJoints
  if n = 0 then none
  else do
    let keep ← activeJointsToParameters s.joints.length pt.transform (List.replicate n true ++ rigidJoints.drop n)
    let r ← pt.subset [] keep
    let q ← r.1.mapJoints n ((List.range s.joints.length).map fun i => if i < n then some i else none)
    some (⟨s.joints.take n⟩, q)

/-- transform_pose.h:62-82 `PoseTransformSolverT`, the parts that the constructor fills; the error functions and the solver are
in `solve`. -/
structure PoseTransformSolver where
  numFull : Nat
  skeleton : Skeleton ℝ
  transform : ParameterTransform ℝ
  root : Nat
  rigid : ParameterSet
  toFull : List Nat

/-- transform_pose.cpp:86-134, the constructor. -/
noncomputable def PoseTransformSolver.make (s : Skeleton ℝ) (pt : ParameterTransform ℝ) : Option PoseTransformSolver := do
  let c ← createRigidBodySkeleton s pt
  if c.1.joints.length = 0 then none
  else do
    let rigid ← getRigidParameters c.2.name
    let toFull ← (List.range c.2.transform.cols).mapM fun i => c.2.name[i]?.bind fun nm => getParameterIdByName pt.name nm
    some ⟨pt.transform.cols, c.1, c.2, c.1.joints.length - 1, rigid, toFull⟩

namespace PoseTransformSolver

/-- transform_pose.cpp:158-161 and 205-208 with the read at 176 and 209: the state of the joint `root` of the simplified character. -/
noncomputable def rootAt (S : PoseTransformSolver) (p : List ℝ) : Option (Transform ℝ) :=
  (S.transform.apply p).bind fun jp => (skeletonState S.skeleton jp false).bind fun st => st[S.root]?.map JointState.transform

/-- Eigen `(a - b).norm()`. -/
noncomputable def matDistance (a b : Mat3 ℝ) : ℝ :=
  Real.sqrt ((a.m00 - b.m00) ^ 2 + (a.m01 - b.m01) ^ 2 + (a.m02 - b.m02) ^ 2 + (a.m10 - b.m10) ^ 2 + (a.m11 - b.m11) ^ 2 +
    (a.m12 - b.m12) ^ 2 + (a.m20 - b.m20) ^ 2 + (a.m21 - b.m21) ^ 2 + (a.m22 - b.m22) ^ 2)

/-- transform_pose.cpp:217-221 `randomize`: a random number for each rigid parameter. -/
def randomize (S : PoseTransformSolver) (rng : Nat → ℝ) (p : List ℝ) : List ℝ :=
  p.mapIdx fun k x => if S.rigid.test k = some true then rng k else x

open Classical in
/-- transform_pose.cpp:197-222, the loop, with `fuel` iterations left before it gives up; `solve target i` is the solver in iteration
`i`, for the position and orientation of `target`. -/
noncomputable def restartLoop (S : PoseTransformSolver) (solve : Transform ℝ → Nat → List ℝ → List ℝ) (rng : Nat → Nat → ℝ)
    (target : Transform ℝ) : Nat → Nat → List ℝ → Option (List ℝ)
  | 0, _, p => some p
  | fuel + 1, i, p =>
    (S.rootAt (solve target i p)).bind fun root =>
      if matDistance root.rotation.toMat target.rotation.toMat < 1 / 1000 then some (solve target i p)
      else restartLoop S solve rng target fuel (i + 1) (S.randomize (rng i) (solve target i p))

/-- transform_pose.cpp:163-172: the rigid parameters of the pose before. -/
def copyRigid (S : PoseTransformSolver) (prev : List ℝ) (p : List ℝ) : List ℝ :=
  p.mapIdx fun k x => if S.rigid.test k = some true then prev.getD (S.toFull.getD k 0) 0 else x

/-- transform_pose.cpp:224-230: one parameter is written back. -/
def writeStep (S : PoseTransformSolver) (solved : List ℝ) (full : List ℝ) (k : Nat) : List ℝ :=
  if S.rigid.test k = some true then full.set (S.toFull.getD k 0) (solved.getD k 0) else full

/-- transform_pose.cpp:139-231 `transformPose`: the new parameters.  The loop gives up when its counter is above 10000. -/
noncomputable def transformPose (S : PoseTransformSolver) (solve : Transform ℝ → Nat → List ℝ → List ℝ) (rng : Nat → Nat → ℝ)
    (full : List ℝ) (transform : Transform ℝ) (prev : List ℝ) : Option (List ℝ) :=
  if full.length = S.numFull ∧ (prev.length = S.numFull ∨ prev.length = 0) then
    (S.toFull.mapM fun i => full[i]?).bind fun p0 =>
    (S.rootAt p0).bind fun root =>
    (restartLoop S solve rng (transform * root) 10001 0 (if prev.length = 0 then p0 else S.copyRigid prev p0)).map fun solved =>
      (List.range S.toFull.length).foldl (S.writeStep solved) full
  else none

end PoseTransformSolver

/-- transform_pose.cpp:255-270: one frame; `result` are the frames before it. -/
noncomputable def transformFrame (S : PoseTransformSolver) (solve : Nat → Transform ℝ → Nat → List ℝ → List ℝ)
    (rng : Nat → Nat → Nat → ℝ) (modelParameters : List (List ℝ)) (transforms : List (Transform ℝ)) (ensureContinuousOutput : Bool)
    (result : List (List ℝ)) (iFrame : Nat) : Option (List (List ℝ)) :=
  modelParameters[iFrame]?.bind fun p =>
    if p.length = 0 then some (result ++ [[]])
    else
      (if iFrame < transforms.length then transforms[iFrame]? else transforms[0]?).bind fun t =>
      (S.transformPose (solve iFrame) (rng iFrame) p t
        (if 0 < iFrame ∧ ensureContinuousOutput = true then result.getD (iFrame - 1) [] else [])).map fun r => result ++ [r]

/-- transform_pose.cpp:233-273 `transformPose` for a sequence of poses (and 77-83 with one transform). -/
noncomputable def transformPoses (s : Skeleton ℝ) (pt : ParameterTransform ℝ) (solve : Nat → Transform ℝ → Nat → List ℝ → List ℝ)
    (rng : Nat → Nat → Nat → ℝ) (modelParameters : List (List ℝ)) (transforms : List (Transform ℝ)) (ensureContinuousOutput : Bool) :
    Option (List (List ℝ)) :=
  if transforms.length = 1 ∨ modelParameters.length = transforms.length then
    (PoseTransformSolver.make s pt).bind fun S =>
      (List.range modelParameters.length).foldlM
        (transformFrame S solve rng modelParameters transforms ensureContinuousOutput) []
  else none

end Momentum
