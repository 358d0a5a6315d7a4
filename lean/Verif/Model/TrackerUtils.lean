import Verif.Model.Skinning
import Verif.Model.TransformPose

/-!
# momentum/marker_tracking/tracker_utils.cpp

`none` is a failed check, an exception or an access outside an array.  The code is over `float`; here it is over the reals.
-/

namespace Momentum

/-- The three coordinates of an Eigen vector. -/
def Vec3.coord {K : Type} (v : Vec3 K) : Fin 3 → K
  | 0 => v.x
  | 1 => v.y
  | 2 => v.z

/-- `locked.all()`: all coefficients are nonzero. -/
def Locator.allLocked {K : Type} (l : Locator K) : Bool := l.locked.x != 0 && l.locked.y != 0 && l.locked.z != 0

/-- tracker_utils.cpp:87 `tNames`. -/
def translationNames : Fin 3 → String
  | 0 => "_tx"
  | 1 => "_ty"
  | 2 => "_tz"

/-- The parts of the character that the loop in `createLocatorCharacter` changes; `locators` are those already visited. -/
structure LocatorBuild where
  joints : List (Joint ℝ)
  inverseBindPose : List (Affine ℝ)
  triplets : List (Triplet ℝ)
  locatorSet : ParameterSet
  names : List String
  limits : List (ParameterLimit ℝ)
  offsets : List ℝ
  active : List Bool
  locators : List (Locator ℝ)

/-- tracker_utils.cpp:104-114: the limit for one axis of the joint `id`. -/
noncomputable def axisLimit (l : Locator ℝ) (id : Nat) (j : Fin 3) : List (ParameterLimit ℝ) :=
  if 0 < l.limitWeight.coord j then
    [⟨.minMaxJoint id j.val (l.limitOrigin.coord j - l.offset.coord j) (l.limitOrigin.coord j - l.offset.coord j), l.limitWeight.coord j⟩]
  else []

/-- tracker_utils.cpp:88-115: one axis of the joint `id`, which belongs to the locator `l`. -/
noncomputable def axisStep (jointName : String) (id : Nat) (l : Locator ℝ) (b : LocatorBuild) (j : Fin 3) : Option LocatorBuild :=
  if l.locked.coord j ≠ 0 then some b
  else if b.names.length < kMaxModelParams then
    (b.locatorSet.set b.names.length true).map fun s =>
      { b with
        triplets := b.triplets ++ [⟨id * 7 + j.val, b.names.length, 1⟩]
        locatorSet := s
        names := b.names ++ [jointName ++ translationNames j]
        limits := b.limits ++ axisLimit l id j }
  else none

/-- tracker_utils.cpp:116-133: the seven joint parameters of the new joint, and the locator is attached to it. -/
def attachStep (id : Nat) (l : Locator ℝ) (b : LocatorBuild) : LocatorBuild :=
  { b with
    offsets := b.offsets ++ List.replicate 7 0
    active := b.active ++ List.replicate 7 true
    locators := b.locators ++ [{ l with parent := id, offset := 0 }] }

/-- tracker_utils.cpp:69-134: one locator. -/
noncomputable def locatorStep (pre : String) (b : LocatorBuild) (l : Locator ℝ) : Option LocatorBuild :=
  if l.allLocked then some { b with locators := b.locators ++ [l] }
  else
    (([0, 1, 2] : List (Fin 3)).foldlM (axisStep (pre ++ l.name) b.joints.length l)
      { b with
        joints := b.joints ++ [⟨pre ++ l.name, some l.parent, Quat.one, l.offset⟩]
        inverseBindPose := b.inverseBindPose ++ [Affine.one] }).map (attachStep b.joints.length l)

/-- `parameterSets[name] = value` on an association list. -/
def assignSet (sets : List (String × ParameterSet)) (name : String) (value : ParameterSet) : List (String × ParameterSet) :=
  sets.filter (fun ns => ns.1 ≠ name) ++ [(name, value)]

/-- tracker_utils.cpp:55-147 `createLocatorCharacter`. -/
noncomputable def createLocatorCharacter (c : Character ℝ) (pre : String) : Option (Character ℝ) :=
  (c.locators.foldlM (locatorStep pre) ⟨c.skeleton.joints, c.inverseBindPose, [], ParameterSet.empty, c.parameterTransform.name,
    c.parameterLimits, c.parameterTransform.offsets, c.parameterTransform.activeJointParams, []⟩).map fun b =>
    { c with
      skeleton := ⟨b.joints⟩
      parameterTransform :=
        { c.parameterTransform with
          name := b.names
          transform := ⟨b.joints.length * 7, b.names.length, c.parameterTransform.transform.entries ++ b.triplets⟩
          offsets := b.offsets
          activeJointParams := b.active
          parameterSets := assignSet c.parameterTransform.parameterSets "locators" b.locatorSet }
      parameterLimits := b.limits
      locators := b.locators
      inverseBindPose := b.inverseBindPose }

/-- tracker_utils.cpp:159-179: one locator of `extractLocatorsFromCharacter`. -/
noncomputable def extractLocator (joints : List (Joint ℝ)) (world : List (Affine ℝ)) (l : Locator ℝ) : Option (Locator ℝ) :=
  if l.allLocked then some l
  else do
    let t ← world[l.parent]?
    let jt ← joints[l.parent]?
    let parent ← jt.parent
    let tp ← world[parent]?
    some { l with parent := parent, offset := tp.inverse.apply (t.apply l.offset) }

/-- tracker_utils.cpp:149-183 `extractLocatorsFromCharacter`. -/
noncomputable def extractLocatorsFromCharacter (c : Character ℝ) (calibParams : CharacterParameters ℝ) :
    Option (List (Locator ℝ)) := do
  let jp ← c.parameterTransform.applyCharacter calibParams
  let st ← skeletonState c.skeleton jp false
  c.locators.mapM (extractLocator c.skeleton.joints (worldAffines st))

/-- character/marker.h `Marker`. -/
structure Marker (K : Type) where
  name : String
  pos : Vec3 K
  occluded : Bool

/-- position_error_function.h `PositionDataT`: offset, target, parent and weight. -/
structure MarkerConstraint (K : Type) where
  offset : Vec3 K
  target : Vec3 K
  parent : Nat
  weight : K

section
variable {K : Type}

/-- tracker_utils.cpp:26-29 `locatorLookup`: the last locator with the name. -/
def locatorLookup (locators : List (Locator K)) : String → Option Nat :=
  locators.zipIdx.foldl (fun m li => Function.update m li.1.name (some li.2)) fun _ => none

/-- tracker_utils.cpp:34-50: the constraint for one marker, if any. -/
def markerConstraint (locators : List (Locator K)) (m : Marker K) : Option (MarkerConstraint K) :=
  if m.occluded then none
  else (locatorLookup locators m.name).bind fun i => locators[i]?.map fun l => ⟨l.offset, m.pos, l.parent, l.weight⟩

/-- tracker_utils.cpp:20-53 `createConstraintData`. -/
def createConstraintData (markerData : List (List (Marker K))) (locators : List (Locator K)) : List (List (MarkerConstraint K)) :=
  markerData.map fun frame => frame.filterMap (markerConstraint locators)

/-- tracker_utils.cpp:251-258 `extractMarkersFromMotion`, one frame; the column of the motion holds joint parameters. -/
noncomputable def frameMarkers (c : Character ℝ) (params : List ℝ) : Option (List (Marker ℝ)) := do
  let st ← skeletonState c.skeleton params false
  c.locators.mapM fun l => (worldAffines st)[l.parent]?.map fun t => ⟨l.name, t.apply l.offset, false⟩

/-- tracker_utils.cpp:245-262 `extractMarkersFromMotion`; the motion is the list of its columns. -/
noncomputable def extractMarkersFromMotion (c : Character ℝ) (motion : List (List ℝ)) : Option (List (List (Marker ℝ))) :=
  motion.mapM (frameMarkers c)

/-- tracker_utils.cpp:185-194 `extractParameters`. -/
def extractParameters [Zero K] (params : List K) (s : ParameterSet) : Option (List K) :=
  params.zipIdx.mapM fun xi => (s.test xi.2).map fun b => if b then xi.1 else 0

/-- parameter_transform.cpp:138-141, one iteration. -/
def scalingStep (result : ParameterSet) (ni : String × Nat) : Option ParameterSet :=
  if containsText "scale_" ni.1 then result.set ni.2 true else some result

/-- parameter_transform.cpp:135-144 `getScalingParameters`. -/
def getScalingParameters (names : List String) : Option ParameterSet := names.zipIdx.foldlM scalingStep ParameterSet.empty

/-- tracker_utils.cpp:196-207 `extractIdAndLocatorsFromParams`; `head` of more elements than there are is `none`. -/
noncomputable def extractIdAndLocatorsFromParams (param : List ℝ) (sourceCharacter targetCharacter : Character ℝ) :
    Option (List ℝ × List (Locator ℝ)) := do
  let s ← getScalingParameters targetCharacter.parameterTransform.name
  let idParam ← extractParameters param s
  let locators ← extractLocatorsFromCharacter sourceCharacter ⟨param, []⟩
  if targetCharacter.parameterTransform.transform.cols ≤ idParam.length then
    some (idParam.take targetCharacter.parameterTransform.transform.cols, locators)
  else none

/-- One column of the matrix in `fillIdentity` and `removeIdentity`: `op` is `+=` or `-=`. -/
def identityColumn [Zero K] (op : K → K → K) (idSet : ParameterSet) (identity column : List K) : Option (List K) :=
  column.zipIdx.mapM fun xi => (idSet.test xi.2).bind fun b => if b then identity[xi.2]?.map (op xi.1) else some xi.1

/-- tracker_utils.cpp:209-226 `fillIdentity`; the motion is the list of its columns, all with `rows` rows. -/
def fillIdentity [Zero K] [Add K] (idSet : ParameterSet) (identity : List K) (rows : Nat) (motion : List (List K)) :
    Option (List (List K)) :=
  if identity.length = rows then motion.mapM (identityColumn (· + ·) idSet identity) else none

/-- tracker_utils.cpp:228-243 `removeIdentity`, which has no check. -/
def removeIdentity [Zero K] [Sub K] (idSet : ParameterSet) (identity : List K) (motion : List (List K)) : Option (List (List K)) :=
  motion.mapM (identityColumn (· - ·) idSet identity)

end

end Momentum
