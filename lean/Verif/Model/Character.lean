import Verif.Model.ParameterTransform
import Verif.Model.Skeleton

/-!
# momentum/character/character.{h,cpp} (data members), locator.h, collision_geometry.h, and the
joint-mapping helpers and `removeJoints` of momentum/character/character_utility.cpp

Functions return in `Option`; `none` is every outcome other than returning a value (exception, failed
`MT_CHECK`, out-of-range access, endless loop).
-/

namespace Momentum

/-- momentum/character/locator.h:21-28 `Locator`. -/
structure Locator (K : Type) where
  name : String
  parent : Nat
  offset : Vec3 K
  locked : Vec3 Int
  weight : K
  limitOrigin : Vec3 K
  limitWeight : Vec3 K

/-- momentum/character/collision_geometry.h:19-34 `TaperedCapsuleT`. -/
structure TaperedCapsule (K : Type) where
  transformation : Affine K
  radius0 : K
  radius1 : K
  parent : Nat
  length : K

/-- momentum/character/character.h:24-44, the data members of `CharacterT`, with the mesh reduced to its
vertices and the skin weights to rows of (joint index, weight).  Pose shapes, blend shapes and the name
are copied untouched by everything modelled here and left out. -/
structure Character (K : Type) where
  skeleton : Skeleton K
  parameterTransform : ParameterTransform K
  parameterLimits : List (ParameterLimit K)
  locators : List (Locator K)
  mesh : Option (List (Vec3 K))
  skinWeights : Option (List (List (Nat × K)))
  collision : Option (List (TaperedCapsule K))
  inverseBindPose : List (Affine K)

section
variable {K : Type}

/-- character_utility.cpp:92-108 `mapParents`, for any object type with a parent joint. -/
def mapParents {α : Type} (parent : α → Nat) (withParent : α → Nat → α) (objects : List α)
    (jointMapping : List (Option Nat)) : Option (List α) := do
  let l ← objects.mapM fun o => do
    let m ← jointMapping[parent o]?
    some (m.map (withParent o))
  some (l.filterMap id)

/-- `mapParents<Locator>`. -/
def mapLocatorParents (ls : List (Locator K)) (jm : List (Option Nat)) : Option (List (Locator K)) :=
  mapParents (·.parent) (fun l p => { l with parent := p }) ls jm

/-- `mapParents<TaperedCapsule>`. -/
def mapCapsuleParents (cs : List (TaperedCapsule K)) (jm : List (Option Nat)) :
    Option (List (TaperedCapsule K)) :=
  mapParents (·.parent) (fun c p => { c with parent := p }) cs jm

/-- character_utility.cpp:116-153: one limit of `mapParameterLimits`; inner `none` is "dropped". -/
def mapLimit (jm pm : List (Option Nat)) (l : ParameterLimit K) : Option (Option (ParameterLimit K)) :=
  match l.data with
  | .minMax i lo hi => do
    let m ← pm[i]?
    some (m.map fun k => ⟨.minMax k lo hi, l.weight⟩)
  | .minMaxJoint j d lo hi => do
    let m ← jm[j]?
    some (m.map fun k => ⟨.minMaxJoint k d lo hi, l.weight⟩)
  | .minMaxJointPassive j d lo hi => do
    let m ← jm[j]?
    some (m.map fun k => ⟨.minMaxJointPassive k d lo hi, l.weight⟩)
  | .linear r t sc off rmin rmax => do
    let mr ← pm[r]?
    let mt ← pm[t]?
    some (match mr, mt with
      | some kr, some kt => some ⟨.linear kr kt sc off rmin rmax, l.weight⟩
      | _, _ => none)
  | .halfPlane a b n0 n1 off => do
    let ma ← pm[a]?
    let mb ← pm[b]?
    some (match ma, mb with
      | some ka, some kb => some ⟨.halfPlane ka kb n0 n1 off, l.weight⟩
      | _, _ => none)
  | .ellipsoid e p => do
    let mp ← jm[p]?
    let me ← jm[e]?
    some (match me, mp with
      | some ke, some kp => some ⟨.ellipsoid ke kp, l.weight⟩
      | _, _ => none)

/-- character_utility.cpp:110-156 `mapParameterLimits`. -/
def mapParameterLimits (limits : List (ParameterLimit K)) (jm pm : List (Option Nat)) :
    Option (List (ParameterLimit K)) := do
  let l ← limits.mapM (mapLimit jm pm)
  some (l.filterMap id)

/-- character_utility.cpp:158-174 `mapSkinWeights`: slots with weight zero keep their index; the
`MT_CHECK` on the mapped joint is `none`.  The cast to `int` is not modelled. -/
def mapSkinWeights [Zero K] [DecidableEq K] (rows : List (List (Nat × K))) (jm : List (Option Nat)) :
    Option (List (List (Nat × K))) :=
  rows.mapM fun row => row.mapM fun iw =>
    if iw.2 = 0 then some iw
    else do
      let m ← jm[iw.1]?
      let k ← m
      some (k, iw.2)

/-! ### addMappedParameters -/

/-- character_utility.cpp:199-215: pass 1 of `addMappedParameters`: the parameters with a stored
coefficient in a row of a mapped joint.  The look-ups for rows without coefficients are covered by the size
test in `addMappedParameters`. -/
def validParams (jm : List (Option Nat)) (A : SparseMat K) : Option (List Bool) :=
  A.entries.foldlM (init := List.replicate A.cols false) fun acc e => do
    let m ← jm[e.row / 7]?
    match m with
    | none => some acc
    | some _ => ParameterTransform.setChecked acc e.col true

/-- character_utility.cpp:217-235: the loop naming the kept parameters; state is
`(origParamToNewParam, names)`. `none` includes the exception for a duplicate name. -/
def nameStep (orig : List String) (valid : List Bool) (existing : List String)
    (st : List (Option Nat) × List String) (i : Nat) : Option (List (Option Nat) × List String) :=
  (valid[i]?).bind fun v =>
    if v then
      (orig[i]?).bind fun nm =>
        if nm ∈ existing then none
        else some (st.1.set i (some st.2.length), st.2 ++ [nm])
    else some st

/-- character_utility.cpp:238-256: the new triplets of the original matrix. -/
def mapParamEntries (jm o2n : List (Option Nat)) (es : List (Triplet K)) : Option (List (Triplet K)) := do
  let l ← es.mapM fun e => do
    let m ← jm[e.row / 7]?
    match m with
    | none => some none
    | some t => do
      let c ← o2n[e.col]?
      some (c.map fun k => (⟨t * 7 + e.row % 7, k, e.val⟩ : Triplet K))
  some (l.filterMap id)

/-- `parameterSets[name].set(k)`: creates the entry if it is missing. -/
def setNamedParam (sets : List (String × ParameterSet)) (nm : String) (k : Nat) :
    Option (List (String × ParameterSet)) :=
  match sets.findIdx? (fun ns => ns.1 = nm) with
  | some i => do
    let ns ← sets[i]?
    let t ← ns.2.set k true
    some (sets.set i (ns.1, t))
  | none => do
    let t ← ParameterSet.empty.set k true
    some (sets ++ [(nm, t)])

/-- character_utility.cpp:265-272: body of the inner loop merging the parameter sets. -/
def mergeStep1 (ns : String × ParameterSet) (o2n : List (Option Nat))
    (acc : List (String × ParameterSet)) (i : Nat) : Option (List (String × ParameterSet)) :=
  (ns.2.test i).bind fun b =>
    if b then
      (o2n[i]?).bind fun m =>
        match m with
        | some k => setNamedParam acc ns.1 k
        | none => some acc
    else some acc

/-- character_utility.cpp:262-274: the loops merging the parameter sets. -/
def mergeParamSets (n : Nat) (o2n : List (Option Nat)) (orig : List (String × ParameterSet))
    (res : List (String × ParameterSet)) : Option (List (String × ParameterSet)) :=
  orig.foldlM (init := res) fun acc ns => (List.range n).foldlM (init := acc) (mergeStep1 ns o2n)

/-- character_utility.cpp:195-276 `addMappedParameters`; returns the updated transform and
`origParamToNewParam`.  A triplet outside the resized matrix is out of range for `setFromTriplets`
(`none`). -/
def addMappedParameters (orig : ParameterTransform K) (jm : List (Option Nat))
    (res : ParameterTransform K) : Option (ParameterTransform K × List (Option Nat)) := do
  if orig.transform.rows ≤ 7 * jm.length then
    let valid ← validParams jm orig.transform
    let (o2n, names) ← (List.range orig.transform.cols).foldlM (nameStep orig.name valid res.name)
      (List.replicate orig.transform.cols none, res.name)
    let es ← mapParamEntries jm o2n orig.transform.entries
    let entries := res.transform.entries ++ es
    let sets ← mergeParamSets orig.transform.cols o2n orig.parameterSets res.parameterSets
    if entries.all (fun e => e.row < res.transform.rows && e.col < names.length) then
      some ({ res with
              name := names
              transform := ⟨res.transform.rows, names.length, entries⟩
              parameterSets := sets }, o2n)
    else none
  else none

/-- parameter_transform.cpp:42-50 `ParameterTransformT::empty`. -/
def ParameterTransform.emptyWith [Zero K] (n : Nat) : ParameterTransform K where
  name := []
  transform := ⟨n, 0, []⟩
  offsets := List.replicate n 0
  activeJointParams := List.replicate n false
  parameterSets := []
  poseConstraints := []
  blendShapeParameters := []
  faceExpressionParameters := []

/-! ### removeJoints -/

/-- character_utility.cpp:542-546: the flags of the joints to remove; `none` is the exception. -/
def markRemoved (n : Nat) (toRemove : List Nat) : Option (List Bool) :=
  toRemove.foldlM (init := List.replicate n false) fun acc j =>
    if j ≥ n then none else some (acc.set j true)

/-- character_utility.cpp:555-562: walk up the ancestors looking for a flagged joint. -/
def removedLoop (s : Skeleton K) (flags : List Bool) (parent : Option Nat) : Option Bool :=
  match parent with
  | none => some false
  | some p => flags[p]? >>= fun b =>
    if b then some true
    else s.parentOf p >>= fun q => removedLoop s flags q
partial_fixpoint

/-- character_utility.cpp:552-574: body of the loop over the joints; state is
`(srcToResultJoints, resultSkeleton.joints)`. -/
def removeStep (s : Skeleton K) (flags : List Bool) (st : List (Option Nat) × List (Joint K)) (i : Nat) :
    Option (List (Option Nat) × List (Joint K)) :=
  (removedLoop s flags (some i)).bind fun shouldRemove =>
    if shouldRemove then some st
    else
      (s.joints[i]?).bind fun joint =>
        let jm := st.1.set i (some st.2.length)
        match joint.parent with
        | none => some (jm, st.2 ++ [joint])
        | some p => (jm[p]?).bind fun m => some (jm, st.2 ++ [{ joint with parent := m }])

/-- character_utility.cpp:589-596: walk up until a mapped joint is found. -/
def mappedLoop (s : Skeleton K) (jm : List (Option Nat)) (srcParent : Option Nat) : Option (Option Nat) :=
  match srcParent with
  | none => some none
  | some p => jm[p]? >>= fun m =>
    match m with
    | some k => some (some k)
    | none => s.parentOf p >>= fun q => mappedLoop s jm q
partial_fixpoint

/-- character_utility.cpp:599-602: skin weights are mapped when present. -/
def mapOptSkin [Zero K] [DecidableEq K] (w : Option (List (List (Nat × K)))) (jm : List (Option Nat)) :
    Option (Option (List (List (Nat × K)))) :=
  match w with
  | none => some none
  | some w => (mapSkinWeights w jm).map some

/-- character_utility.cpp:609-612: collision capsules are mapped when present. -/
def mapOptCapsules (g : Option (List (TaperedCapsule K))) (jm : List (Option Nat)) :
    Option (List (TaperedCapsule K)) :=
  match g with
  | none => some []
  | some g => mapCapsuleParents g jm

/-- character_utility.cpp:541-626 `removeJoints`, up to the call of the `Character` constructor (which
recomputes the inverse bind pose because an empty list is passed). -/
def removeJoints [Zero K] [DecidableEq K] (c : Character K) (toRemove : List Nat) : Option (Character K) := do
  let flags ← markRemoved c.skeleton.joints.length toRemove
  let (jm, joints) ← (List.range c.skeleton.joints.length).foldlM (removeStep c.skeleton flags)
    (List.replicate c.skeleton.joints.length none, [])
  let (pt, pm) ← addMappedParameters c.parameterTransform jm (ParameterTransform.emptyWith (joints.length * 7))
  let jmUp ← (List.range c.skeleton.joints.length).mapM fun i => mappedLoop c.skeleton jm (some i)
  let skin ← mapOptSkin c.skinWeights jmUp
  let locators ← mapLocatorParents c.locators jm
  let capsules ← mapOptCapsules c.collision jm
  let limits ← mapParameterLimits c.parameterLimits jm pm
  some { skeleton := ⟨joints⟩
         parameterTransform := pt
         parameterLimits := limits
         locators := locators
         mesh := if c.mesh.isSome && skin.isSome then c.mesh else none
         skinWeights := if c.mesh.isSome && skin.isSome then skin else none
         collision := if capsules.isEmpty then none else some capsules
         inverseBindPose := [] }

end
end Momentum
