import Verif.Model.Character
import Verif.Model.Bvh

/-!
# momentum/character/character_utility.cpp:380-539 `replaceSkeletonHierarchy`

The result is `Option (Outcome _)`: the outer `none` is a run that never ends, `throws` an exception or a
failed `MT_CHECK`, `ub` an out-of-range access.
-/

namespace Momentum

/-- The local variables of the first loop: `combinedSkeleton.joints`, `combinedSkeletonJointMapping`,
`srcToCombinedJoints`, `tgtToCombinedJoints`. -/
structure CombineState (K : Type) where
  joints : List (Joint K)
  names : List (String × Nat)
  srcMap : List (Option Nat)
  tgtMap : List (Option Nat)

section
variable {K : Type}

/-- character_utility.cpp:423-429: the combined index of the parent, found by the *name* of the original
parent; the `MT_CHECK` is `throws`. -/
def combinedParent (s : Skeleton K) (names : List (String × Nat)) (parent : Option Nat) :
    Outcome (Option Nat) :=
  match parent with
  | none => .ok none
  | some p =>
    match s.joints[p]? with
    | none => .ub
    | some pj =>
      match names.lookup pj.name with
      | none => .throws
      | some k => .ok (some k)

/-- character_utility.cpp:408-433: the lambda `addJoint`; `isSrc` says which joint map is passed.  The joint's
own name is registered before its parent's name is looked up. -/
def addJoint (s : Skeleton K) (isSrc : Bool) (st : CombineState K) (i : Nat) : Outcome (CombineState K) :=
  match s.joints[i]? with
  | none => .ub
  | some jt =>
    if (st.names.lookup jt.name).isSome then .throws
    else
      let k := st.joints.length
      let names := st.names ++ [(jt.name, k)]
      (combinedParent s names jt.parent).bind fun par =>
        .ok { joints := st.joints ++ [{ jt with parent := par }]
              names := names
              srcMap := if isSrc then st.srcMap.set i (some k) else st.srcMap
              tgtMap := if isSrc then st.tgtMap else st.tgtMap.set i (some k) }

/-- A call whose only modelled outcomes are a value or a failure. -/
def ofOption {α : Type} (x : Option α) (fail : Outcome α) : Outcome α :=
  match x with
  | some a => .ok a
  | none => fail

/-- character_utility.cpp:446-449: body of the loop over the source joints. -/
def addSrcStep (src : Skeleton K) (srcRoot : Nat) (st : CombineState K) (k : Nat) :
    Outcome (CombineState K) :=
  (ofOption (src.isAncestor k srcRoot) .ub).bind fun b =>
    if b then addJoint src true st k else .ok st

/-- character_utility.cpp:445-450: the loop over the source joints after the source root. -/
def addSrcLoop (src : Skeleton K) (srcRoot : Nat) (st : CombineState K) : Outcome (CombineState K) :=
  (List.range' (srcRoot + 1) (src.joints.length - (srcRoot + 1))).foldl
    (fun (acc : Outcome (CombineState K)) k => acc.bind fun st => addSrcStep src srcRoot st k) (.ok st)

/-- character_utility.cpp:438-454: body of the loop over the target joints. -/
def addTgtStep (src tgt : Skeleton K) (srcRoot tgtRoot : Nat) (st : CombineState K) (i : Nat) :
    Outcome (CombineState K) :=
  if i = tgtRoot then
    (addJoint tgt false st i).bind fun st => addSrcLoop src srcRoot st
  else
    (ofOption (tgt.isAncestor i tgtRoot) .ub).bind fun b =>
      if b then .ok st else addJoint tgt false st i

/-- character_utility.cpp:402-455: the combined skeleton. -/
def combineSkeletons (src tgt : Skeleton K) (srcRoot tgtRoot : Nat) : Outcome (CombineState K) :=
  (List.range tgt.joints.length).foldl
    (fun (acc : Outcome (CombineState K)) i => acc.bind fun st => addTgtStep src tgt srcRoot tgtRoot st i)
    (.ok ⟨[], [], List.replicate src.joints.length none, List.replicate tgt.joints.length none⟩)

/-- character_utility.cpp:512-519: the `while` loop that looks for a joint to carry the skinning of target
joint `i`.  Line 518 takes the parent of `iTgtJoint`, not of `tgtParent`. -/
def skinLoop (tgt : Skeleton K) (names : List (String × Nat)) (i : Nat) (cur : Option Nat) :
    Option (Outcome (Option Nat)) :=
  match cur with
  | none => some (.ok none)
  | some p =>
    match tgt.joints[p]?, tgt.joints[i]? with
    | some pj, some ij =>
      match names.lookup pj.name with
      | some k => some (.ok (some k))
      | none => skinLoop tgt names i ij.parent
    | _, _ => some .ub
partial_fixpoint

/-- character_utility.cpp:511-521: one iteration of the loop over the target joints; the `MT_CHECK` of line 520
is `throws`. -/
def skinStep (tgt : Skeleton K) (names : List (String × Nat)) (acc : List (Option Nat)) (i : Nat) :
    Option (Outcome (List (Option Nat))) :=
  (skinLoop tgt names i (some i)).map fun o => o.bind fun m =>
    match m with
    | some k => .ok (acc ++ [some k])
    | none => .throws

/-- Sequencing of `Option (Outcome _)` steps. -/
def thenStep {α β : Type} (x : Option (Outcome α)) (f : α → Option (Outcome β)) : Option (Outcome β) :=
  match x with
  | none => none
  | some (.ok a) => f a
  | some .throws => some .throws
  | some .ub => some .ub

/-- character_utility.cpp:509-521: `tgtToCombinedWithParents`. -/
def skinMap (tgt : Skeleton K) (names : List (String × Nat)) : Option (Outcome (List (Option Nat))) :=
  (List.range tgt.joints.length).foldl (fun (acc : Option (Outcome (List (Option Nat)))) i =>
    thenStep acc fun l => skinStep tgt names l i) (some (.ok []))

/-- character_utility.cpp:278-293 `removeDuplicateLocators`. -/
def removeDuplicateLocators (locators toRemove : List (Locator K)) : List (Locator K) :=
  locators.filter fun l => !(toRemove.any fun r => r.name = l.name)

/-- character_utility.cpp:457-503: locators, collision geometry, parameter transform and limits of the
combined character.  All failures of the helpers (exceptions, failed checks, out-of-range indices) are merged
into `throws`. -/
def combineRest [CommRing K] (src tgt : Character K) (st : CombineState K) : Outcome (Character K) :=
  ofOption (do
    let srcLocs ← mapLocatorParents src.locators st.srcMap
    let tgtLocs ← mapLocatorParents tgt.locators st.tgtMap
    let tgtCaps ← mapOptCapsules tgt.collision st.tgtMap
    let srcCaps ← mapOptCapsules src.collision st.srcMap
    let (pt1, tgtParams) ← addMappedParameters tgt.parameterTransform st.tgtMap
      (ParameterTransform.emptyWith (st.joints.length * 7))
    let (pt2, srcParams) ← addMappedParameters src.parameterTransform st.srcMap pt1
    let active ← pt2.computeActiveJointParams ParameterSet.all
    let tgtLims ← mapParameterLimits tgt.parameterLimits st.tgtMap tgtParams
    let srcLims ← mapParameterLimits src.parameterLimits st.srcMap srcParams
    some { skeleton := ⟨st.joints⟩
           parameterTransform := { pt2 with activeJointParams := active }
           parameterLimits := tgtLims ++ srcLims
           locators := removeDuplicateLocators tgtLocs srcLocs ++ srcLocs
           mesh := tgt.mesh
           skinWeights := none
           collision := if (tgtCaps ++ srcCaps).isEmpty then none else some (tgtCaps ++ srcCaps)
           inverseBindPose := [] }) .throws

/-- character_utility.cpp:523-538: skin weights and the constructor call (which keeps the mesh only together
with skin weights). -/
def withSkin [Zero K] [DecidableEq K] (tgt c : Character K) (jm : List (Option Nat)) : Outcome (Character K) :=
  (ofOption (mapOptSkin tgt.skinWeights jm) .throws).bind fun skin =>
    .ok { c with
      mesh := if tgt.mesh.isSome && skin.isSome then tgt.mesh else none
      skinWeights := if tgt.mesh.isSome && skin.isSome then skin else none }

/-- character_utility.cpp:380-539 `replaceSkeletonHierarchy`. -/
def replaceSkeletonHierarchy [CommRing K] [DecidableEq K] (src tgt : Character K)
    (srcRootJoint tgtRootJoint : String) : Option (Outcome (Character K)) :=
  if src.skeleton.joints.isEmpty then some .throws
  else
    match tgt.skeleton.getJointIdByName tgtRootJoint, src.skeleton.getJointIdByName srcRootJoint with
    | some tgtRoot, some srcRoot =>
      thenStep (some (combineSkeletons src.skeleton tgt.skeleton srcRoot tgtRoot)) fun st =>
        thenStep (some (combineRest src tgt st)) fun c =>
          thenStep (skinMap tgt.skeleton st.names) fun jm => some (withSkin tgt c jm)
    | _, _ => some .throws

end
end Momentum
