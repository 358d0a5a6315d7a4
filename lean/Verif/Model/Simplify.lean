import Verif.Model.ReplaceHierarchy
import Verif.Model.Skinning

/-!
# momentum/character/character.cpp:185-346 `simplifySkeleton`

The result is `Option (Outcome _)`: the outer `none` is a run that never ends, `throws` an exception or a
failed `MT_CHECK`, `ub` an out-of-range access.
-/

namespace Momentum

section
variable {K : Type}

/-- character.cpp:232-236: the `while` loop looking for the nearest ancestor with an entry in `lastJoint`;
called with `currentParent` invalid and `sIndex` valid.  Returns `(currentParent, sIndex)`.  Moving above a root
makes the code read `lastJoint[kInvalidIndex]`. -/
def parentSearch (s : Skeleton K) (last : List (Option Nat)) (sIndex : Nat) : Option (Outcome (Nat × Nat)) :=
  match s.parentOf sIndex with
  | none => some .ub
  | some none => some .ub
  | some (some p) =>
    match last[p]? with
    | none => some .ub
    | some (some k) => some (.ok (k, p))
    | some none => parentSearch s last p
partial_fixpoint

/-- character.cpp:257-261: the `while` loop collecting the pre-rotations of the skipped joints. -/
def preRotationLoop [CommRing K] (s : Skeleton K) (stop : Nat) (parent : Option Nat) (pre : Quat K) :
    Option (Outcome (Quat K)) :=
  match parent with
  | none => some (.ok pre)
  | some p =>
    if p = stop then some (.ok pre)
    else
      match s.joints[p]? with
      | none => some .ub
      | some pj => preRotationLoop s stop pj.parent (pj.preRotation * pre)
partial_fixpoint

/-- character.cpp:274-277: the `while` loop looking for the nearest ancestor-or-self with an entry in
`intermediateJointMap`; `none` inside means that the loop ran past a root. -/
def mapSearch (s : Skeleton K) (inter : List (Option Nat)) (index : Option Nat) : Option (Outcome (Option Nat)) :=
  match index with
  | none => some (.ok none)
  | some i =>
    match inter[i]? with
    | none => some .ub
    | some (some k) => some (.ok (some k))
    | some none =>
      match s.parentOf i with
      | none => some .ub
      | some q => mapSearch s inter q
partial_fixpoint

/-- The local variables of the main loop: `simplifiedSkeleton.joints`, `intermediateJointMap`, `lastJoint`,
`simplifiedJointMap`.  `jointCount` equals the number of joints. -/
structure SimplifyState (K : Type) where
  joints : List (Joint K)
  inter : List (Option Nat)
  last : List (Option Nat)
  map : List (Option Nat)

/-- character.cpp:239-244: the joint's position in the space of its new parent, in the reference state.  The
`else` branch (`sIndex` invalid) is unreachable in the code. -/
def newOffset [Field K] (ref : List (Affine K)) (sIndex a : Nat) : Outcome (Vec3 K) :=
  match ref[sIndex]?, ref[a]? with
  | some ts, some ta => .ok (ts.inverse.apply ta.translation)
  | _, _ => .ub

/-- character.cpp:225-245: new parent, `sIndex` and offset of joint `a`. -/
def simplifyParent [Field K] (s : Skeleton K) (ref : List (Affine K)) (last : List (Option Nat)) (a : Nat)
    (j : Joint K) : Option (Outcome (Option Nat × Nat × Vec3 K)) :=
  match j.parent with
  | none => some (.ok (none, a, j.translationOffset))
  | some _ =>
    thenStep (parentSearch s last a) fun cs =>
      some ((newOffset ref cs.2 a).bind fun off => .ok (some cs.1, cs.2, off))

/-- character.cpp:248-272: an enabled joint. -/
def simplifyEnabled [Field K] (s : Skeleton K) (st : SimplifyState K) (a : Nat) (j : Joint K)
    (x : Option Nat × Nat × Vec3 K) : Option (Outcome (SimplifyState K)) :=
  thenStep (preRotationLoop s x.2.1 j.parent j.preRotation) fun pre =>
    some (.ok { joints := st.joints ++ [{ j with parent := x.1, translationOffset := x.2.2, preRotation := pre }]
                inter := st.inter.set a (some st.joints.length)
                last := st.last.set a (some st.joints.length)
                map := st.map.set a (some st.joints.length) })

/-- character.cpp:273-287: a disabled joint. -/
def simplifyDisabled (s : Skeleton K) (st : SimplifyState K) (a : Nat) : Option (Outcome (SimplifyState K)) :=
  thenStep (mapSearch s st.inter (some a)) fun m =>
    match m with
    | none => some .throws
    | some k => some (.ok { st with map := st.map.set a (some k) })

/-- character.cpp:222-288: body of the main loop. -/
def simplifyStep [Field K] (s : Skeleton K) (enabled : List Bool) (ref : List (Affine K))
    (st : SimplifyState K) (a : Nat) : Option (Outcome (SimplifyState K)) :=
  match s.joints[a]?, enabled[a]? with
  | some j, some en =>
    thenStep (simplifyParent s ref st.last a j) fun x =>
      if en then simplifyEnabled s st a j x else simplifyDisabled s st a
  | _, _ => some .ub

/-- character.cpp:219-288: the main loop. -/
def simplifyLoop [Field K] (s : Skeleton K) (enabled : List Bool) (ref : List (Affine K)) :
    Option (Outcome (SimplifyState K)) :=
  (List.range s.joints.length).foldl
    (fun (acc : Option (Outcome (SimplifyState K))) a => thenStep acc fun st => simplifyStep s enabled ref st a)
    (some (.ok ⟨[], List.replicate s.joints.length none, List.replicate s.joints.length none,
      List.replicate s.joints.length none⟩))

/-- character.cpp:206-212: the offsets with those of the enabled joints zeroed. -/
def zeroOffsets [Zero K] (offsets : List K) (enabled : List Bool) : List K :=
  offsets.mapIdx fun i x => if enabled.getD (i / 7) false then 0 else x

end

/-- character.cpp:204-221: the joint transformations of the reference state.  Writing the offsets of an enabled
joint beyond the end of the vector is undefined; the model takes any vector shorter than the skeleton needs as
`ub`. -/
noncomputable def referenceState (s : Skeleton ℝ) (pt : ParameterTransform ℝ) (enabled : List Bool) :
    Outcome (List JointState) :=
  if pt.offsets.length < s.joints.length * 7 then .ub
  else
    ofOption (do
      let jp ← { pt with offsets := zeroOffsets pt.offsets enabled }.apply (List.replicate pt.transform.cols 0)
      skeletonState s jp false) .throws

/-- The members of the simplified character that concern joints. -/
structure Simplified where
  skeleton : Skeleton ℝ
  parameterTransform : ParameterTransform ℝ
  jointMap : List (Option Nat)

/-- character.cpp:289-303: the checks and the remapping after the loop.  Failures of
`mapParameterTransformJoints` are merged into `throws`. -/
noncomputable def simplifyFinish (pt : ParameterTransform ℝ) (st : SimplifyState ℝ) : Outcome Simplified :=
  if st.joints.isEmpty then .throws
  else (ofOption (pt.mapJoints st.joints.length st.inter) .throws).bind fun q =>
    .ok ⟨⟨st.joints⟩, q, st.map⟩

/-- character.cpp:185-303 `simplifySkeleton` up to the joint map. -/
noncomputable def simplifySkeleton (s : Skeleton ℝ) (pt : ParameterTransform ℝ) (enabled : List Bool) :
    Option (Outcome Simplified) :=
  if enabled.length ≠ s.joints.length then some .throws
  else if true ∉ enabled then some .throws
  else
    thenStep (some (referenceState s pt enabled)) fun ref =>
      thenStep (simplifyLoop s enabled (worldAffines ref)) fun st => some (simplifyFinish pt st)

section
variable {K : Type} [Field K]

/-- character.cpp:513-520 `remapLocators`, the loop; `src` and `tgt` are the joint transformations of the two
bind states; `none` is an out-of-range access. -/
def remapLocators (jointMap : List (Option Nat)) (src tgt : List (Affine K)) (locators : List (Locator K)) :
    Option (List (Locator K)) :=
  locators.mapM fun l => do
    let m ← jointMap[l.parent]?
    let k ← m
    let t ← tgt[k]?
    let s ← src[l.parent]?
    some { l with parent := k, offset := (t.inverse * s).apply l.offset }

/-- character.cpp:325-333: the remapping of the collision geometry. -/
def remapCapsules (jointMap : List (Option Nat)) (src tgt : List (Affine K)) (g : List (TaperedCapsule K)) :
    Option (List (TaperedCapsule K)) :=
  g.mapM fun c => do
    let m ← jointMap[c.parent]?
    let k ← m
    let t ← tgt[k]?
    let s ← src[c.parent]?
    some { c with parent := k, transformation := t.inverse * s * c.transformation }

end
end Momentum
