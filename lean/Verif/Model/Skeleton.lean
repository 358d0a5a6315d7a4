import Verif.Model.Transform

/-!
# momentum/character/joint.h, skeleton.h, skeleton.cpp

`kInvalidIndex` is modelled by `none`.  Functions return in `Option`: `none` is any outcome other
than returning a value (failed `MT_CHECK`, exception, out-of-range vector access, or a loop that
never ends; loops are modelled with `partial_fixpoint`, whose bottom element is `none`).
-/

namespace Momentum

/-- momentum/character/joint.h:18-34 `JointT`. -/
structure Joint (K : Type*) where
  name : String
  parent : Option Nat
  preRotation : Quat K
  translationOffset : Vec3 K

/-- momentum/character/skeleton.h:20-24 `SkeletonT` (its only data member is the joint list). -/
structure Skeleton (K : Type*) where
  joints : List (Joint K)

namespace Skeleton
variable {K : Type*}

/-- `joints[j].parent`: out-of-range `j` is undefined behaviour (`none`). -/
def parentOf (s : Skeleton K) (j : Nat) : Option (Option Nat) := (s.joints[j]?).map (·.parent)

/-- skeleton.cpp:16-22, constructor: check that every parent is invalid or precedes its child. -/
def construct (joints : List (Joint K)) : Option (Skeleton K) :=
  if (List.range joints.length).all (fun i =>
      match (joints[i]?).map (·.parent) with
      | some (some p) => p < i
      | _ => true)
  then some ⟨joints⟩ else none

/-- skeleton.cpp:28-33, the `while` loop of `isAncestor`. -/
def isAncestorLoop (s : Skeleton K) (ancestor : Nat) (j : Option Nat) : Option Bool :=
  match j with
  | none => some false
  | some j =>
    if j = ancestor then some true
    else do
      let p ← s.parentOf j
      isAncestorLoop s ancestor p
partial_fixpoint

/-- skeleton.cpp:24-36 `isAncestor`. -/
def isAncestor (s : Skeleton K) (j ancestor : Nat) : Option Bool :=
  if j < s.joints.length then
    if ancestor < s.joints.length then isAncestorLoop s ancestor (some j) else none
  else none

/-- skeleton.cpp:43-49, the `while` loop of `commonAncestor`; returns the final `joint1`. -/
def commonAncestorLoop (s : Skeleton K) (j1 j2 : Option Nat) : Option (Option Nat) :=
  match j1, j2 with
  | some a, some b =>
    if a = b then some (some a)
    else if a < b then do
      let p ← s.parentOf b
      commonAncestorLoop s (some a) p
    else do
      let p ← s.parentOf a
      commonAncestorLoop s p (some b)
  | j1, _ => some j1
partial_fixpoint

/-- skeleton.cpp:38-52 `commonAncestor`. -/
def commonAncestor (s : Skeleton K) (j1 j2 : Option Nat) : Option (Option Nat) :=
  if (∀ a ∈ j1, a < s.joints.length) ∧ (∀ b ∈ j2, b < s.joints.length)
  then commonAncestorLoop s j1 j2 else none

/-- skeleton.h:28-33 `getJointIdByName`: index of the first joint with the name. -/
def getJointIdByName (s : Skeleton K) (name : String) : Option Nat :=
  s.joints.findIdx? (fun j => j.name = name)

/-- skeleton.h:36-42 `getJointNames`. -/
def getJointNames (s : Skeleton K) : List String := s.joints.map (·.name)

/-- skeleton.h:57-65, body of the loop of `getChildrenJoints` over `jointIter`; the state is
`(jointDistance, childrenJoints)`. An out-of-range parent read is `none`. -/
def childrenStep (s : Skeleton K) (recursive : Bool) (st : List Int × List Nat) (i : Nat) :
    Option (List Int × List Nat) :=
  (s.parentOf i).bind fun par =>
    (match par with
      | none => some (-1)
      | some p => st.1[p]?).bind fun dist =>
        if (recursive ∧ dist ≥ 0) ∨ (¬ recursive ∧ dist = 0) then
          some (st.1.set i (dist + 1), st.2 ++ [i])
        else some st

/-- skeleton.h:44-68 `getChildrenJoints`. -/
def getChildrenJoints (s : Skeleton K) (j : Nat) (recursive : Bool) : Option (List Nat) :=
  if j ≥ s.joints.length then none
  else
    ((List.range' (j + 1) (s.joints.length - (j + 1))).foldlM (childrenStep s recursive)
      ((List.replicate s.joints.length (-1 : Int)).set j 0, [])).map (·.2)

end Skeleton
end Momentum
