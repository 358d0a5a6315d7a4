import Verif.Model.Limits
import Verif.Model.Skeleton
import Mathlib.Analysis.SpecialFunctions.Trigonometric.Basic

/-!
# Small utilities: extrapolation, motion remapping by name, unit conversions, NaN test
-/

namespace Momentum

section
variable {K : Type} [CommRing K] [LinearOrder K]

/-- skeleton_utility.cpp:13-28 `extrapolateModelParameters`, all parameters. `cwiseMin(maxDelta)`
then `cwiseMax(-maxDelta)`. -/
def extrapolateAll (previous current : List K) (factor maxDelta : K) : List K :=
  if current.length ≠ previous.length then current
  else List.zipWith (fun c p => c + max (min (c - p) maxDelta) (-maxDelta) * factor) current previous

/-- `std::clamp(v, lo, hi)`: undefined when `hi < lo`. -/
def stdClamp (v lo hi : K) : Outcome K :=
  if hi < lo then .ub else .ok (if v < lo then lo else if hi < v then hi else v)

/-- skeleton_utility.cpp:44-48: loop body; `test` throws outside the bit set. -/
def extrapolateStep (previous current : List K) (active : ParameterSet) (factor maxDelta : K) (result : List K)
    (i : Nat) : Outcome (List K) :=
  match active.test i, current[i]?, previous[i]? with
  | none, _, _ => .throws
  | some false, _, _ => .ok result
  | some true, some c, some p =>
    (stdClamp (c - p) (-maxDelta) maxDelta).bind fun d => .ok (result.set i (c + factor * d))
  | some true, _, _ => .ub

/-- skeleton_utility.cpp:30-52 `extrapolateModelParameters`, active parameters. -/
def extrapolateActive (previous current : List K) (active : ParameterSet) (factor maxDelta : K) : Outcome (List K) :=
  if current.length ≠ previous.length then .ok current
  else (List.range current.length).foldl
    (fun (acc : Outcome (List K)) i => acc.bind fun r => extrapolateStep previous current active factor maxDelta r i)
    (.ok current)

end

section
variable {K : Type} [Zero K]

/-- parameter_transform.cpp:21-28 `getParameterIdByName`: first parameter with the name. -/
def getParameterIdByName (names : List String) (s : String) : Option Nat := names.findIdx? (fun n => n = s)

/-- character_utility.cpp:643-650: one name of `mapMotionToCharacter`. -/
def mapMotionStep (targetNames : List String) (motion : List (List K)) (result : List (List K))
    (i : Nat) (name : String) : Option (List (List K)) :=
  match getParameterIdByName targetNames name with
  | some index => do
    let row ← motion[i]?
    some (result.set index row)
  | none => some result

/-- character_utility.cpp:628-653 `mapMotionToCharacter`: the motion is a list of rows with `cols` columns.
`none` is a failed check. -/
def mapMotionToCharacter (targetNames : List String) (names : List String) (cols : Nat) (motion : List (List K)) :
    Option (List (List K)) :=
  if names.length = motion.length then
    (List.range names.length).foldlM (fun result i => mapMotionStep targetNames motion result i (names.getD i ""))
      (List.replicate targetNames.length (List.replicate cols 0))
  else none

/-- `result.middleRows<7>(a) = v.middleRows<7>(b)`. -/
def copyBlock (result v : List K) (a b : Nat) : Option (List K) :=
  if a + 7 ≤ result.length ∧ b + 7 ≤ v.length then
    some (result.take a ++ ((v.drop b).take 7 ++ result.drop (a + 7)))
  else none

/-- character_utility.cpp:669-677: one name of `mapIdentityToCharacter`. -/
def mapIdentityStep (jointNames : List String) (identity : List K) (result : List K) (i : Nat) (name : String) :
    Option (List K) :=
  match jointNames.findIdx? (fun n => n = name) with
  | some index => copyBlock result identity (index * 7) (i * 7)
  | none => some result

/-- character_utility.cpp:655-680 `mapIdentityToCharacter`; `targetJoints` are the joint names of the
character (`getJointIdByName` is the first match). -/
def mapIdentityToCharacter (targetJoints : List String) (names : List String) (identity : List K) : Option (List K) :=
  if names.length * 7 = identity.length then
    (List.range names.length).foldlM (fun result i => mapIdentityStep targetJoints identity result i (names.getD i ""))
      (List.replicate (targetJoints.length * 7) 0)
  else none

end

/-- constants.h `toRad`. -/
noncomputable def toRad (x : ℝ) : ℝ := x * Real.pi / 180
/-- constants.h `toDeg`. -/
noncomputable def toDeg (x : ℝ) : ℝ := x * 180 / Real.pi
/-- constants.h `toM`; exact real arithmetic. -/
noncomputable def toM (x : ℝ) : ℝ := x * 0.01
/-- constants.h `toCm`. -/
noncomputable def toCm (x : ℝ) : ℝ := x * 100

/-- math/utility.h:22-28 `IsNanNoOpt` on the bit pattern of the float. -/
def isNanNoOpt (x : BitVec 32) : Bool := (0xff000000#32).ult (x <<< 1)

end Momentum
