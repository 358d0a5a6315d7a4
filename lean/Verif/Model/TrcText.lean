import Verif.Model.LineReader
import Mathlib.Algebra.Field.Defs

/-!
# Marker files

momentum/io/marker/conversions.cpp: `toUnit` and `toMomentumVector3`; momentum/io/marker/trc_io.cpp: `loadTrc`.  Numbers are of a field.
How `std::stod` and `std::stoi` read a word is a parameter, with `none` for an exception.
-/

namespace Momentum.TrcText

open TransformText (pieces tokenize isWhite)
open LineReader (Stream getLine lineLoop)

/-- coordinate_system.h:14-19 `UpVector`. -/
inductive UpVector | x | y | z | yNeg
deriving DecidableEq

/-- coordinate_system.h:22-28 `Unit`. -/
inductive LengthUnit | m | dm | cm | mm | unknown
deriving DecidableEq

/-- conversions.cpp:16-28 `toUnit`. -/
def toUnit (s : List Char) : LengthUnit :=
  if s = ['m'] ∨ s = ['M'] then .m
  else if s = ['d', 'm'] ∨ s = ['D', 'M'] then .dm
  else if s = ['c', 'm'] ∨ s = ['C', 'M'] then .cm
  else if s = ['m', 'm'] ∨ s = ['M', 'M'] then .mm
  else .unknown

section
variable {K : Type} [Field K]

/-- conversions.cpp:52-75: the number of centimetres. -/
def unitScale : LengthUnit → K
  | .m => 100
  | .dm => 10
  | .cm => 1
  | .mm => 1 / 10
  | .unknown => 1

/-- conversions.cpp:78-95: the axes. -/
def turnUp (up : UpVector) (v : Vec3 K) : Vec3 K :=
  match up with
  | .x => ⟨v.y, v.z, v.x⟩
  | .y => ⟨v.x, v.z, -v.y⟩
  | .z => v
  | .yNeg => ⟨v.x, -v.z, v.y⟩

/-- conversions.cpp:48-98 `toMomentumVector3`. -/
def toMomentum (v : Vec3 K) (up : UpVector) (unit : LengthUnit) : Vec3 K :=
  turnUp up ⟨v.x * unitScale unit, v.y * unitScale unit, v.z * unitScale unit⟩

/-- marker.h:18-28 `Marker`. -/
structure TrcMarker (K : Type) where
  name : List Char
  pos : Vec3 K
  occluded : Bool

/-- marker.h `MarkerSequence`, without the name, which `loadTrc` does not set. -/
structure TrcSequence (K : Type) where
  fps : K
  frames : List (List (TrcMarker K))

/-- trc_io.cpp:19-20: what is returned when the header is not as expected. -/
def noSequence : TrcSequence K := ⟨0, []⟩

/-- string.cpp:41-67 `tokenize` with `trim = false`. -/
def allPieces (d : Char → Bool) (s : List Char) : List (List Char) := if s = [] then [] else pieces d s

/-- trc_io.cpp:71-83: one marker of a frame.  The unit is word 4 of the line with the data, since `tokens` was assigned anew. -/
def readMarker (stod : List Char → Option K) (up : UpVector) (names tokens : List (List Char)) (i : Nat) : Outcome (TrcMarker K) :=
  match names[i]?, tokens[i * 3 + 2]?, tokens[i * 3 + 3]?, tokens[i * 3 + 4]?, tokens[4]? with
  | some name, some a, some b, some c, some u =>
    if a = [] ∨ b = [] ∨ c = [] then .ok ⟨name, ⟨0, 0, 0⟩, true⟩
    else
      match stod a, stod b, stod c with
      | some x, some y, some z => .ok ⟨name, toMomentum ⟨x, y, z⟩ up (toUnit u), false⟩
      | _, _, _ => .throws
  | _, _, _, _, _ => .ub

/-- A loop that collects one result per turn. -/
def collect {α : Type} (f : Nat → Outcome α) : List Nat → Outcome (List α)
  | [] => .ok []
  | i :: is => (f i).bind fun a => (collect f is).bind fun as => .ok (a :: as)

/-- trc_io.cpp:62-86: one line.  `numMarkers` is a `size_t` made from an `int`: for a negative number the comparison is with a number
that no line reaches. -/
def frameLine (stod : List Char → Option K) (up : UpVector) (n : Int) (names : List (List Char)) (fs : List (List (TrcMarker K)))
    (line : List Char) : Outcome (List (List (TrcMarker K))) :=
  let tokens := allPieces (· = '\t') line
  if (tokens.length : Int) ≠ n * 3 + 2 then .ok fs
  else (collect (readMarker stod up names tokens) (List.range n.toNat)).bind fun ms => .ok (fs ++ [ms])

/-- `std::string::find` finds the text. -/
def containsText (text s : List Char) : Bool := s.tails.any fun t => text.isPrefixOf t

/-- trc_io.cpp:30. -/
def trcMagic : List Char := "PathFileType\t4\t(X/Y/Z)".toList

/-- trc_io.cpp:35. -/
def trcColumns : List Char :=
  "DataRate\tCameraRate\tNumFrames\tNumMarkers\tUnits\tOrigDataRate\tOrigDataStartFrame\tOrigNumFrames".toList

/-- trc_io.cpp:47-89: from the names on.  The sum `numMarkers + 2` is of `size_t`: it is right for -1 and -2. -/
def loadFrames (stod : List Char → Option K) (up : UpVector) (fps : K) (n : Int) (s : Stream) : Option (Outcome (TrcSequence K)) :=
  let line := getLine s
  let tokens := tokenize isWhite line.1
  if (tokens.length : Int) ≠ n + 2 then some (.ok noSequence)
  else
    thenStep (lineLoop (frameLine stod up n (tokens.drop 2)) [] (getLine line.2).2) fun fs => some (.ok ⟨fps, fs⟩)

/-- trc_io.cpp:39-46: the third line. -/
def loadRates (stod : List Char → Option K) (stoi : List Char → Option Int) (up : UpVector) (s : Stream) : Option (Outcome (TrcSequence K)) :=
  let line := getLine s
  match tokenize isWhite line.1 with
  | [rate, _, _, num, _, _, _, _] =>
    match stod rate, stoi num with
    | some fps, some n => loadFrames stod up fps n line.2
    | _, _ => some .throws
  | _ => some (.ok noSequence)

/-- trc_io.cpp:18-90 `loadTrc`, on a file that could be opened. -/
def loadTrc (stod : List Char → Option K) (stoi : List Char → Option Int) (up : UpVector) (text : List Char) :
    Option (Outcome (TrcSequence K)) :=
  let first := getLine (Stream.ofText text)
  if containsText trcMagic first.1 = false then some (.ok noSequence)
  else
    let second := getLine first.2
    if containsText trcColumns second.1 = false then some (.ok noSequence)
    else loadRates stod stoi up second.2

end

end Momentum.TrcText
