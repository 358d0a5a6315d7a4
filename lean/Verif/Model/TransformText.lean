import Verif.Model.LimitsText
import Verif.Model.ReplaceHierarchy

/-!
# The text format of parameter transforms

momentum/io/skeleton/parameter_transform_io.cpp: `parseParameterTransform`, `parseParameterSets`, `parsePoseConstraints` and
`loadModelDefinition`, with momentum/common/string.cpp.  Texts are lists of characters.  How `std::stod` and `std::stof` read a number
(blanks before it, anything after it, exceptions) is a parameter `read` with `none` for an exception; the conversion to single precision
is part of it.  The value `none` of a parser stands for a run that does not end, `throws` for an exception.
-/

namespace Momentum.TransformText

open LimitsText (getLines withoutComment jointParameterNames)

/-- string.h:17 `" \t"`; `std::strchr` also finds the zero character that ends a C string. -/
def isBlank (c : Char) : Bool := c = ' ' || c = '\t' || c = '\x00'

/-- string.cpp:15-32 `trim`. -/
def trim (s : List Char) : List Char := ((s.reverse.dropWhile isBlank).reverse).dropWhile isBlank

/-- string.cpp:49-63: the pieces of a text between delimiters. -/
def pieces (d : Char → Bool) : List Char → List (List Char)
  | [] => [[]]
  | c :: s =>
    if d c then [] :: pieces d s
    else
      match pieces d s with
      | [] => [[c]]
      | p :: ps => (c :: p) :: ps

/-- string.cpp:41-67 `tokenize` with its default argument: empty pieces are dropped. -/
def tokenize (d : Char → Bool) (s : List Char) : List (List Char) := (pieces d s).filter (· ≠ [])

/-- Steps one after another. -/
def runSteps {σ α : Type} (f : σ → α → Option (Outcome σ)) : σ → List α → Option (Outcome σ)
  | s, [] => some (.ok s)
  | s, a :: l => thenStep (f s a) fun s' => runSteps f s' l

/-- parameter_transform_io.cpp:208-213: what `parseParameterTransform` builds up. -/
structure ParseState (K : Type) where
  names : List (List Char)
  triplets : List (Triplet K)
  offsets : List K
  active : List Bool

section
variable {K : Type} [CommRing K]

/-- skeleton.h:28-33 `getJointIdByName`. -/
def jointIdByName (sk : Skeleton K) (w : List Char) : Option Nat := sk.joints.findIdx? fun j => j.name.toList = w

/-- parameter_transform_io.cpp:142-147 and 250-256: the place of a name in `kJointParameterNames`. -/
def attributeOf (w : List Char) : Option Nat := jointParameterNames.findIdx? (· = w)

/-- parameter_transform_io.cpp:140-148: the attribute of a reference; without a dot `substr` starts at 0. -/
def refAttribute (name : List Char) : Option Nat :=
  attributeOf (if '.' ∈ name then (name.dropWhile (· ≠ '.')).tail else name)

/-- parameter_transform_io.cpp:166-174: the loop that copies the triplets of a row.  It appends to the list it walks over. -/
def copyLoop (row ref : Nat) (w : K) (tr : Nat) (ts : List (Triplet K)) : Option (List (Triplet K)) :=
  match ts[tr]? with
  | none => some ts
  | some t => copyLoop row ref w (tr + 1) (if t.row = ref then ts ++ [⟨row, t.col, t.val * w⟩] else ts)
partial_fixpoint

/-- parameter_transform_io.cpp:127-183: `weight * name`. -/
def addWeighted (sk : Skeleton K) (row : Nat) (s : ParseState K) (w : K) (name : List Char) : Option (Outcome (ParseState K)) :=
  match s.names.findIdx? (· = name), jointIdByName sk (name.takeWhile (· ≠ '.')) with
  | none, none => some (.ok { s with names := s.names ++ [name], triplets := s.triplets ++ [⟨row, s.names.length, w⟩] })
  | some i, _ => some (.ok { s with triplets := s.triplets ++ [⟨row, i, w⟩] })
  | none, some j =>
    match refAttribute name with
    | some a => (copyLoop row (j * 7 + a) w 0 s.triplets).map fun ts => .ok { s with triplets := ts }
    | none => some .throws

/-- parameter_transform_io.cpp:109-184: one summand. -/
def addTerm (read : List Char → Option K) (sk : Skeleton K) (row : Nat) (s : ParseState K) (dtoken : List Char) :
    Option (Outcome (ParseState K)) :=
  match tokenize (· = '*') dtoken with
  | [c] =>
    match read c with
    | some w => some (.ok { s with offsets := s.offsets.set row w })
    | none => some .throws
  | [c, n] =>
    match read c with
    | some w => addWeighted sk row s w (trim n)
    | none => some .throws
  | _ => some (.ok s)

/-- parameter_transform_io.cpp:240-265: the line `left = right`. -/
def assign (read : List Char → Option K) (sk : Skeleton K) (s : ParseState K) (left right : List Char) :
    Option (Outcome (ParseState K)) :=
  match tokenize (· = '.') left with
  | [a, b] =>
    match jointIdByName sk (trim a), attributeOf (trim b) with
    | some j, some d =>
      runSteps (addTerm read sk (j * 7 + d)) { s with active := s.active.set (j * 7 + d) true } (tokenize (· = '+') right)
    | _, _ => some .throws
  | _ => some .throws

/-- parameter_transform_io.cpp:221-231: lines for the other parsers. -/
def isOther (line : List Char) : Bool :=
  "limit".toList.isPrefixOf line || "parameterset".toList.isPrefixOf line || "poseconstraints".toList.isPrefixOf line

/-- parameter_transform_io.cpp:217-266: one line. -/
def defineLine (read : List Char → Option K) (sk : Skeleton K) (s : ParseState K) (text : List Char) :
    Option (Outcome (ParseState K)) :=
  let line := withoutComment text
  if isOther line then some (.ok s)
  else
    match tokenize (· = '=') line with
    | [left, right] => assign read sk s left right
    | _ => some (.ok s)

/-- parameter_transform_io.cpp:208-210. -/
def initialState (sk : Skeleton K) : ParseState K :=
  ⟨[], [], List.replicate (sk.joints.length * 7) 0, List.replicate (sk.joints.length * 7) false⟩

/-- parameter_transform_io.cpp:268-283: the parameter transform at the end. -/
def finish [DecidableEq K] (sk : Skeleton K) (s : ParseState K) : ParameterTransform K where
  name := s.names.map String.ofList
  transform := ⟨sk.joints.length * 7, s.names.length, s.triplets.filter fun t => t.val ≠ 0⟩
  offsets := s.offsets
  activeJointParams := s.active
  parameterSets := []
  poseConstraints := []
  blendShapeParameters := []
  faceExpressionParameters := []

/-- parameter_transform_io.cpp:207-284 `parseParameterTransform`. -/
def parseParameterTransform [DecidableEq K] (read : List Char → Option K) (data : List Char) (sk : Skeleton K) :
    Option (Outcome (ParameterTransform K)) :=
  thenStep (runSteps (defineLine read sk) (initialState sk) (getLines data)) fun s => some (.ok (finish sk s))

end

/-- `" \t\r\n"`. -/
def isWhite (c : Char) : Bool := c = ' ' || c = '\t' || c = '\r' || c = '\n'

/-- parameter_transform_io.cpp:309-316 and 354-361: the first parameter with the name. -/
def parameterIndex {K : Type} (pt : ParameterTransform K) (w : List Char) : Option Nat := pt.name.findIdx? fun n => n.toList = w

/-- parameter_transform_io.cpp:307-325: one name of a set; `bitset::set` throws for positions of 2048 and more. -/
def addMember {K : Type} (pt : ParameterTransform K) (ps : ParameterSet) (w : List Char) : Option ParameterSet :=
  (parameterIndex pt (trim w)).bind fun i => ps.set i true

/-- `std::unordered_map::operator[]` followed by an assignment. -/
def assignKey {α : Type} (m : List (String × α)) (k : String) (x : α) : List (String × α) :=
  (m.filter fun e => e.1 ≠ k) ++ [(k, x)]

/-- parameter_transform_io.cpp:291-327: one line; `none` is an exception. -/
def setLine {K : Type} (pt : ParameterTransform K) (m : List (String × ParameterSet)) (text : List Char) :
    Option (List (String × ParameterSet)) :=
  let line := withoutComment text
  if "parameterset".toList.isPrefixOf line then
    match tokenize isWhite line with
    | _ :: key :: members => (members.foldlM (addMember pt) ParameterSet.empty).map fun ps => assignKey m (String.ofList key) ps
    | _ => none
  else some m

/-- parameter_transform_io.cpp:286-330 `parseParameterSets`. -/
def parseParameterSets {K : Type} (data : List Char) (pt : ParameterTransform K) : Option (List (String × ParameterSet)) :=
  (getLines data).foldlM (setLine pt) []

/-- parameter_transform_io.cpp:351-371: one item `name=value`. -/
def addItem {K : Type} (read : List Char → Option K) (pt : ParameterTransform K) (ps : List (Nat × K)) (w : List Char) :
    Option (List (Nat × K)) :=
  match tokenize (· = '=') (trim w) with
  | [n, v] => (parameterIndex pt n).bind fun i => (read v).map fun x => ps ++ [(i, x)]
  | _ => some ps

/-- parameter_transform_io.cpp:337-375: one line. -/
def constraintLine {K : Type} (read : List Char → Option K) (pt : ParameterTransform K) (m : List (String × List (Nat × K)))
    (text : List Char) : Option (List (String × List (Nat × K))) :=
  let line := withoutComment text
  if "poseconstraints".toList.isPrefixOf line then
    match tokenize isWhite line with
    | _ :: key :: items => (items.foldlM (addItem read pt) []).map fun ps => assignKey m (String.ofList key) ps
    | _ => none
  else some m

/-- parameter_transform_io.cpp:332-378 `parsePoseConstraints`. -/
def parsePoseConstraints {K : Type} (read : List Char → Option K) (data : List Char) (pt : ParameterTransform K) :
    Option (List (String × List (Nat × K))) :=
  (getLines data).foldlM (constraintLine read pt) []

end Momentum.TransformText
