import Verif.Model.Skinning
import Verif.Model.TransformText

/-!
# The text format of locators

momentum/io/skeleton/locator_io.cpp: `saveLocators` and `loadLocatorsFromBuffer`, with momentum/common/string.cpp (modelled in
`TransformText`).  Texts are lists of characters.  How a stream prints a `float` and how `std::stof` reads one are parameters
(`NumFormat`); integers are printed and read digit by digit.  Opening, reading and writing the file is left out: the model is about its
contents.  `throws` is an exception or a failed check, `ub` undefined behaviour.
-/

namespace Momentum.LocatorText

open TransformText (trim tokenize)

/-- locator_io.cpp:37: the characters skipped before a number. -/
def isNumberSpace (c : Char) : Bool := c = ' ' || c = '\t' || c = '\n' || c = '\r' || c = '\x0c' || c = '\x0b'

/-- `std::from_chars` for an unsigned decimal number: the digits up to the first other character. -/
def digitsValue (s : List Char) : Nat := (s.takeWhile Char.isDigit).foldl (fun n c => 10 * n + (c.toNat - '0'.toNat)) 0

/-- `std::from_chars` for an `int`, up to its range; `none` when there is no digit. -/
def fromChars (s : List Char) : Option Int :=
  match s with
  | '-' :: r => if (r.takeWhile Char.isDigit).isEmpty then none else some (-(digitsValue r : Int))
  | s => if (s.takeWhile Char.isDigit).isEmpty then none else some (digitsValue s : Int)

/-- locator_io.cpp:36-66 `svtoi`.  When `std::from_chars` fails (no digit, or a value outside `int`) it leaves the uninitialised
`value` as it is, which is then returned: undefined behaviour. -/
def svtoi (s : List Char) : Outcome Int :=
  match fromChars (s.dropWhile isNumberSpace) with
  | some i => if -2147483648 ≤ i ∧ i ≤ 2147483647 then .ok i else .ub
  | none => .ub

/-- locator_io.cpp:36-51, 68-71 `svtof`. -/
def svtof (F : NumFormat) (s : List Char) : Outcome ℝ :=
  match F.read (s.dropWhile isNumberSpace) with
  | some x => .ok x
  | none => .throws

/-- A locator while it is read (locator_io.cpp:127-129 and locator.h:29-43 for the initial values).  The coordinates of `global` are
uninitialised, `none`, until they are read. -/
structure Draft where
  name : List Char := "uninitialized".toList
  parent : Option Nat := none
  offset : Vec3 ℝ := 0
  locked : Vec3 Int := ⟨0, 0, 0⟩
  weight : ℝ := 1
  limitWeight : Vec3 ℝ := 0
  globalX : Option ℝ := none
  globalY : Option ℝ := none
  globalZ : Option ℝ := none

/-- locator_io.cpp:146-148 and 152-154: the text from the first quote to the last one.  Without a quote, positions wrap around and the
whole text is taken; with a single one, the text after it. -/
def quoted (s : List Char) : List Char :=
  if '"' ∈ s then
    let inner := (s.dropWhile (· ≠ '"')).tail
    if '"' ∈ inner then (inner.reverse.dropWhile (· ≠ '"')).tail.reverse else inner
  else s

/-- locator_io.cpp:150 `l.parent = svtoi(...)`, an `int` converted to `size_t`; -1 is `kInvalidIndex`. -/
def parentOfInt (i : Int) : Option Nat := if i = -1 then none else some (i % 18446744073709551616).toNat

/-- locator_io.cpp:155-160: the first joint of that name; without one the parent stays. -/
def parentOfName (sk : Skeleton ℝ) (name : List Char) (old : Option Nat) : Option Nat :=
  match sk.joints.findIdx? fun j => j.name.toList = name with
  | some k => some k
  | none => old

/-- locator_io.cpp:139-183: one field. -/
def field (F : NumFormat) (sk : Skeleton ℝ) (d : Draft) (key value : List Char) : Outcome Draft :=
  if key = "\"lockX\"".toList then (svtoi value).bind fun i => .ok { d with locked := ⟨i, d.locked.y, d.locked.z⟩ }
  else if key = "\"lockY\"".toList then (svtoi value).bind fun i => .ok { d with locked := ⟨d.locked.x, i, d.locked.z⟩ }
  else if key = "\"lockZ\"".toList then (svtoi value).bind fun i => .ok { d with locked := ⟨d.locked.x, d.locked.y, i⟩ }
  else if key = "\"name\"".toList then .ok { d with name := quoted value }
  else if key = "\"parent\"".toList then (svtoi value).bind fun i => .ok { d with parent := parentOfInt i }
  else if key = "\"parentName\"".toList then .ok { d with parent := parentOfName sk (quoted value) d.parent }
  else if key = "\"weight\"".toList then (svtof F value).bind fun x => .ok { d with weight := x }
  else if key = "\"offsetX\"".toList then (svtof F value).bind fun x => .ok { d with offset := ⟨x, d.offset.y, d.offset.z⟩ }
  else if key = "\"offsetY\"".toList then (svtof F value).bind fun x => .ok { d with offset := ⟨d.offset.x, x, d.offset.z⟩ }
  else if key = "\"offsetZ\"".toList then (svtof F value).bind fun x => .ok { d with offset := ⟨d.offset.x, d.offset.y, x⟩ }
  else if key = "\"globalX\"".toList then (svtof F value).bind fun x => .ok { d with globalX := some x }
  else if key = "\"globalY\"".toList then (svtof F value).bind fun x => .ok { d with globalY := some x }
  else if key = "\"globalZ\"".toList then (svtof F value).bind fun x => .ok { d with globalZ := some x }
  else if key = "\"limitWeightX\"".toList then
    (svtof F value).bind fun x => .ok { d with limitWeight := ⟨x, d.limitWeight.y, d.limitWeight.z⟩ }
  else if key = "\"limitWeightY\"".toList then
    (svtof F value).bind fun x => .ok { d with limitWeight := ⟨d.limitWeight.x, x, d.limitWeight.z⟩ }
  else if key = "\"limitWeightZ\"".toList then
    (svtof F value).bind fun x => .ok { d with limitWeight := ⟨d.limitWeight.x, d.limitWeight.y, x⟩ }
  else .ok d

/-- locator_io.cpp:134-183: a line inside a locator that does not end it; lines that start with `/` and lines without exactly one
separating colon are skipped. -/
def fieldLine (F : NumFormat) (sk : Skeleton ℝ) (d : Draft) (current : List Char) : Outcome Draft :=
  if current.head? = some '/' then .ok d
  else
    match tokenize (· = ':') current with
    | [key, value] => field F sk d key value
    | _ => .ok d

/-- locator_io.cpp:130-184: the `do` loop over the lines of a locator, with the lines after it.  `lines.at` throws when there is no
line; `current[0]` of an empty line is undefined behaviour.  The comparison in the condition of the loop is always true. -/
def fieldLoop (F : NumFormat) (sk : Skeleton ℝ) (d : Draft) : List (List Char) → Outcome (Draft × List (List Char))
  | [] => .throws
  | l :: rest =>
    if trim l = [] then .ub
    else if (trim l).head? = some '}' then .ok (d, rest)
    else
      (fieldLine F sk d (trim l)).bind fun d' =>
        if rest.isEmpty then .ok (d', []) else fieldLoop F sk d' rest

/-- locator_io.cpp:186-193: the locator that was read, if it has a parent. -/
noncomputable def finish (world : List (Affine ℝ)) (d : Draft) : Outcome (Option (Locator ℝ)) :=
  match d.parent with
  | none => .ok none
  | some p =>
    match d.globalX, d.globalY, d.globalZ with
    | none, none, none => .ok (some ⟨String.ofList d.name, p, d.offset, d.locked, d.weight, d.offset, d.limitWeight⟩)
    | some x, some y, some z =>
      match world[p]? with
      | some t =>
        .ok (some ⟨String.ofList d.name, p, t.inverse.apply ⟨x, y, z⟩, d.locked, d.weight, t.inverse.apply ⟨x, y, z⟩, d.limitWeight⟩)
      | none => .ub
    | _, _, _ => .ub

theorem fieldLoop_length (F : NumFormat) (sk : Skeleton ℝ) (d : Draft) (ls : List (List Char)) (r : Draft × List (List Char))
    (h : fieldLoop F sk d ls = .ok r) : r.2.length < ls.length := by
  induction ls generalizing d with
  | nil => simp [fieldLoop] at h
  | cons l rest ih =>
    simp only [fieldLoop] at h
    split at h
    · simp at h
    · split at h
      · cases h; simp
      · cases hf : fieldLine F sk d (trim l) with
        | throws => simp [hf, Outcome.bind] at h
        | ub => simp [hf, Outcome.bind] at h
        | ok d' =>
          simp only [hf, Outcome.bind] at h
          split at h
          · cases h; simp
          · exact (ih d' h).trans (by simp)

/-- locator_io.cpp:121-194: the loop over the lines. -/
noncomputable def loadLoop (F : NumFormat) (sk : Skeleton ℝ) (world : List (Affine ℝ)) (lines : List (List Char))
    (res : List (Locator ℝ)) : Outcome (List (Locator ℝ)) :=
  match lines with
  | [] => .ok res
  | l :: rest =>
    if trim l = ['{'] then
      match h : fieldLoop F sk {} rest with
      | .ok r =>
        match finish world r.1 with
        | .ok (some loc) => loadLoop F sk world r.2 (res ++ [loc])
        | .ok none => loadLoop F sk world r.2 res
        | .throws => .throws
        | .ub => .ub
      | .throws => .throws
      | .ub => .ub
    else loadLoop F sk world rest res
termination_by lines.length
decreasing_by
  all_goals simp only [List.length_cons]
  · exact (fieldLoop_length F sk _ _ _ h).trans (Nat.lt_succ_self _)
  · exact (fieldLoop_length F sk _ _ _ h).trans (Nat.lt_succ_self _)
  · exact Nat.lt_succ_self _

/-- locator_io.cpp:73-82 `firstDuplicate`: the first name that is there before. -/
def firstDuplicate (seen : List String) : List (Locator ℝ) → String
  | [] => ""
  | l :: ls => if l.name ∈ seen then l.name else firstDuplicate (l.name :: seen) ls

/-- `std::string_view::find(key) != npos`. -/
def contains (key : List Char) : List Char → Bool
  | [] => key.isEmpty
  | c :: s => key.isPrefixOf (c :: s) || contains key s

/-- locator_io.cpp:106-200 `loadLocatorsFromBuffer`; `bindPose()` has a zero for each row of the parameter transform
(parameter_transform.cpp:128-131).  A joint whose parent comes later makes the state read an unset joint. -/
noncomputable def loadLocators (F : NumFormat) (sk : Skeleton ℝ) (pt : ParameterTransform ℝ) (data : List Char) :
    Outcome (List (Locator ℝ)) :=
  if pt.transform.rows ≠ sk.joints.length * 7 then .throws
  else
    match skeletonState sk (List.replicate pt.transform.rows 0) true with
    | none => .ub
    | some st =>
      match tokenize (fun c => c = '\r' || c = '\n') data with
      | l0 :: l1 :: l2 :: l3 :: ls =>
        if l0 ≠ ['{'] ∨ contains "\"locators\":".toList (trim l1) = false then .ok []
        else
          (loadLoop F sk (worldAffines st) (l2 :: l3 :: ls) []).bind fun res =>
            if firstDuplicate [] res ≠ "" then .throws else .ok res
      | _ => .ok []

/-- `LocatorSpace` of locator_io.h. -/
inductive LocatorSpace
  | global
  | localSpace

/-- locator_io.cpp:214-233: a line of a locator with a comma. -/
def entry (key : String) (value : List Char) : List Char := "\t\t\t\"".toList ++ key.toList ++ "\":".toList ++ value ++ ",\n".toList

/-- `operator<<(std::ostream&, int)`. -/
def printInt (i : Int) : List Char := if i < 0 then '-' :: Nat.toDigits 10 i.natAbs else Nat.toDigits 10 i.natAbs

/-- locator_io.cpp:215-223: the lines for the position. -/
def positionText (F : NumFormat) (space : LocatorSpace) (position offset : Vec3 ℝ) : List Char :=
  match space with
  | .global => entry "globalX" (F.print position.x) ++ entry "globalY" (F.print position.y) ++ entry "globalZ" (F.print position.z)
  | .localSpace => entry "offsetX" (F.print offset.x) ++ entry "offsetY" (F.print offset.y) ++ entry "offsetZ" (F.print offset.z)

/-- locator_io.cpp:228-233: a limit weight is written unless it is zero. -/
noncomputable def limitWeightText (F : NumFormat) (key : String) (w : ℝ) : List Char := if w ≠ 0 then entry key (F.print w) else []

/-- locator_io.cpp:213-241: one locator; `last` tells whether no other follows. -/
noncomputable def locatorText (F : NumFormat) (sk : Skeleton ℝ) (space : LocatorSpace) (last : Bool) (position : Vec3 ℝ) (l : Locator ℝ) :
    Outcome (List Char) :=
  match sk.joints[l.parent]? with
  | none => .throws
  | some j => .ok (
      "\t\t{\n".toList
      ++ entry "name" ('"' :: (l.name.toList ++ ['"']))
      ++ positionText F space position l.offset
      ++ entry "lockX" (printInt l.locked.x) ++ entry "lockY" (printInt l.locked.y) ++ entry "lockZ" (printInt l.locked.z)
      ++ entry "weight" (F.print l.weight)
      ++ limitWeightText F "limitWeightX" l.limitWeight.x
      ++ limitWeightText F "limitWeightY" l.limitWeight.y
      ++ limitWeightText F "limitWeightZ" l.limitWeight.z
      ++ "\t\t\t\"parentName\":\"".toList ++ j.name.toList ++ "\"\n".toList
      ++ (if last then "\t\t}\n".toList else "\t\t},\n".toList))

/-- locator_io.cpp:212-242: the loop over the locators. -/
noncomputable def locatorTexts (F : NumFormat) (sk : Skeleton ℝ) (space : LocatorSpace) :
    List (Vec3 ℝ × Locator ℝ) → Outcome (List Char)
  | [] => .ok []
  | p :: ps =>
    (locatorText F sk space ps.isEmpty p.1 p.2).bind fun t => (locatorTexts F sk space ps).bind fun ts => .ok (t ++ ts)

/-- locator_io.cpp:202-244 `saveLocators`: the contents of the file.  `LocatorState` reads the joint of every locator before the check
of its index. -/
noncomputable def saveLocators (F : NumFormat) (sk : Skeleton ℝ) (space : LocatorSpace) (locators : List (Locator ℝ)) :
    Outcome (List Char) :=
  match skeletonState sk (List.replicate (sk.joints.length * 7) 0) true with
  | none => .ub
  | some st =>
    match locatorPositions (worldAffines st) locators with
    | none => .ub
    | some ps =>
      (locatorTexts F sk space (ps.zip locators)).bind fun t => .ok ("{\n\t\"locators\":[\n".toList ++ t ++ "\t]\n}\n".toList)

end Momentum.LocatorText
