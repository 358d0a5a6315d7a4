import Verif.Model.EllipsoidLimit
import Verif.Model.Euler
import Verif.Model.Utility
import Verif.Model.Skinning

/-!
# The text format of parameter limits

momentum/io/skeleton/parameter_limits_io.cpp: `parseParameterLimits` and `writeParameterLimits`.  Texts are lists of characters;
`isspace`, `isdigit`, `isalpha` and `isalnum` are those of the C locale.  Numbers are real numbers; how a number is printed by a stream
and how `std::stof` reads one are parameters (`NumFormat`).  `none` is an exception or a failed check.  Messages, line numbers and
positions are left out: they only go into the messages.
-/

namespace Momentum

/-- `operator<<(std::ostream&, float)` and `std::stof` (`none`: it throws). -/
structure NumFormat where
  print : ℝ → List Char
  read : List Char → Option ℝ

/-- parameter_limits.h:91-101 `ParameterLimit`, with the whole data of ellipsoids (which `LimitData` leaves out). -/
inductive LimitRecord
  | plain (l : ParameterLimit ℝ)
  | ellipsoid (e : EllipsoidLimit)

/-- The weight of a limit. -/
def LimitRecord.weight : LimitRecord → ℝ
  | .plain l => l.weight
  | .ellipsoid e => e.weight

namespace LimitsText

/-- parameter_limits_io.cpp:21-22 `kPositiveInfinity`, the largest single precision number; `kNegativeInfinity` is its negative. -/
noncomputable def kFloatMax : ℝ := (2 - (2 : ℝ)⁻¹ ^ 23) * 2 ^ 127

/-- types.h:26 `kJointParameterNames`. -/
def jointParameterNames : List (List Char) :=
  [['t', 'x'], ['t', 'y'], ['t', 'z'], ['r', 'x'], ['r', 'y'], ['r', 'z'], ['s', 'c']]

/-- parameter_limits_io.cpp:24-31 `Token` with the text between `_tokenStart` and `_curPos` for numbers and identifiers. -/
inductive LimitToken
  | openBracket
  | closeBracket
  | comma
  | number (s : List Char)
  | identifier (s : List Char)
  | eof
  deriving DecidableEq

/-- parameter_limits_io.cpp:52-288 `Tokenizer`: `_curToken` and the text from `_curPos` on. -/
structure Tokenizer where
  token : LimitToken
  rest : List Char

/-- `std::isspace` in the C locale. -/
def isSpaceChar (c : Char) : Bool := c = ' ' || c = '\t' || c = '\n' || c = '\x0b' || c = '\x0c' || c = '\r'

/-- parameter_limits_io.cpp:249: how a number starts. -/
def isNumberStart (c : Char) : Bool := c.isDigit || c = '-' || c = '+'

/-- parameter_limits_io.cpp:251-253: how it goes on. -/
def isNumberChar (c : Char) : Bool := c.isDigit || c = '-' || c = '+' || c = '.' || c = 'e'

/-- parameter_limits_io.cpp:259: how an identifier starts. -/
def isIdentifierStart (c : Char) : Bool := c.isAlpha || c = '_'

/-- parameter_limits_io.cpp:262: how it goes on. -/
def isIdentifierChar (c : Char) : Bool := c.isAlphanum || c = '_' || c = '.'

/-- parameter_limits_io.cpp:218-275 `advance`. -/
def advance (s : List Char) : Option Tokenizer :=
  match s.dropWhile isSpaceChar with
  | [] => some ⟨.eof, []⟩
  | c :: r =>
    if c = '[' then some ⟨.openBracket, r⟩
    else if c = ']' then some ⟨.closeBracket, r⟩
    else if c = ',' then some ⟨.comma, r⟩
    else if isNumberStart c then some ⟨.number ((c :: r).takeWhile isNumberChar), (c :: r).dropWhile isNumberChar⟩
    else if isIdentifierStart c then
      some ⟨.identifier ((c :: r).takeWhile isIdentifierChar), (c :: r).dropWhile isIdentifierChar⟩
    else none

/-- parameter_limits_io.cpp:71-74 `eatToken`, for brackets and commas. -/
def eatToken (expected : LimitToken) (t : Tokenizer) : Option Tokenizer :=
  if t.token = expected then advance t.rest else none

/-- parameter_limits_io.cpp:84-89 `getIdentifier`. -/
def getIdentifier (t : Tokenizer) : Option (List Char × Tokenizer) :=
  match t.token with
  | .identifier s => (advance t.rest).map fun t' => (s, t')
  | _ => none

/-- parameter_limits_io.cpp:91-96 `getNumber`. -/
def getNumber (F : NumFormat) (t : Tokenizer) : Option (ℝ × Tokenizer) :=
  match t.token with
  | .number s => (F.read s).bind fun x => (advance t.rest).map fun t' => (x, t')
  | _ => none

/-- parameter_limits_io.cpp:103-108: one iteration of `getVec`. -/
def vecStep (F : NumFormat) (s : List ℝ × Tokenizer) (i : Nat) : Option (List ℝ × Tokenizer) :=
  (if 0 < i then eatToken .comma s.2 else some s.2).bind fun t =>
    (getNumber F t).map fun r => (s.1 ++ [r.1], r.2)

/-- parameter_limits_io.cpp:98-112 `getVec<N>`. -/
def getVec (F : NumFormat) (n : Nat) (t : Tokenizer) : Option (List ℝ × Tokenizer) :=
  (eatToken .openBracket t).bind fun t =>
    ((List.range n).foldlM (vecStep F) ([], t)).bind fun s =>
      (eatToken .closeBracket s.2).map fun t => (s.1, t)

/-- parameter_limits_io.cpp:119-124: the loop of `getDynamicVec`. -/
def dynamicLoop (F : NumFormat) (result : List ℝ) (t : Tokenizer) : Option (List ℝ × Tokenizer) :=
  if t.token = .closeBracket then some (result, t)
  else do
    let t ← if result = [] then some t else eatToken .comma t
    let r ← getNumber F t
    dynamicLoop F (result ++ [r.1]) r.2
partial_fixpoint

/-- parameter_limits_io.cpp:115-132 `getDynamicVec`. -/
def getDynamicVec (F : NumFormat) (t : Tokenizer) : Option (List ℝ × Tokenizer) :=
  (eatToken .openBracket t).bind fun t =>
    (dynamicLoop F [] t).bind fun s => (eatToken .closeBracket s.2).map fun t => (s.1, t)

/-- parameter_limits_io.cpp:134-137 `getPair`. -/
def getPair (F : NumFormat) (t : Tokenizer) : Option ((ℝ × ℝ) × Tokenizer) :=
  (getVec F 2 t).bind fun r =>
    match r.1 with
    | [x, y] => some ((x, y), r.2)
    | _ => none

/-- `getVec<3>` as a vector. -/
def getVec3 (F : NumFormat) (t : Tokenizer) : Option (Vec3 ℝ × Tokenizer) :=
  (getVec F 3 t).bind fun r =>
    match r.1 with
    | [x, y, z] => some (⟨x, y, z⟩, r.2)
    | _ => none

/-- parameter_limits_io.cpp:139-149 `modelParameterIndexFromName`. -/
def modelParameterIndexFromName (pt : ParameterTransform ℝ) (w : List Char) : Option Nat :=
  pt.name.findIdx? fun n => n.toList = w

/-- parameter_limits_io.cpp:187-196 `jointIndexFromName` with skeleton.h:28-33 `getJointIdByName`. -/
def jointIndexFromName (sk : Skeleton ℝ) (w : List Char) : Option Nat :=
  sk.joints.findIdx? fun j => j.name.toList = w

/-- parameter_limits_io.cpp:155-185 `jointParameterIndexFromName`. -/
def jointParameterIndexFromName (sk : Skeleton ℝ) (w : List Char) : Option (Nat × Nat) :=
  if '.' ∈ w then
    (jointIndexFromName sk (w.takeWhile (· ≠ '.'))).bind fun j =>
      (jointParameterNames.findIdx? fun n => (w.dropWhile (· ≠ '.')).tail = n).map fun d => (j, d)
  else none

/-- parameter_limits_io.cpp:151-153 `getModelParameterIndex`. -/
def getModelParameterIndex (pt : ParameterTransform ℝ) (t : Tokenizer) : Option (Nat × Tokenizer) :=
  (getIdentifier t).bind fun r => (modelParameterIndexFromName pt r.1).map fun i => (i, r.2)

/-- parameter_limits_io.cpp:198-200 `getJointIndex`. -/
def getJointIndex (sk : Skeleton ℝ) (t : Tokenizer) : Option (Nat × Tokenizer) :=
  (getIdentifier t).bind fun r => (jointIndexFromName sk r.1).map fun i => (i, r.2)

/-- parameter_limits_io.cpp:300-302 (and 313-315,331-333,413-415,442-444,462-464): the optional weight. -/
def optionalWeight (F : NumFormat) (t : Tokenizer) : Option (ℝ × Tokenizer) :=
  if t.token = .eof then some (1, t) else getNumber F t

/-- What each of the functions of parameter_limits_io.cpp:291-482 appends to `pl`. -/
abbrev Parsed := Option (List LimitRecord × Tokenizer)

/-- parameter_limits_io.cpp:299-303 (and 311-316,329-334): two numbers and a weight. -/
def parseRange (F : NumFormat) (data : ℝ → ℝ → LimitData ℝ) (t : Tokenizer) : Parsed :=
  (getPair F t).bind fun r => (optionalWeight F r.2).map fun w => ([.plain ⟨data r.1.1 r.1.2, w.1⟩], w.2)

/-- parameter_limits_io.cpp:290-318 `parseMinmax`. -/
def parseMinmax (F : NumFormat) (sk : Skeleton ℝ) (pt : ParameterTransform ℝ) (name : List Char) (t : Tokenizer) : Parsed :=
  if '.' ∈ name then
    (jointParameterIndexFromName sk name).bind fun jd => parseRange F (.minMaxJoint jd.1 jd.2) t
  else (modelParameterIndexFromName pt name).bind fun i => parseRange F (.minMax i) t

/-- parameter_limits_io.cpp:320-335 `parseMinmaxPassive`. -/
def parseMinmaxPassive (F : NumFormat) (sk : Skeleton ℝ) (name : List Char) (t : Tokenizer) : Parsed :=
  (jointParameterIndexFromName sk name).bind fun jd => parseRange F (.minMaxJointPassive jd.1 jd.2) t

/-- A `LimitLinear` without its two indices. -/
structure LinearSegment where
  scale : ℝ
  offset : ℝ
  rangeMin : ℝ
  rangeMax : ℝ

/-- parameter_limits_io.cpp:364-366 `evalFunction`. -/
def LinearSegment.eval (s : LinearSegment) (value : ℝ) : ℝ := s.scale * value - s.offset

/-- parameter_limits_io.cpp:389-396: the segment of a list of two or three numbers (373-380: otherwise an exception). -/
noncomputable def segmentOf (prev : ℝ) : List ℝ → Option LinearSegment
  | [scale, offset] => some ⟨scale, offset, prev, kFloatMax⟩
  | [scale, offset, rangeEnd] => if prev = kFloatMax then none else some ⟨scale, offset, prev, rangeEnd⟩
  | _ => none

/-- parameter_limits_io.cpp:398-420: the check against the segment before. -/
noncomputable def joins (before : Option LinearSegment) (cur : LinearSegment) : Bool :=
  match before with
  | none => true
  | some b => !decide (|b.eval cur.rangeMin - cur.eval cur.rangeMin| > 1 / 1000)

/-- parameter_limits_io.cpp:368-424: the loop; `segs` are the segments so far (those of `pl` from `sizeBefore` on) and `prev` is
`prevRangeMax`. -/
noncomputable def segmentLoop (F : NumFormat) (prev : ℝ) (segs : List LinearSegment) (t : Tokenizer) :
    Option (List LinearSegment × Tokenizer) :=
  if t.token = .openBracket then do
    let v ← getDynamicVec F t
    let cur ← segmentOf prev v.1
    if joins segs.getLast? cur then segmentLoop F cur.rangeMax (segs ++ [cur]) v.2 else none
  else some (segs, t)
partial_fixpoint

/-- A segment as a limit. -/
def linearRecord (reference target : Nat) (weight : ℝ) (s : LinearSegment) : LimitRecord :=
  .plain ⟨.linear reference target s.scale s.offset s.rangeMin s.rangeMax, weight⟩

/-- parameter_limits_io.cpp:337-434 `parseLinear`. -/
noncomputable def parseLinear (F : NumFormat) (pt : ParameterTransform ℝ) (name : List Char) (t : Tokenizer) : Parsed :=
  (modelParameterIndexFromName pt name).bind fun reference =>
    (getModelParameterIndex pt t).bind fun target =>
      if target.2.token = .openBracket then
        (segmentLoop F (-kFloatMax) [] target.2).bind fun s =>
          (optionalWeight F s.2).map fun w => (s.1.map (linearRecord reference target.1 w.1), w.2)
      else none

/-- parameter_limits_io.cpp:436-455 `parseHalfPlane`.  The zero normal, for which the code stores NaNs, is an error here. -/
noncomputable def parseHalfPlane (F : NumFormat) (pt : ParameterTransform ℝ) (name : List Char) (t : Tokenizer) : Parsed :=
  (modelParameterIndexFromName pt name).bind fun i =>
    (getModelParameterIndex pt t).bind fun j =>
      (getPair F j.2).bind fun n =>
        (getNumber F n.2).bind fun o =>
          let len := Real.sqrt (n.1.1 * n.1.1 + n.1.2 * n.1.2)
          if len = 0 then none
          else (optionalWeight F o.2).map fun w =>
            ([.plain ⟨.halfPlane i j.1 (n.1.1 / len) (n.1.2 / len) (o.1 / len), w.1⟩], w.2)

/-- parameter_limits_io.cpp:475-482: the affine map of an ellipsoid. -/
noncomputable def ellipsoidAffine (translation eulerZYX scale : Vec3 ℝ) : Affine ℝ :=
  ⟨(eulerXYZToRotationMatrix ⟨toRad eulerZYX.z, toRad eulerZYX.y, toRad eulerZYX.x⟩ .extrinsic).mul
      ⟨scale.x, 0, 0, 0, scale.y, 0, 0, 0, scale.z⟩, translation⟩

/-- parameter_limits_io.cpp:457-486 `parseEllipsoid`. -/
noncomputable def parseEllipsoid (F : NumFormat) (sk : Skeleton ℝ) (name : List Char) (t : Tokenizer) : Parsed :=
  (jointIndexFromName sk name).bind fun parent =>
    (getVec3 F t).bind fun offset =>
      (getJointIndex sk offset.2).bind fun ep =>
        (getVec3 F ep.2).bind fun translation =>
          (getVec3 F translation.2).bind fun euler =>
            (getVec3 F euler.2).bind fun scale =>
              (optionalWeight F scale.2).map fun w =>
                let a := ellipsoidAffine translation.1 euler.1 scale.1
                ([.ellipsoid ⟨a, a.inverse, offset.1, ep.1, parent, w.1⟩], w.2)

/-- parameter_limits_io.cpp:517-534: the choice by the type. -/
noncomputable def parseBody (F : NumFormat) (sk : Skeleton ℝ) (pt : ParameterTransform ℝ) (name type : List Char) (t : Tokenizer) :
    Parsed :=
  if type = "minmax".toList then parseMinmax F sk pt name t
  else if type = "minmax_passive".toList then parseMinmaxPassive F sk name t
  else if type = "linear".toList then parseLinear F pt name t
  else if type = "halfplane".toList then parseHalfPlane F pt name t
  else if type = "ellipsoid".toList then parseEllipsoid F sk name t
  else if type = "elipsoid".toList then parseEllipsoid F sk name t
  else none

/-- parameter_limits_io.cpp:507-542: a line that starts with "limit". -/
noncomputable def parseLimitLine (F : NumFormat) (sk : Skeleton ℝ) (pt : ParameterTransform ℝ) (line : List Char) :
    Option (List LimitRecord) :=
  (advance line).bind fun t =>
    (getIdentifier t).bind fun first =>
      (getIdentifier first.2).bind fun name =>
        (getIdentifier name.2).bind fun type =>
          (parseBody F sk pt name.1 type.1 type.2).bind fun r =>
            if r.2.token = .eof then some r.1 else none

/-- `std::getline` until it fails: the lines of a text. -/
def getLines : List Char → List (List Char)
  | [] => []
  | c :: s =>
    if c = '\n' then [] :: getLines s
    else
      match getLines s with
      | [] => [[c]]
      | l :: ls => (c :: l) :: ls

/-- parameter_limits_io.cpp:499: the line without its comment. -/
def withoutComment (line : List Char) : List Char := line.takeWhile (· ≠ '#')

/-- parameter_limits_io.cpp:496-543: one iteration. -/
noncomputable def lineStep (F : NumFormat) (sk : Skeleton ℝ) (pt : ParameterTransform ℝ) (pl : List LimitRecord)
    (line : List Char) : Option (List LimitRecord) :=
  if "limit".toList.isPrefixOf (withoutComment line) then
    (parseLimitLine F sk pt (withoutComment line)).map fun r => pl ++ r
  else some pl

/-- parameter_limits_io.cpp:490-545 `parseParameterLimits`. -/
noncomputable def parseParameterLimits (F : NumFormat) (data : List Char) (sk : Skeleton ℝ) (pt : ParameterTransform ℝ) :
    Option (List LimitRecord) :=
  (getLines data).foldlM (lineStep F sk pt) []

/-- parameter_limits_io.cpp:549-561: the values of `vecToString` after the bracket. -/
def joinValues (F : NumFormat) : List ℝ → List Char
  | [] => []
  | [x] => F.print x
  | x :: y :: v => F.print x ++ [',', ' '] ++ joinValues F (y :: v)

/-- parameter_limits_io.cpp:549-563 `vecToString`. -/
def vecToString (F : NumFormat) (v : List ℝ) : List Char := '[' :: (joinValues F v ++ [']'])

/-- parameter_limits_io.cpp:573-577 `jointParameterToName`. -/
def jointParameterToName (sk : Skeleton ℝ) (j d : Nat) : Option (List Char) :=
  (jointParameterNames[d]?).bind fun n => (sk.joints[j]?).map fun joint => joint.name.toList ++ '.' :: n

/-- `parameterTransform.name.at(i)`. -/
def parameterName (pt : ParameterTransform ℝ) (i : Nat) : Option (List Char) := (pt.name[i]?).map (·.toList)

/-- `skeleton.joints.at(i).name`. -/
def jointName (sk : Skeleton ℝ) (i : Nat) : Option (List Char) := (sk.joints[i]?).map (·.name.toList)

/-- parameter_limits_io.cpp:628-630: the three angles in degrees as written: z, y, x. -/
noncomputable def anglesOf (tol : ℝ) (rotation : Mat3 ℝ) : Vec3 ℝ :=
  let e := rotationMatrixToEulerXYZ tol rotation .extrinsic
  ⟨toDeg e.z, toDeg e.y, toDeg e.x⟩

/-- The three entries of a vector. -/
def vecEntries (v : Vec3 ℝ) : List ℝ := [v.x, v.y, v.z]

/-- parameter_limits_io.cpp:595-644: the text of a limit that is not linear, from its name to its numbers.  `decompose` is
`computeRotationScaling`, Eigen's polar decomposition by a singular value decomposition, and `tol` the tolerance of
`rotationMatrixToEulerXYZ`. -/
noncomputable def writeBody (F : NumFormat) (decompose : Mat3 ℝ → Mat3 ℝ × Mat3 ℝ) (tol : ℝ) (sk : Skeleton ℝ)
    (pt : ParameterTransform ℝ) : LimitRecord → Option (List Char)
  | .plain ⟨.minMax i lo hi, _⟩ =>
    (parameterName pt i).map fun n => n ++ " minmax ".toList ++ vecToString F [lo, hi]
  | .plain ⟨.minMaxJoint j d lo hi, _⟩ =>
    (jointParameterToName sk j d).map fun n => n ++ " minmax ".toList ++ vecToString F [lo, hi]
  | .plain ⟨.minMaxJointPassive j d lo hi, _⟩ =>
    (jointParameterToName sk j d).map fun n => n ++ " minmax_passive ".toList ++ vecToString F [lo, hi]
  | .plain ⟨.halfPlane i j n0 n1 o, _⟩ =>
    (parameterName pt i).bind fun a => (parameterName pt j).map fun b =>
      a ++ " halfplane ".toList ++ b ++ [' '] ++ vecToString F [n0, n1] ++ [' '] ++ F.print o
  | .plain ⟨.linear .., _⟩ => some []
  | .plain ⟨.ellipsoid .., _⟩ => none
  | .ellipsoid e =>
    let rs := decompose e.ellipsoid.linear
    (jointName sk e.parent).bind fun a => (jointName sk e.ellipsoidParent).map fun b =>
      a ++ " ellipsoid ".toList ++ vecToString F (vecEntries e.offset) ++ [' '] ++ b ++ [' ']
        ++ vecToString F (vecEntries e.ellipsoid.translation) ++ [' ']
        ++ vecToString F (vecEntries (anglesOf tol rs.1)) ++ [' ']
        ++ vecToString F [rs.2.m00, rs.2.m11, rs.2.m22]

/-- parameter_limits_io.cpp:600-605: one segment. -/
noncomputable def segmentText (F : NumFormat) (scale offset rangeMax : ℝ) : List Char :=
  ' ' :: (if rangeMax = kFloatMax then vecToString F [scale, offset] else vecToString F [scale, offset, rangeMax])

/-- The linear limit whose segments are being written (lines 598-613): the indices and the weight of `origLimit`, and
`prevRangeMax`. -/
structure OpenLinear where
  reference : Nat
  target : Nat
  weight : ℝ
  prevRangeMax : ℝ

/-- parameter_limits_io.cpp:615: the end of the line of a linear limit. -/
def closeLinear (F : NumFormat) : Option OpenLinear → List Char
  | none => []
  | some o => ' ' :: (F.print o.weight ++ ['\n'])

/-- parameter_limits_io.cpp:610-613: does the loop over the segments go on with this linear limit? -/
noncomputable def goesOn (o : Option OpenLinear) (reference target : Nat) (rangeMin : ℝ) : Option OpenLinear :=
  o.filter fun o => decide (reference = o.reference ∧ target = o.target ∧ rangeMin = o.prevRangeMax)

/-- parameter_limits_io.cpp:579-655: the loop over the limits, with its inner loop (599-613) over the segments of a linear limit
merged into it: `o` says whether the inner loop is being run. -/
noncomputable def writeLoop (F : NumFormat) (decompose : Mat3 ℝ → Mat3 ℝ × Mat3 ℝ) (tol : ℝ) (sk : Skeleton ℝ)
    (pt : ParameterTransform ℝ) : Option OpenLinear → List LimitRecord → Option (List Char)
  | o, [] => some (closeLinear F o)
  | o, .plain ⟨.linear r g scale offset rangeMin rangeMax, w⟩ :: ls =>
    match goesOn o r g rangeMin with
    | some o' =>
      (writeLoop F decompose tol sk pt (some { o' with prevRangeMax := rangeMax }) ls).map fun rest =>
        segmentText F scale offset rangeMax ++ rest
    | none =>
      (parameterName pt r).bind fun a => (parameterName pt g).bind fun b =>
        let start := closeLinear F o ++ "limit ".toList ++ a ++ " linear ".toList ++ b
        if rangeMin = 0 ∧ rangeMax = 0 then
          (writeLoop F decompose tol sk pt none ls).map fun rest =>
            start ++ ' ' :: (vecToString F [scale, offset] ++ ' ' :: (F.print w ++ '\n' :: rest))
        else
          (writeLoop F decompose tol sk pt (some ⟨r, g, w, rangeMax⟩) ls).map fun rest =>
            start ++ segmentText F scale offset rangeMax ++ rest
  | o, l :: ls =>
    (writeBody F decompose tol sk pt l).bind fun body =>
      (writeLoop F decompose tol sk pt none ls).map fun rest =>
        closeLinear F o ++ "limit ".toList ++ body ++ (if l.weight = 1 then [] else ' ' :: F.print l.weight) ++ '\n' :: rest

/-- parameter_limits_io.cpp:567-658 `writeParameterLimits`. -/
noncomputable def writeParameterLimits (F : NumFormat) (decompose : Mat3 ℝ → Mat3 ℝ × Mat3 ℝ) (tol : ℝ) (limits : List LimitRecord)
    (sk : Skeleton ℝ) (pt : ParameterTransform ℝ) : Option (List Char) :=
  writeLoop F decompose tol sk pt none limits

end LimitsText

end Momentum
