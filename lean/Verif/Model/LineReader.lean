import Verif.Model.TransformText

/-!
# Reading files line by line

momentum/io/common/stream_utils.cpp: `GetLineCrossPlatform`, the loops `while (GetLineCrossPlatform(stream, line))`, and the two readers
of momentum/io/skeleton/parameter_transform_io.cpp that use them: `loadMomentumModel` and `loadModelDefinition`.  A stream is the
characters still to be read with its two flags `eof` and `fail`; reading errors other than the end of the text are not modelled.  The
result `none` of a loop stands for a run that does not end.
-/

namespace Momentum.LineReader

open TransformText (trim assignKey parseParameterTransform parseParameterSets)
open LimitsText (withoutComment)

/-- `std::istream` over a text: what is left, `eofbit` and `failbit`. -/
structure Stream where
  rest : List Char
  eof : Bool
  fail : Bool
deriving DecidableEq

/-- An open stream at the start of a text. -/
def Stream.ofText (t : List Char) : Stream := ⟨t, false, false⟩

/-- stream_utils.cpp:51-59: after `\r`. -/
def afterReturn : List Char → Stream
  | [] => ⟨[], true, false⟩
  | d :: r => if d = '\n' then ⟨r, false, false⟩ else ⟨d :: r, false, false⟩

/-- stream_utils.cpp:42-63: the loop.  `get` at the end sets both flags, `peek` at the end sets `eof` only. -/
def getLoop : List Char → List Char × Stream
  | [] => ([], ⟨[], true, true⟩)
  | c :: r =>
    if c = '\n' then ([], ⟨r, false, false⟩)
    else if c = '\r' then ([], afterReturn r)
    else (c :: (getLoop r).1, (getLoop r).2)

/-- stream_utils.cpp:40-66 `GetLineCrossPlatform`: nothing is read from a stream that is not good. -/
def getLine (s : Stream) : List Char × Stream := if s.eof || s.fail then ([], s) else getLoop s.rest

/-- `while (GetLineCrossPlatform(stream, line)) body`: a stream converts to `true` unless `fail` is set. -/
def lineLoop {σ : Type} (body : σ → List Char → Outcome σ) (x : σ) (s : Stream) : Option (Outcome σ) :=
  if (getLine s).2.fail then some (.ok x)
  else
    match body x (getLine s).1 with
    | .ok y => lineLoop body y (getLine s).2
    | .throws => some .throws
    | .ub => some .ub
partial_fixpoint

/-- `\w` of the regular expression. -/
def isWordChar (c : Char) : Bool := c.isAlphanum || c = '_'

/-- parameter_transform_io.cpp:47-49: the full match with `\[(\w+)\]`. -/
def sectionName (line : List Char) : Option (List Char) :=
  match line with
  | [] => none
  | c :: r =>
    if c = '[' ∧ r.getLast? = some ']' ∧ r.dropLast ≠ [] ∧ r.dropLast.all isWordChar = true then some r.dropLast else none

/-- parameter_transform_io.cpp:28-30: what `loadMomentumModelCommon` builds up. -/
structure SectionState where
  result : List (String × List Char)
  name : List Char
  content : List Char

/-- parameter_transform_io.cpp:51-52 and 62-63: store the section. -/
def SectionState.store (s : SectionState) : List (String × List Char) :=
  if s.name ≠ [] then assignKey s.result (String.ofList s.name) s.content else s.result

/-- parameter_transform_io.cpp:39-59: one line. -/
def sectionLine (s : SectionState) (text : List Char) : SectionState :=
  let line := trim (withoutComment text)
  if line = [] then s
  else
    match sectionName line with
    | some n => { result := s.store, name := n, content := [] }
    | none => if s.name ≠ [] then { s with content := s.content ++ (line ++ ['\n']) } else s

/-- parameter_transform_io.cpp:24-66 `loadMomentumModelCommon`, on a file that could be opened or a buffer that is not empty. -/
def loadMomentumModel (text : List Char) : Option (Outcome (List (String × List Char))) :=
  let first := getLine (Stream.ofText text)
  if trim first.1 ≠ "Momentum Model Definition V1.0".toList then some (.ok [])
  else thenStep (lineLoop (fun s l => .ok (sectionLine s l)) ⟨[], [], []⟩ first.2) fun s => some (.ok s.store)

/-- parameter_transform_io.cpp:78-86: one line. -/
def definitionLine (data text : List Char) : List Char :=
  let line := trim (withoutComment text)
  if line = [] then data else data ++ (line ++ ['\n'])

/-- parameter_transform_io.cpp:73-87: the text that is parsed.  The first line is skipped unseen. -/
def definitionData (text : List Char) : Option (Outcome (List Char)) :=
  lineLoop (fun s l => .ok (definitionLine s l)) [] (getLine (Stream.ofText text)).2

end Momentum.LineReader
