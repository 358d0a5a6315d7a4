import Verif.Model.TrcText
import Mathlib.Order.Defs.LinearOrder

/-!
# Subjects of a motion capture file

momentum/io/marker/c3d_io.cpp: `findSubjectName` and `loadC3d`; momentum/io/marker/marker_io.cpp: `findMainSubjectIndex`.  What the
library ezc3d reads from a file is a structure `C3dFile`; a coordinate or residual that is not a number is `none`.  The order in which
`std::unordered_map` lists its entries is a parameter.
-/

namespace Momentum.MarkerSubjects

open TrcText (TrcMarker UpVector toMomentum toUnit)

/-- marker.h `MarkerSequence`. -/
structure SubjectSequence (K : Type) where
  name : List Char
  frames : List (List (TrcMarker K))
  fps : K

section
variable {K : Type}

/-- marker_io.cpp:20-28 `markerCount`. -/
def markerCount (frames : List (List (TrcMarker K))) : Nat :=
  frames.foldl (fun m fr => max (fr.countP fun x => !x.occluded) m) 0

/-- marker_io.cpp:93-98: a proper name; `std::tolower` on the characters of the basic set. -/
def isNamed (name : List Char) : Bool := name ≠ [] && decide (name.map Char.toLower ≠ "unlabeled".toList)

/-- marker_io.cpp:90-103: one turn, with the largest count and its actor so far. -/
def mainStep (st : Nat × Nat) (e : SubjectSequence K × Nat) : Nat × Nat :=
  if markerCount e.1.frames > st.1 && isNamed e.1.name then (markerCount e.1.frames, e.2) else st

/-- marker_io.cpp:61-110 `findMainSubjectIndex`.  The counts are kept as `int`; more than 2^31 markers are not modelled. -/
def findMainSubjectIndex (s : List (SubjectSequence K)) : Int :=
  match s with
  | [] => -1
  | [a] => if markerCount a.frames > 0 then 0 else -1
  | _ =>
    let r := s.zipIdx.foldl mainStep (0, 0)
    if r.1 > 0 then r.2 else -1

end

/-- c3d_io.cpp:26-48 `findSubjectName`. -/
def findSubjectName (label : List Char) : List Char :=
  if ':' ∈ label then label.takeWhile (· ≠ ':')
  else if '_' ∈ label then
    let candidate := (label.reverse.dropWhile (· ≠ '_')).tail.reverse
    if candidate.map Char.toLower ∈ ["l".toList, "r".toList, "left".toList, "right".toList] then [] else candidate
  else []

/-- What ezc3d gives for a point in a frame. -/
structure C3dPoint (K : Type) where
  x : Option K
  y : Option K
  z : Option K
  residual : Option K

/-- What ezc3d reads: the header, the parameters `UNITS`, `LABELS` (section 1), `LABELS2` (section 2) and so on, and the frames. -/
structure C3dFile (K : Type) where
  numPoints : Nat
  numFrames : Nat
  frameRate : K
  units : Option (List (List Char))
  labels : Nat → Option (List (List Char))
  frames : List (List (C3dPoint K))

/-- c3d_io.cpp:114-119: one label, at the end of the entry of its subject. -/
def addLabel (groups : List (List Char × List Nat)) (e : List Char × Nat) : List (List Char × List Nat) :=
  if (groups.map Prod.fst).contains (findSubjectName e.1) then
    groups.map fun g => if g.1 = findSubjectName e.1 then (g.1, g.2 ++ [e.2]) else g
  else groups ++ [(findSubjectName e.1, [e.2])]

/-- c3d_io.cpp:112-119: `subjectNameMap`. -/
def subjectMap (labels : List (List Char)) : List (List Char × List Nat) := labels.zipIdx.foldl addLabel []

/-- c3d_io.cpp:135-137: the label without the subject. -/
def markerName (subject label : List Char) : List Char := if subject ≠ [] then label.drop (subject.length + 1) else label

/-- c3d_io.cpp:143-145: a suffix such as `-1` or `-12`. -/
def isDangling (l : List Char) : Bool :=
  (decide (l.length ≥ 2) && decide (l[l.length - 2]? = some '-')) || (decide (l.length ≥ 3) && decide (l[l.length - 3]? = some '-'))

section
variable {K : Type} [Field K]

/-- c3d_io.cpp:134-155: one point of a subject.  The number of markers so far is the size of `templateActor`. -/
def placeMarker (labels : List (List Char)) (actor : Nat) (subject : List Char) (st : List (Option (Nat × Nat)) × List (TrcMarker K)) (p : Nat) :
    List (Option (Nat × Nat)) × List (TrcMarker K) :=
  let name := markerName subject (labels.getD p [])
  if isDangling name then st else (st.1.set p (some (actor, st.2.length)), st.2 ++ [⟨name, ⟨0, 0, 0⟩, true⟩])

/-- c3d_io.cpp:126-157: one subject. -/
def placeSubject (labels : List (List Char)) (st : List (Option (Nat × Nat)) × List (List (TrcMarker K))) (g : List Char × List Nat) :
    List (Option (Nat × Nat)) × List (List (TrcMarker K)) :=
  let r := g.2.foldl (placeMarker labels st.2.length g.1) (st.1, [])
  (r.1, st.2 ++ [r.2])

section
variable [LinearOrder K]

/-- c3d_io.cpp:185-199: the position of a point, if it counts. -/
def pointPosition (up : UpVector) (unit : List Char) (pt : C3dPoint K) : Option (Vec3 K) :=
  match pt.x, pt.y, pt.z, pt.residual with
  | some x, some y, some z, some r =>
    if x = 0 ∧ y = 0 ∧ z = 0 then none else if r ≥ 0 then some (toMomentum ⟨x, y, z⟩ up (toUnit unit)) else none
  | _, _, _, _ => none

/-- c3d_io.cpp:199-203: what happens to the marker. -/
def showMarker (pos : Option (Vec3 K)) (m : TrcMarker K) : TrcMarker K :=
  match pos with
  | some v => { m with pos := v, occluded := false }
  | none => m

/-- c3d_io.cpp:173-204: one point of a frame. -/
def pointStep (up : UpVector) (unit : List Char) (markerMap : List (Option (Nat × Nat))) (points : List (C3dPoint K))
    (st : List (List (TrcMarker K)) × Bool) (p : Nat) : Outcome (List (List (TrcMarker K)) × Bool) :=
  match markerMap[p]? with
  | none => .ub
  | some none => .ok st
  | some (some (a, k)) =>
    match points[p]? with
    | none => .ub
    | some pt =>
      .ok (st.1.modify a fun t => t.modify k (showMarker (pointPosition up unit pt)), st.2 || (pointPosition up unit pt).isSome)

/-- A loop over numbers. -/
def loopOver {σ : Type} (f : σ → Nat → Outcome σ) : σ → List Nat → Outcome σ
  | s, [] => .ok s
  | s, p :: ps => (f s p).bind fun s' => loopOver f s' ps

/-- c3d_io.cpp:163-168: all markers are occluded. -/
def hideAll (ts : List (List (TrcMarker K))) : List (List (TrcMarker K)) := ts.map fun t => t.map fun m => { m with occluded := true }

/-- c3d_io.cpp:161-208: the loop over the frames, with the frames still to be read and the markers of the frames so far.  A frame that is
not there is read beyond the end. -/
def frameLoop (up : UpVector) (unit : List Char) (markerMap : List (Option (Nat × Nat))) (n : Nat) :
    Nat → List (List (C3dPoint K)) → List (List (TrcMarker K)) × Bool → List (List (List (TrcMarker K))) →
    Outcome (List (List (List (TrcMarker K))) × Bool)
  | 0, _, st, acc => .ok (acc, st.2)
  | _ + 1, [], _, _ => .ub
  | m + 1, f :: fs, st, acc =>
    (loopOver (pointStep up unit markerMap f) (hideAll st.1, st.2) (List.range n)).bind fun st' =>
      frameLoop up unit markerMap n m fs st' (acc ++ [st'.1])

/-- c3d_io.cpp:92-105: the labels of all sections; `none` when a section is missing, which is an exception. -/
def allLabels (file : C3dFile K) : Option (List (List Char)) :=
  (List.range (file.numPoints / 255)).foldl (fun acc k => acc.bind fun l => (file.labels (k + 2)).map fun more => l ++ more) (file.labels 1)

/-- c3d_io.cpp:82-83: the units that are accepted. -/
def knownUnit (u : List Char) : Bool := u = "mm".toList || u = "m".toList || u = "cm".toList || u = "dm".toList

/-- c3d_io.cpp:112-224: after the checks.  `order` is the order in which the map lists its entries. -/
def loadSubjects (order : List (List Char × List Nat) → List (List Char × List Nat)) (up : UpVector) (unit : List Char) (file : C3dFile K)
    (labels : List (List Char)) : Outcome (List (SubjectSequence K)) :=
  let groups := order (subjectMap labels)
  let placed := groups.foldl (placeSubject labels) (List.replicate file.numPoints none, [])
  (frameLoop up unit placed.1 file.numPoints file.numFrames file.frames (placed.2, false) []).bind fun r =>
    if r.2 then .ok (groups.zipIdx.map fun g => ⟨g.1.1, r.1.map fun ts => ts.getD g.2 [], file.frameRate⟩) else .ok []

/-- c3d_io.cpp:52-225 `loadC3d`, on a file that ezc3d can read.  Exceptions are caught and give an empty result. -/
def loadC3d (order : List (List Char × List Nat) → List (List Char × List Nat)) (up : UpVector) (file : C3dFile K) :
    Outcome (List (SubjectSequence K)) :=
  match file.units with
  | some [unit] =>
    if knownUnit unit then
      match allLabels file with
      | none => .ok []
      | some labels => if labels.length < file.numPoints then .ok [] else loadSubjects order up unit file (labels.take file.numPoints)
    else .ok []
  | _ => .ok []

end
end

end Momentum.MarkerSubjects
