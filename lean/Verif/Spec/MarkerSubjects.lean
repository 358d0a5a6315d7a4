import Verif.Model.MarkerSubjects

/-!
# Subjects, their markers, and the main subject

Independent of the loaders.
-/

namespace Momentum.MarkerSubjects

open TrcText (TrcMarker UpVector toMomentum toUnit)

section
variable {K : Type}

/-- The number of visible markers of a frame. -/
def visibleIn (fr : List (TrcMarker K)) : Nat := (fr.filter fun m => m.occluded = false).length

/-- The largest number of visible markers in a frame. -/
def MostVisible (frames : List (List (TrcMarker K))) (n : Nat) : Prop :=
  (∀ fr ∈ frames, visibleIn fr ≤ n) ∧ (n = 0 ∨ ∃ fr ∈ frames, visibleIn fr = n)

/-- A name other than `unlabeled`, in small or capital letters. -/
def ProperName (name : List Char) : Prop := name ≠ [] ∧ name.map Char.toLower ≠ "unlabeled".toList

/-- The first of the subjects with a proper name that show the most markers in some frame. -/
def IsMain (s : List (SubjectSequence K)) (i : Nat) : Prop :=
  ∃ a n, s[i]? = some a ∧ MostVisible a.frames n ∧ ProperName a.name ∧ 0 < n ∧
    ∀ j b m, s[j]? = some b → MostVisible b.frames m → ProperName b.name → m ≤ n ∧ (j < i → m < n)

end

/-- A side, in small or capital letters. -/
def IsSide (l : List Char) : Prop := l.map Char.toLower ∈ ["l".toList, "r".toList, "left".toList, "right".toList]

/-- The subject that a label names: what is before the first colon or else before the last underscore, but for a side. -/
inductive SubjectOf : List Char → List Char → Prop
  | colon (a b : List Char) : ':' ∉ a → SubjectOf (a ++ ':' :: b) a
  | underscore (a b : List Char) : ':' ∉ a → ':' ∉ b → '_' ∉ b → ¬ IsSide a → SubjectOf (a ++ '_' :: b) a
  | side (a b : List Char) : ':' ∉ a → ':' ∉ b → '_' ∉ b → IsSide a → SubjectOf (a ++ '_' :: b) []
  | plain (l : List Char) : ':' ∉ l → '_' ∉ l → SubjectOf l []

/-- The name of the marker: what follows the subject and the character after it. -/
def MarkerOf (subject label name : List Char) : Prop :=
  (subject = [] ∧ name = label) ∨ (subject ≠ [] ∧ ∃ c, label = subject ++ c :: name)

/-- A suffix of a dash and one or two characters, the sign of a stray marker. -/
def Stray (l : List Char) : Prop := ∃ s c, l = s ++ ['-', c] ∨ ∃ d, l = s ++ ['-', c, d]

/-- The point has a label with this subject and marker, which is not stray. -/
def Labelled (labels : List (List Char)) (p : Nat) (subject name : List Char) : Prop :=
  ∃ l, labels[p]? = some l ∧ SubjectOf l subject ∧ MarkerOf subject l name ∧ ¬ Stray name

/-- The points of a subject that are not stray, in the order of the file. -/
def PointsOf (labels : List (List Char)) (subject : List Char) (ps : List Nat) : Prop :=
  ps.Pairwise (· < ·) ∧ ∀ p, p ∈ ps ↔ ∃ name, Labelled labels p subject name

section
variable {K : Type} [Field K] [LinearOrder K]

/-- The point has coordinates, not all zero, and is not marked as invalid. -/
def IsSeen (pt : C3dPoint K) (v : Vec3 K) : Prop :=
  ∃ x y z r, pt = ⟨some x, some y, some z, some r⟩ ∧ v = ⟨x, y, z⟩ ∧ ¬ (x = 0 ∧ y = 0 ∧ z = 0) ∧ 0 ≤ r

/-- What a marker shows of a point: its position, or else that it is hidden, at the place where it was before. -/
def Shows (up : UpVector) (unit : List Char) (before : Vec3 K) (pt : C3dPoint K) (m : TrcMarker K) : Prop :=
  (∃ v, IsSeen pt v ∧ m.occluded = false ∧ m.pos = toMomentum v up (toUnit unit)) ∨
    ((¬ ∃ v, IsSeen pt v) ∧ m.occluded = true ∧ m.pos = before)

/-- The units that a file may have. -/
def GoodUnit (unit : List Char) : Prop := unit ∈ ["mm".toList, "cm".toList, "dm".toList, "m".toList]

/-- The labels are those of the sections, of which there is one more than the points fill. -/
def LabelsOf (file : C3dFile K) (labels : List (List Char)) : Prop :=
  ∃ secs : List (List (List Char)), secs.length = file.numPoints / 255 + 1 ∧ secs.flatten = labels ∧
    ∀ (i : Nat) (s : List (List Char)), secs[i]? = some s → file.labels (i + 1) = some s

/-- Some marker is seen in some frame. -/
def SomeSeen (file : C3dFile K) (labels : List (List Char)) : Prop :=
  ∃ (f : Nat) (points : List (C3dPoint K)) (p : Nat) (pt : C3dPoint K) (subject name : List Char) (v : Vec3 K), f < file.numFrames ∧ file.frames[f]? = some points ∧ points[p]? = some pt ∧
    Labelled labels p subject name ∧ IsSeen pt v

/-- The motion of a subject is what the file has for it. -/
def Motion (file : C3dFile K) (labels : List (List Char)) (up : UpVector) (unit : List Char) (s : SubjectSequence K) : Prop :=
  s.fps = file.frameRate ∧ s.frames.length = file.numFrames ∧
    ∀ ps, PointsOf labels s.name ps → ∀ (f : Nat) (fr : List (TrcMarker K)) (points : List (C3dPoint K)), s.frames[f]? = some fr → file.frames[f]? = some points →
      fr.length = ps.length ∧
      ∀ (k p : Nat) (pt : C3dPoint K), ps[k]? = some p → points[p]? = some pt →
        ∃ m, fr[k]? = some m ∧ Labelled labels p s.name m.name ∧
          (f = 0 → Shows up unit ⟨0, 0, 0⟩ pt m) ∧
          ∀ (g : Nat) (fr' : List (TrcMarker K)) (m' : TrcMarker K), f = g + 1 → s.frames[g]? = some fr' → fr'[k]? = some m' → Shows up unit m'.pos pt m

/-- The file has a frame with all points for each frame of its header. -/
def Complete (file : C3dFile K) : Prop :=
  file.numFrames ≤ file.frames.length ∧ ∀ f ∈ file.frames, file.numPoints ≤ f.length

end

end Momentum.MarkerSubjects
