import Verif.Model.TrcText
import Verif.Spec.LineReader

/-!
# What a TRC file says

Independent of the reader: words of a line, rows of fields between tabs, and the markers of a row.
-/

namespace Momentum.TrcText

open TransformText (Blank)
open LineReader (Lines OnLine)

/-- The direction that points up. -/
def upDirection {K : Type} [Field K] : UpVector → Vec3 K
  | .x => ⟨1, 0, 0⟩
  | .y => ⟨0, 1, 0⟩
  | .z => ⟨0, 0, 1⟩
  | .yNeg => ⟨0, -1, 0⟩

/-- Centimetres in a unit. -/
def centimetres {K : Type} [Field K] : LengthUnit → K
  | .m => 100
  | .dm => 10
  | .cm => 1
  | .mm => 10⁻¹
  | .unknown => 1

/-- A word without white space. -/
def IsWord (w : List Char) : Prop := w ≠ [] ∧ ∀ c ∈ w, c ≠ ' ' ∧ c ≠ '\t' ∧ c ≠ '\r' ∧ c ≠ '\n'

/-- The words of a line. -/
inductive Words : List (List Char) → List Char → Prop
  | nil {b : List Char} : Blank b → Words [] b
  | last {a w : List Char} : Blank a → IsWord w → Words [w] (a ++ w)
  | cons {a w b r : List Char} {ws : List (List Char)} : Blank a → IsWord w → Blank b → b ≠ [] → Words ws r → Words (w :: ws) (a ++ w ++ b ++ r)

/-- The line is the fields with tabs between them. -/
def IsRow (line : List Char) (fields : List (List Char)) : Prop :=
  fields ≠ [] ∧ (∀ f ∈ fields, '\t' ∉ f) ∧ line = List.intercalate ['\t'] fields

/-- The spellings of the units. -/
def IsUnitName (s : List Char) : Prop := s ∈ [['m'], ['M'], ['d', 'm'], ['D', 'M'], ['c', 'm'], ['C', 'M'], ['m', 'm'], ['M', 'M']]

section
variable {K : Type} [Field K]

/-- The marker that three fields stand for: occluded when one of them is empty, else at the position in the unit. -/
inductive MarkerOf (stod : List Char → Option K) (up : UpVector) (unit : LengthUnit) (name a b c : List Char) : TrcMarker K → Prop
  | occluded : (a = [] ∨ b = [] ∨ c = []) → MarkerOf stod up unit name a b c ⟨name, ⟨0, 0, 0⟩, true⟩
  | visible {x y z : K} : a ≠ [] → b ≠ [] → c ≠ [] → stod a = some x → stod b = some y → stod c = some z →
      MarkerOf stod up unit name a b c ⟨name, toMomentum ⟨x, y, z⟩ up unit, false⟩

/-- The markers of a row: two fields, then three fields for every name. -/
def FrameOf (stod : List Char → Option K) (up : UpVector) (unit : LengthUnit) (names fields : List (List Char)) (ms : List (TrcMarker K)) : Prop :=
  fields.length = names.length * 3 + 2 ∧ ms.length = names.length ∧
    ∀ i name, names[i]? = some name → ∃ a b c m, fields[i * 3 + 2]? = some a ∧ fields[i * 3 + 3]? = some b ∧ fields[i * 3 + 4]? = some c ∧
      ms[i]? = some m ∧ MarkerOf stod up unit name a b c m

/-- The frames of the rows; rows with another number of fields are skipped.  No coordinate of the first marker is the name of a unit. -/
inductive Frames (stod : List Char → Option K) (up : UpVector) (unit : LengthUnit) (names : List (List Char)) :
    List (List Char) → List (List (TrcMarker K)) → Prop
  | nil : Frames stod up unit names [] []
  | frame {line : List Char} {fields : List (List Char)} {ms : List (TrcMarker K)} {ls : List (List Char)} {fs : List (List (TrcMarker K))} :
      IsRow line fields → FrameOf stod up unit names fields ms → (∀ f, fields[4]? = some f → ¬ IsUnitName f) → Frames stod up unit names ls fs →
      Frames stod up unit names (line :: ls) (ms :: fs)
  | other {line : List Char} {fields : List (List Char)} {ls : List (List Char)} {fs : List (List (TrcMarker K))} :
      IsRow line fields → fields.length ≠ names.length * 3 + 2 → Frames stod up unit names ls fs → Frames stod up unit names (line :: ls) fs

/-- The five lines before the data: type, columns, rates with the number of markers and the unit, names, and one more. -/
structure Header (stod : List Char → Option K) (stoi : List Char → Option Int) (unit : List Char) (fps : K) (names : List (List Char))
    (h : Fin 5 → List Char) : Prop where
  magic : ∃ p q, h 0 = p ++ "PathFileType\t4\t(X/Y/Z)".toList ++ q
  columns : ∃ p q, h 1 =
    p ++ "DataRate\tCameraRate\tNumFrames\tNumMarkers\tUnits\tOrigDataRate\tOrigDataStartFrame\tOrigNumFrames".toList ++ q
  rates : ∃ rate camera frames number orate ostart oframes, Words [rate, camera, frames, number, unit, orate, ostart, oframes] (h 2) ∧
    stod rate = some fps ∧ stoi number = some (names.length : Int)
  names : ∃ a b, Words (a :: b :: names) (h 3)

end

end Momentum.TrcText
