import Verif.Model.LineReader
import Verif.Spec.TransformText

/-!
# Lines and sections of a file

Independent of the readers: what the lines of a text are, with the three line ends in use, what is on a line, and which sections a
list of lines has.
-/

namespace Momentum.LineReader

open TransformText (Blank)

/-- No line end inside. -/
def OnLine (l : List Char) : Prop := '\n' ∉ l ∧ '\r' ∉ l

/-- The text consists of the lines, each with a line end after it (`\n`, `\r\n`, or `\r` inside the text), and then the rest. -/
inductive Lines : List (List Char) → List Char → List Char → Prop
  | nil {r : List Char} : Lines [] r r
  | lf {l t r : List Char} {ls : List (List Char)} : OnLine l → Lines ls t r → Lines (l :: ls) (l ++ '\n' :: t) r
  | crlf {l t r : List Char} {ls : List (List Char)} : OnLine l → Lines ls t r → Lines (l :: ls) (l ++ '\r' :: '\n' :: t) r
  | cr {l t r : List Char} {ls : List (List Char)} : OnLine l → Lines ls t r → t ≠ [] → t.head? ≠ some '\n' → Lines (l :: ls) (l ++ '\r' :: t) r

/-- The line says `w`: blanks around it and a comment after it do not count. -/
inductive Says : List Char → List Char → Prop
  | mk {a w b c : List Char} : Blank a → Blank b → '#' ∉ w →
      (∀ x, w.head? = some x ∨ w.getLast? = some x → x ≠ ' ' ∧ x ≠ '\t' ∧ x ≠ '\x00') → (c = [] ∨ ∃ s, c = '#' :: s) → Says (a ++ w ++ b ++ c) w

/-- `[name]` -/
def Heading (n w : List Char) : Prop := w = '[' :: (n ++ [']']) ∧ n ≠ [] ∧ ∀ c ∈ n, c.isAlphanum = true ∨ c = '_'

/-- The first line of a model file. -/
def magic : List Char := "Momentum Model Definition V1.0".toList

/-- Blanks around it do not count. -/
def IsHeader (h : List Char) : Prop := ∃ a b, Blank a ∧ Blank b ∧ h = a ++ magic ++ b

/-- Lines without a heading, and the text they stand for. -/
inductive Plain : List (List Char) → List Char → Prop
  | nil : Plain [] []
  | empty {l : List Char} {ls : List (List Char)} {t : List Char} : Says l [] → Plain ls t → Plain (l :: ls) t
  | line {l w : List Char} {ls : List (List Char)} {t : List Char} : Says l w → w ≠ [] → (∀ n, ¬ Heading n w) → Plain ls t →
      Plain (l :: ls) (w ++ '\n' :: t)

/-- Lines that say something, whatever it is. -/
inductive Content : List (List Char) → List Char → Prop
  | nil : Content [] []
  | empty {l : List Char} {ls : List (List Char)} {t : List Char} : Says l [] → Content ls t → Content (l :: ls) t
  | line {l w : List Char} {ls : List (List Char)} {t : List Char} : Says l w → w ≠ [] → Content ls t → Content (l :: ls) (w ++ '\n' :: t)

/-- Sections, one after the other. -/
inductive Sections : List (List Char) → List (List Char × List Char) → Prop
  | nil : Sections [] []
  | cons {l w n t : List Char} {ls rest : List (List Char)} {ds : List (List Char × List Char)} : Says l w → Heading n w → Plain ls t →
      Sections rest ds → Sections (l :: (ls ++ rest)) ((n, t) :: ds)

/-- The content of the last section with a name. -/
def lastSection (ds : List (List Char × List Char)) (k : String) : Option (List Char) :=
  (ds.reverse.find? fun d => String.ofList d.1 = k).map Prod.snd

end Momentum.LineReader
