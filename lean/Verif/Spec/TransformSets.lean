import Verif.Model.TransformText

/-!
# How parameter sets and pose constraints are written

`parameterset key name name …` and `poseconstraints key name=value name=value …`, independent of the parsers.
-/

namespace Momentum.TransformText

/-- A word of such a line. -/
def Entry (w : List Char) : Prop :=
  w ≠ [] ∧ ∀ c ∈ w, c ≠ ' ' ∧ c ≠ '\t' ∧ c ≠ '\r' ∧ c ≠ '\n' ∧ c ≠ '#' ∧ c ≠ '\x00'

/-- Words with blanks before each and perhaps after the last. -/
inductive Spaced : List (List Char) → List Char → Prop
  | nil {b : List Char} : (∀ c ∈ b, c = ' ' ∨ c = '\t') → Spaced [] b
  | cons {ws : List (List Char)} {b w r : List Char} : (∀ c ∈ b, c = ' ' ∨ c = '\t') → b ≠ [] → Entry w → Spaced ws r →
      Spaced (w :: ws) (b ++ w ++ r)

/-- A text with lines that start with `start`, each with a key and a list of words, among other lines. -/
inductive KeyedText (start : List Char) : List (List Char × List (List Char)) → List Char → Prop
  | nil : KeyedText start [] []
  | line {ls : List (List Char × List (List Char))} {key : List Char} {ws : List (List Char)} {t comment r : List Char} :
      Spaced (key :: ws) t → (comment = [] ∨ ∃ c, comment = '#' :: c ∧ '\n' ∉ c) → KeyedText start ls r →
      KeyedText start ((key, ws) :: ls) (start ++ t ++ comment ++ '\n' :: r)
  | other {ls : List (List Char × List (List Char))} {s r : List Char} : '\n' ∉ s → ¬ start <+: s.takeWhile (· ≠ '#') →
      KeyedText start ls r → KeyedText start ls (s ++ '\n' :: r)

/-- The first parameter with the name. -/
def IsParameter {K : Type} (pt : ParameterTransform K) (i : Nat) (w : List Char) : Prop :=
  (∃ n, pt.name[i]? = some n ∧ n.toList = w) ∧ ∀ k < i, ∀ n, pt.name[k]? = some n → n.toList ≠ w

/-- The words are values of parameters: `name=value`.  Words without `=` are skipped. -/
inductive Items {K : Type} (read : List Char → Option K) (pt : ParameterTransform K) : List (List Char) → List (Nat × K) → Prop
  | nil : Items read pt [] []
  | cons {ws : List (List Char)} {xs : List (Nat × K)} {n v : List Char} {i : Nat} {x : K} : '=' ∉ n → '=' ∉ v → n ≠ [] → v ≠ [] →
      IsParameter pt i n → read v = some x → Items read pt ws xs → Items read pt ((n ++ '=' :: v) :: ws) ((i, x) :: xs)
  | skip {ws : List (List Char)} {xs : List (Nat × K)} {w : List Char} : '=' ∉ w → Items read pt ws xs → Items read pt (w :: ws) xs

/-- The last line with the key. -/
def LastLine (ls : List (List Char × List (List Char))) (key : List Char) (ws : List (List Char)) : Prop :=
  ∃ pre post, ls = pre ++ (key, ws) :: post ∧ ∀ e ∈ post, e.1 ≠ key

end Momentum.TransformText
