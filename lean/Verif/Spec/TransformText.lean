import Verif.Model.TransformText
import Mathlib.Logic.Function.Basic

/-!
# What a text of parameter definitions means

Independent of the parser.  A definition `joint.channel = summand + summand + …` adds its summands to a joint parameter, one after
another.  A summand is a constant, a weight times a model parameter or a weight times another joint parameter.
-/

namespace Momentum.TransformText

/-- A summand. -/
inductive Term (K : Type)
  | const (c : K)
  | param (w : K) (name : List Char)
  | ref (w : K) (joint channel : Nat)

/-- A definition of the joint parameter `7 * joint + channel`. -/
structure Definition (K : Type) where
  joint : Nat
  channel : Nat
  terms : List (Term K)

/-- The joint parameter a definition is about. -/
def Definition.target {K : Type} (d : Definition K) : Nat := 7 * d.joint + d.channel

section
variable {K : Type} [CommRing K]

/-- What a summand adds to joint parameter `row` when the model parameters have the values `v` and the joint parameters have so far the
values `x`.  Constants are kept apart. -/
def Term.run (v : List Char → K) (row : Nat) (x : Nat → K) : Term K → Nat → K
  | .const _ => x
  | .param w n => Function.update x row (x row + w * v n)
  | .ref w j a => Function.update x row (x row + w * x (7 * j + a))

/-- The summands of a definition, one after another. -/
def Definition.run (v : List Char → K) (x : Nat → K) (d : Definition K) : Nat → K := d.terms.foldl (Term.run v d.target) x

/-- The values of all joint parameters, without the constants. -/
def linearPart (v : List Char → K) (defs : List (Definition K)) : Nat → K := defs.foldl (Definition.run v) fun _ => 0

/-- The constants: the last one of a joint parameter counts. -/
def Term.constant (row : Nat) (o : Nat → K) : Term K → Nat → K
  | .const c => Function.update o row c
  | _ => o

/-- The constants of a definition. -/
def Definition.constants (o : Nat → K) (d : Definition K) : Nat → K := d.terms.foldl (Term.constant d.target) o

/-- The constants of all joint parameters. -/
def constantPart (defs : List (Definition K)) : Nat → K := defs.foldl Definition.constants fun _ => 0

/-- The names in a summand. -/
def Term.name? : Term K → Option (List Char)
  | .param _ n => some n
  | _ => none

/-- A name is added at the end unless it is there already. -/
def addName (names : List (List Char)) (n : List Char) : List (List Char) := if n ∈ names then names else names ++ [n]

/-- The names of the model parameters in the order in which they appear first. -/
def parameterNames (defs : List (Definition K)) : List (List Char) :=
  (defs.flatMap fun d => d.terms.filterMap Term.name?).foldl addName []

/-- Only blanks and tabs. -/
def Blank (s : List Char) : Prop := ∀ c ∈ s, c = ' ' ∨ c = '\t'

/-- Without equality sign, comment and end of line. -/
def Plain (s : List Char) : Prop := ∀ c ∈ s, c ≠ '=' ∧ c ≠ '#' ∧ c ≠ '\n'

/-- A word without blanks at its ends and without the characters that have a meaning in definitions. -/
def Word (s : List Char) : Prop :=
  s ≠ [] ∧ (∀ c ∈ s, c ≠ '=' ∧ c ≠ '+' ∧ c ≠ '*' ∧ c ≠ '#' ∧ c ≠ '\n') ∧ (∀ c, s.head? = some c ∨ s.getLast? = some c → c ≠ ' ' ∧ c ≠ '\t' ∧ c ≠ '\x00')

/-- A numeral, perhaps with blanks around it. -/
def Numeral (read : List Char → Option K) (s : List Char) (x : K) : Prop :=
  s ≠ [] ∧ (∀ c ∈ s, c ≠ '=' ∧ c ≠ '+' ∧ c ≠ '*' ∧ c ≠ '#' ∧ c ≠ '\n') ∧ read s = some x

/-- No joint has the name. -/
def NoJoint (sk : Skeleton K) (w : List Char) : Prop := ∀ j ∈ sk.joints, j.name.toList ≠ w

/-- The first joint with the name. -/
def IsJoint (sk : Skeleton K) (j : Nat) (w : List Char) : Prop :=
  (∃ joint, sk.joints[j]? = some joint ∧ joint.name.toList = w) ∧
    ∀ k < j, ∀ joint, sk.joints[k]? = some joint → joint.name.toList ≠ w

/-- The channels of a joint. -/
def IsChannel (a : Nat) (w : List Char) : Prop :=
  ["tx", "ty", "tz", "rx", "ry", "rz", "sc"][a]? = some (String.ofList w)

/-- The words name joint `j` and channel `a`. -/
def NamesChannel (sk : Skeleton K) (j a : Nat) (joint channel : List Char) : Prop :=
  Word joint ∧ '.' ∉ joint ∧ IsJoint sk j joint ∧ IsChannel a channel

/-- The summand is written like this. -/
inductive TermText (read : List Char → Option K) (sk : Skeleton K) : Term K → List Char → Prop
  | const {c : K} {s : List Char} : Numeral read s c → TermText read sk (.const c) s
  | param {w : K} {s pre name post : List Char} : Numeral read s w → Blank pre → Word name → Blank post →
      NoJoint sk (name.takeWhile (· ≠ '.')) → TermText read sk (.param w name) (s ++ '*' :: (pre ++ name ++ post))
  | ref {w : K} {j a : Nat} {s pre joint channel post : List Char} : Numeral read s w → Blank pre → NamesChannel sk j a joint channel →
      Blank post → TermText read sk (.ref w j a) (s ++ '*' :: (pre ++ (joint ++ '.' :: channel) ++ post))

/-- The summands with `+` between them. -/
inductive SumText (read : List Char → Option K) (sk : Skeleton K) : List (Term K) → List Char → Prop
  | one {t : Term K} {s : List Char} : TermText read sk t s → SumText read sk [t] s
  | more {t : Term K} {ts : List (Term K)} {s r : List Char} : TermText read sk t s → SumText read sk ts r →
      SumText read sk (t :: ts) (s ++ '+' :: r)

/-- Lines for limits, parameter sets and pose constraints start like this. -/
def StartsOther (s : List Char) : Prop := "limit".toList <+: s ∨ "parameterset".toList <+: s ∨ "poseconstraints".toList <+: s

/-- The definition is written like this, perhaps with a comment after it.  It does not start like the lines for limits, parameter sets
and pose constraints. -/
inductive DefinitionText (read : List Char → Option K) (sk : Skeleton K) : Definition K → List Char → Prop
  | intro {j a : Nat} {ts : List (Term K)} {b1 joint b2 b3 channel b4 sum comment : List Char} : Blank b1 → Blank b2 → Blank b3 →
      Blank b4 → NamesChannel sk j a joint channel → SumText read sk ts sum →
      ¬ StartsOther (b1 ++ joint ++ b2 ++ '.' :: (b3 ++ channel ++ b4 ++ '=' :: sum)) →
      (comment = [] ∨ ∃ r, comment = '#' :: r ∧ '\n' ∉ r) →
      DefinitionText read sk ⟨j, a, ts⟩ (b1 ++ joint ++ b2 ++ '.' :: (b3 ++ channel ++ b4 ++ '=' :: sum) ++ comment)

/-- A line without a definition: one for another parser, or one without an equality sign before its comment. -/
def OtherText (s : List Char) : Prop := '\n' ∉ s ∧ (StartsOther (s.takeWhile (· ≠ '#')) ∨ '=' ∉ s.takeWhile (· ≠ '#'))

/-- A text with these definitions. -/
inductive Text (read : List Char → Option K) (sk : Skeleton K) : List (Definition K) → List Char → Prop
  | nil : Text read sk [] []
  | definition {d : Definition K} {ds : List (Definition K)} {s r : List Char} : DefinitionText read sk d s → Text read sk ds r →
      Text read sk (d :: ds) (s ++ '\n' :: r)
  | other {ds : List (Definition K)} {s r : List Char} : OtherText s → Text read sk ds r → Text read sk ds (s ++ '\n' :: r)

/-- No definition refers to the joint parameter it is about. -/
def NoSelfReference (defs : List (Definition K)) : Prop :=
  ∀ d ∈ defs, ∀ w j a, Term.ref w j a ∈ d.terms → 7 * j + a ≠ d.target

end
end Momentum.TransformText

namespace Momentum.TransformText

section
variable {K : Type} [CommRing K]

/-- What a summand stands for when the model parameters have the values `v` and the joint parameters the values `y`. -/
def Term.value (v : List Char → K) (y : Nat → K) : Term K → K
  | .const c => c
  | .param w n => w * v n
  | .ref w j a => w * y (7 * j + a)

/-- The constants among summands. -/
def Term.const? : Term K → Option K
  | .const c => some c
  | _ => none

/-- Definitions that can be read as equations: no joint parameter is defined twice, no definition has two constants, and a definition
refers only to joint parameters that are defined before it (or not at all) and have no constant. -/
def Equational (defs : List (Definition K)) : Prop :=
  ∀ pre d post, defs = pre ++ d :: post →
    (∀ e ∈ post, e.target ≠ d.target) ∧ (d.terms.filterMap Term.const?).length ≤ 1 ∧
    ∀ w j a, Term.ref w j a ∈ d.terms →
      (∀ e ∈ d :: post, e.target ≠ 7 * j + a) ∧ ∀ e ∈ pre, e.target = 7 * j + a → e.terms.filterMap Term.const? = []

end
end Momentum.TransformText
