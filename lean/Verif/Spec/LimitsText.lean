import Verif.Model.LimitsText

/-!
# Which limits a text can hold

Independent of the parser and of the writer: names, numerals and the lists of limits for which the text format is meant.
-/

namespace Momentum.LimitsText

/-- A letter or underscore followed by letters, digits, underscores and dots. -/
def IsName (w : List Char) : Prop :=
  ∃ c r, w = c :: r ∧ (c.isAlpha = true ∨ c = '_') ∧ ∀ x ∈ r, x.isAlphanum = true ∨ x = '_' ∨ x = '.'

/-- A digit or sign followed by digits, signs, points and the letter e. -/
def IsNumeral (w : List Char) : Prop :=
  ∃ c r, w = c :: r ∧ (c.isDigit = true ∨ c = '-' ∨ c = '+') ∧
    ∀ x ∈ r, x.isDigit = true ∨ x = '-' ∨ x = '+' ∨ x = '.' ∨ x = 'e'

/-- The number is printed as a numeral that is read as the same number. -/
def _root_.Momentum.NumFormat.Faithful (F : NumFormat) (x : ℝ) : Prop := IsNumeral (F.print x) ∧ F.read (F.print x) = some x

/-- The parameter exists and its name is a name that no earlier parameter has. -/
def NamesParameter (pt : ParameterTransform ℝ) (i : Nat) : Prop :=
  ∃ n, pt.name[i]? = some n ∧ IsName n.toList ∧ ∀ k < i, pt.name[k]? ≠ some n

/-- The joint exists and its name is a name that no earlier joint has. -/
def NamesJoint (sk : Skeleton ℝ) (i : Nat) : Prop :=
  ∃ j, sk.joints[i]? = some j ∧ IsName j.name.toList ∧ ∀ k < i, ∀ j', sk.joints[k]? = some j' → j'.name ≠ j.name

/-- The name of the parameter contains no dot. -/
def PlainParameter (pt : ParameterTransform ℝ) (i : Nat) : Prop := ∀ n, pt.name[i]? = some n → '.' ∉ n.toList

/-- The name of the joint contains no dot. -/
def PlainJoint (sk : Skeleton ℝ) (i : Nat) : Prop := ∀ j, sk.joints[i]? = some j → '.' ∉ j.name.toList

/-- What a limit must fulfil on its own. -/
def _root_.Momentum.LimitRecord.Expressible (F : NumFormat) (decompose : Mat3 ℝ → Mat3 ℝ × Mat3 ℝ) (tol : ℝ) (sk : Skeleton ℝ)
    (pt : ParameterTransform ℝ) : LimitRecord → Prop
  | .plain ⟨.minMax i lo hi, w⟩ =>
    NamesParameter pt i ∧ PlainParameter pt i ∧ F.Faithful lo ∧ F.Faithful hi ∧ (w = 1 ∨ F.Faithful w)
  | .plain ⟨.minMaxJoint j d lo hi, w⟩ =>
    NamesJoint sk j ∧ PlainJoint sk j ∧ d < 7 ∧ F.Faithful lo ∧ F.Faithful hi ∧ (w = 1 ∨ F.Faithful w)
  | .plain ⟨.minMaxJointPassive j d lo hi, w⟩ =>
    NamesJoint sk j ∧ PlainJoint sk j ∧ d < 7 ∧ F.Faithful lo ∧ F.Faithful hi ∧ (w = 1 ∨ F.Faithful w)
  | .plain ⟨.linear r g scale offset _ rangeMax, w⟩ =>
    NamesParameter pt r ∧ NamesParameter pt g ∧ F.Faithful scale ∧ F.Faithful offset ∧
      (rangeMax = kFloatMax ∨ F.Faithful rangeMax) ∧ F.Faithful w
  | .plain ⟨.ellipsoid .., _⟩ => False
  | .plain ⟨.halfPlane i j n0 n1 o, w⟩ =>
    NamesParameter pt i ∧ NamesParameter pt j ∧ n0 ^ 2 + n1 ^ 2 = 1 ∧ F.Faithful n0 ∧ F.Faithful n1 ∧ F.Faithful o ∧
      (w = 1 ∨ F.Faithful w)
  | .ellipsoid e =>
    let rs := decompose e.ellipsoid.linear
    let a := anglesOf tol rs.1
    NamesJoint sk e.parent ∧ NamesJoint sk e.ellipsoidParent ∧
      (∀ x ∈ [e.offset.x, e.offset.y, e.offset.z, e.ellipsoid.translation.x, e.ellipsoid.translation.y, e.ellipsoid.translation.z,
        a.x, a.y, a.z, rs.2.m00, rs.2.m11, rs.2.m22], F.Faithful x) ∧
      (e.weight = 1 ∨ F.Faithful e.weight) ∧
      e.ellipsoid = ellipsoidAffine e.ellipsoid.translation a ⟨rs.2.m00, rs.2.m11, rs.2.m22⟩ ∧
      e.ellipsoidInv = e.ellipsoid.inverse

/-- What a linear limit must fulfil together with the limit before it: it goes on where a linear limit of the same two parameters
and the same weight ends, with the same value up to 1/1000; or it is the first piece and starts at the lowest number. -/
def PieceOk (before : Option LimitRecord) : LimitRecord → Prop
  | .plain ⟨.linear r g scale offset rangeMin _, w⟩ =>
    (∃ s' o' m', before = some (.plain ⟨.linear r g s' o' m' rangeMin, w⟩) ∧ rangeMin ≠ kFloatMax ∧
      |(s' * rangeMin - o') - (scale * rangeMin - offset)| ≤ 1 / 1000) ∨
    (rangeMin = -kFloatMax ∧ ∀ s' o' m' w', before ≠ some (.plain ⟨.linear r g s' o' m' rangeMin, w'⟩))
  | _ => True

/-- `PieceOk` for each limit of the list and the one before it. -/
def PiecesOk : Option LimitRecord → List LimitRecord → Prop
  | _, [] => True
  | before, l :: ls => PieceOk before l ∧ PiecesOk (some l) ls

/-- A list of limits that the text format can hold. -/
def Expressible (F : NumFormat) (decompose : Mat3 ℝ → Mat3 ℝ × Mat3 ℝ) (tol : ℝ) (sk : Skeleton ℝ)
    (pt : ParameterTransform ℝ) (limits : List LimitRecord) : Prop :=
  (∀ l ∈ limits, LimitRecord.Expressible F decompose tol sk pt l) ∧ PiecesOk none limits

end Momentum.LimitsText
