import Verif.Spec.LimitsText
import Mathlib.Tactic.Linarith

/-! Reading back the pieces that the writer of limits prints. -/

namespace Momentum.LimitsText

variable {F : NumFormat}

/-- What follows a name or a number in a written line. -/
def Boundary (r : List Char) : Prop := ∀ c, r.head? = some c → c = ' ' ∨ c = ']' ∨ c = ','

/-- Neither the end of a line nor a comment. -/
def Clean (s : List Char) : Prop := ∀ c ∈ s, c ≠ '\n' ∧ c ≠ '#'

theorem Boundary.nil : Boundary [] := by intro c h; simp at h

theorem Boundary.space (r : List Char) : Boundary (' ' :: r) := by
  intro c h; left; simpa using h.symm

theorem Boundary.close (r : List Char) : Boundary (']' :: r) := by
  intro c h; right; left; simpa using h.symm

theorem Boundary.comma (r : List Char) : Boundary (',' :: r) := by
  intro c h; right; right; simpa using h.symm

theorem takeWhile_boundary (p : Char → Bool) (hp : p ' ' = false ∧ p ']' = false ∧ p ',' = false) {w r : List Char}
    (hw : ∀ x ∈ w, p x = true) (hr : Boundary r) :
    (w ++ r).takeWhile p = w ∧ (w ++ r).dropWhile p = r := by
  have hr2 : r.takeWhile p = [] ∧ r.dropWhile p = r := by
    cases r with
    | nil => simp
    | cons c r =>
      have hc : p c = false := by
        rcases hr c rfl with h | h | h <;> subst h
        · exact hp.1
        · exact hp.2.1
        · exact hp.2.2
      simp [hc]
  constructor
  · rw [List.takeWhile_append_of_pos hw, hr2.1, List.append_nil]
  · rw [List.dropWhile_append_of_pos hw, hr2.2]

theorem advance_nil : advance [] = some ⟨.eof, []⟩ := rfl

theorem advance_space (s : List Char) : advance (' ' :: s) = advance s := by
  have h : isSpaceChar ' ' = true := by decide
  unfold advance
  rw [List.dropWhile_cons_of_pos h]

theorem advance_open (s : List Char) : advance ('[' :: s) = some ⟨.openBracket, s⟩ := by
  have h : isSpaceChar '[' = false := by decide
  simp [advance, List.dropWhile, h]

theorem advance_close (s : List Char) : advance (']' :: s) = some ⟨.closeBracket, s⟩ := by
  have h : isSpaceChar ']' = false := by decide
  simp [advance, List.dropWhile, h]

theorem advance_comma (s : List Char) : advance (',' :: s) = some ⟨.comma, s⟩ := by
  have h : isSpaceChar ',' = false := by decide
  simp [advance, List.dropWhile, h]

theorem space_of_alpha {c : Char} (h : c.isAlpha = true ∨ c = '_') :
    isSpaceChar c = false ∧ c ≠ '[' ∧ c ≠ ']' ∧ c ≠ ',' ∧ isNumberStart c = false ∧ c ≠ '\n' ∧ c ≠ '#' := by
  have key : ∀ d : Char, d.isAlpha = false → d ≠ '_' → c ≠ d := by
    intro d h1 h2 h3
    subst h3
    rcases h with h | h
    · rw [h1] at h; exact Bool.noConfusion h
    · exact h2 h
  have hd : c.isDigit = false := by
    rcases h with h | h
    · simp only [Char.isAlpha, Char.isUpper, Char.isLower, Bool.or_eq_true, Bool.and_eq_true, decide_eq_true_eq] at h
      simp only [Char.isDigit, Bool.and_eq_false_iff, decide_eq_false_iff_not]
      have e1 : 'A'.val.toNat = 65 := rfl
      have e2 : 'Z'.val.toNat = 90 := rfl
      have e3 : 'a'.val.toNat = 97 := rfl
      have e4 : 'z'.val.toNat = 122 := rfl
      have e5 : '0'.val.toNat = 48 := rfl
      have e6 : '9'.val.toNat = 57 := rfl
      simp only [ge_iff_le, UInt32.le_iff_toNat_le] at h ⊢
      omega
    · subst h; decide
  refine ⟨?_, key _ (by decide) (by decide), key _ (by decide) (by decide), key _ (by decide) (by decide), ?_,
    key _ (by decide) (by decide), key _ (by decide) (by decide)⟩
  · simp only [isSpaceChar, Bool.or_eq_false_iff, decide_eq_false_iff_not]
    exact ⟨⟨⟨⟨⟨key _ (by decide) (by decide), key _ (by decide) (by decide)⟩, key _ (by decide) (by decide)⟩,
      key _ (by decide) (by decide)⟩, key _ (by decide) (by decide)⟩, key _ (by decide) (by decide)⟩
  · simp only [isNumberStart, Bool.or_eq_false_iff, decide_eq_false_iff_not]
    exact ⟨⟨hd, key _ (by decide) (by decide)⟩, key _ (by decide) (by decide)⟩

theorem nameChar_of_start {c : Char} (h : c.isAlpha = true ∨ c = '_') : isIdentifierChar c = true := by
  rcases h with h | h
  · simp [isIdentifierChar, Char.isAlphanum, h]
  · subst h; decide

theorem IsName.chars {w : List Char} (h : IsName w) : ∀ x ∈ w, isIdentifierChar x = true := by
  obtain ⟨c, r, rfl, h1, h2⟩ := h
  intro x hx
  rcases List.mem_cons.mp hx with hx | hx
  · subst hx; exact nameChar_of_start h1
  · rcases h2 x hx with h | h | h
    · simp [isIdentifierChar, h]
    · subst h; decide
    · subst h; decide

theorem IsName.clean {w : List Char} (h : IsName w) : Clean w := by
  intro x hx
  have := h.chars x hx
  constructor <;> (intro e; subst e; exact absurd this (by decide))

theorem advance_name {w r : List Char} (hw : IsName w) (hr : Boundary r) : advance (w ++ r) = some ⟨.identifier w, r⟩ := by
  have hc := hw.chars
  obtain ⟨t1, t2⟩ := takeWhile_boundary isIdentifierChar ⟨by decide, by decide, by decide⟩ hc hr
  obtain ⟨c, q, rfl, h1, h2⟩ := hw
  obtain ⟨s1, s2, s3, s4, s5, -, -⟩ := space_of_alpha h1
  have s6 : isIdentifierStart c = true := by
    rcases h1 with h | h
    · simp [isIdentifierStart, h]
    · subst h; decide
  have e : (c :: q ++ r).dropWhile isSpaceChar = c :: (q ++ r) := by
    rw [List.cons_append, List.dropWhile_cons_of_neg (by simp [s1])]
  unfold advance
  rw [e]
  rw [List.cons_append] at t1 t2
  simp only [s2, s3, s4, s5, s6, if_false, if_true, t1, t2, Bool.false_eq_true]

theorem IsNumeral.chars {w : List Char} (h : IsNumeral w) : ∀ x ∈ w, isNumberChar x = true := by
  obtain ⟨c, r, rfl, h1, h2⟩ := h
  intro x hx
  rcases List.mem_cons.mp hx with hx | hx
  · subst hx
    rcases h1 with h | h | h
    · simp [isNumberChar, h]
    · subst h; decide
    · subst h; decide
  · rcases h2 x hx with h | h | h | h | h
    · simp [isNumberChar, h]
    · subst h; decide
    · subst h; decide
    · subst h; decide
    · subst h; decide

theorem IsNumeral.clean {w : List Char} (h : IsNumeral w) : Clean w := by
  intro x hx
  have := h.chars x hx
  constructor <;> (intro e; subst e; exact absurd this (by decide))

theorem advance_numeral {w r : List Char} (hw : IsNumeral w) (hr : Boundary r) : advance (w ++ r) = some ⟨.number w, r⟩ := by
  have hc := hw.chars
  obtain ⟨t1, t2⟩ := takeWhile_boundary isNumberChar ⟨by decide, by decide, by decide⟩ hc hr
  obtain ⟨c, q, rfl, h1, h2⟩ := hw
  have key : ∀ d : Char, d.isDigit = false → d ≠ '-' → d ≠ '+' → c ≠ d := by
    intro d e1 e2 e3 e4
    subst e4
    rcases h1 with h | h | h
    · rw [e1] at h; exact Bool.noConfusion h
    · exact e2 h
    · exact e3 h
  have s1 : isSpaceChar c = false := by
    simp only [isSpaceChar, Bool.or_eq_false_iff, decide_eq_false_iff_not]
    exact ⟨⟨⟨⟨⟨key _ (by decide) (by decide) (by decide), key _ (by decide) (by decide) (by decide)⟩,
      key _ (by decide) (by decide) (by decide)⟩, key _ (by decide) (by decide) (by decide)⟩,
      key _ (by decide) (by decide) (by decide)⟩, key _ (by decide) (by decide) (by decide)⟩
  have s2 : c ≠ '[' := key _ (by decide) (by decide) (by decide)
  have s3 : c ≠ ']' := key _ (by decide) (by decide) (by decide)
  have s4 : c ≠ ',' := key _ (by decide) (by decide) (by decide)
  have s5 : isNumberStart c = true := by
    rcases h1 with h | h | h
    · simp [isNumberStart, h]
    · subst h; decide
    · subst h; decide
  have e : (c :: q ++ r).dropWhile isSpaceChar = c :: (q ++ r) := by
    rw [List.cons_append, List.dropWhile_cons_of_neg (by simp [s1])]
  unfold advance
  rw [e]
  rw [List.cons_append] at t1 t2
  simp only [s2, s3, s4, s5, if_false, if_true, t1, t2]

theorem getIdentifier_at (w r : List Char) : getIdentifier ⟨.identifier w, r⟩ = (advance r).map fun t => (w, t) := rfl

theorem getNumber_at {x : ℝ} (h : F.Faithful x) (r : List Char) :
    getNumber F ⟨.number (F.print x), r⟩ = (advance r).map fun t => (x, t) := by
  simp [getNumber, h.2]

/-- The values of a written vector. -/
theorem getPair_at {x y : ℝ} (hx : F.Faithful x) (hy : F.Faithful y) (r : List Char) :
    getPair F ⟨.openBracket, F.print x ++ ',' :: ' ' :: (F.print y ++ ']' :: r)⟩ = (advance r).map fun t => ((x, y), t) := by
  simp only [getPair, getVec, eatToken, if_true, advance_numeral hx.1 (Boundary.comma _), Option.bind_some,
    show List.range 2 = [0, 1] from rfl, List.foldlM_cons, List.foldlM_nil, vecStep, Nat.lt_irrefl, if_false, getNumber_at hx,
    advance_comma, Option.map_some, Nat.zero_lt_one, advance_space, advance_numeral hy.1 (Boundary.close _), getNumber_at hy,
    advance_close, List.nil_append, List.cons_append, Option.bind_eq_bind, Option.pure_def]
  cases advance r <;> rfl

theorem getVec3_at {v : Vec3 ℝ} (hx : F.Faithful v.x) (hy : F.Faithful v.y) (hz : F.Faithful v.z) (r : List Char) :
    getVec3 F ⟨.openBracket, F.print v.x ++ ',' :: ' ' :: (F.print v.y ++ ',' :: ' ' :: (F.print v.z ++ ']' :: r))⟩ =
      (advance r).map fun t => (v, t) := by
  simp only [getVec3, getVec, eatToken, if_true, advance_numeral hx.1 (Boundary.comma _), Option.bind_some,
    show List.range 3 = [0, 1, 2] from rfl, List.foldlM_cons, List.foldlM_nil, vecStep, Nat.lt_irrefl, if_false, getNumber_at hx,
    advance_comma, Option.map_some, Nat.zero_lt_one, advance_space, advance_numeral hy.1 (Boundary.comma _), getNumber_at hy,
    advance_numeral hz.1 (Boundary.close _), getNumber_at hz, show 0 < 2 from Nat.zero_lt_two,
    advance_close, List.nil_append, List.cons_append, Option.bind_eq_bind, Option.pure_def]
  cases advance r <;> rfl

theorem getDynamicVec_two {x y : ℝ} (hx : F.Faithful x) (hy : F.Faithful y) (r : List Char) :
    getDynamicVec F ⟨.openBracket, F.print x ++ ',' :: ' ' :: (F.print y ++ ']' :: r)⟩ = (advance r).map fun t => ([x, y], t) := by
  simp only [getDynamicVec, eatToken, if_true, advance_numeral hx.1 (Boundary.comma _), Option.bind_some]
  rw [dynamicLoop]
  simp only [reduceCtorEq, if_false, if_true, Option.bind_eq_bind, Option.bind_some, getNumber_at hx, advance_comma, Option.map_some]
  rw [dynamicLoop]
  simp only [reduceCtorEq, if_false, if_true, Option.bind_eq_bind, Option.bind_some, getNumber_at hy, advance_space, Option.map_some,
    eatToken, advance_numeral hy.1 (Boundary.close _), advance_close, List.nil_append]
  rw [dynamicLoop]
  simp

theorem getDynamicVec_three {x y z : ℝ} (hx : F.Faithful x) (hy : F.Faithful y) (hz : F.Faithful z) (r : List Char) :
    getDynamicVec F ⟨.openBracket, F.print x ++ ',' :: ' ' :: (F.print y ++ ',' :: ' ' :: (F.print z ++ ']' :: r))⟩ =
      (advance r).map fun t => ([x, y, z], t) := by
  simp only [getDynamicVec, eatToken, if_true, advance_numeral hx.1 (Boundary.comma _), Option.bind_some]
  rw [dynamicLoop]
  simp only [reduceCtorEq, if_false, if_true, Option.bind_eq_bind, Option.bind_some, getNumber_at hx, advance_comma, Option.map_some]
  rw [dynamicLoop]
  simp only [reduceCtorEq, if_false, if_true, Option.bind_eq_bind, Option.bind_some, getNumber_at hy, advance_space, Option.map_some,
    eatToken, advance_numeral hy.1 (Boundary.comma _), advance_comma, List.nil_append]
  rw [dynamicLoop]
  simp only [reduceCtorEq, if_false, if_true, Option.bind_eq_bind, Option.bind_some, getNumber_at hz, advance_space, Option.map_some,
    eatToken, advance_numeral hz.1 (Boundary.close _), advance_close, List.cons_append, List.nil_append, List.cons_ne_nil]
  rw [dynamicLoop]
  simp

/-- An optional weight as written. -/
noncomputable def weightText (F : NumFormat) (w : ℝ) : List Char := if w = 1 then [] else ' ' :: F.print w

theorem weightText_boundary (w : ℝ) : Boundary (weightText F w) := by
  unfold weightText
  split
  · exact Boundary.nil
  · exact Boundary.space _

/-- The tokenizer before an optional weight. -/
theorem weightText_at {w : ℝ} (h : w = 1 ∨ F.Faithful w) :
    ∃ t, advance (weightText F w) = some t ∧ optionalWeight F t = some (w, ⟨.eof, []⟩) := by
  unfold weightText
  by_cases h1 : w = 1
  · rw [if_pos h1]
    exact ⟨_, advance_nil, by simp [optionalWeight, h1]⟩
  · rw [if_neg h1, advance_space]
    have hf := h.resolve_left h1
    refine ⟨⟨.number (F.print w), []⟩, by simpa using advance_numeral hf.1 Boundary.nil, ?_⟩
    simp [optionalWeight, getNumber_at hf, advance_nil]

theorem weight_at {w : ℝ} (h : F.Faithful w) :
    optionalWeight F ⟨.number (F.print w), []⟩ = some (w, ⟨.eof, []⟩) := by
  simp [optionalWeight, getNumber_at h, advance_nil]

theorem findIdx?_first {α : Type} (p : α → Bool) {l : List α} {i : Nat} {x : α} (h : l[i]? = some x) (hx : p x = true)
    (hk : ∀ k < i, ∀ y, l[k]? = some y → p y = false) : l.findIdx? p = some i := by
  obtain ⟨hi, he⟩ := List.getElem?_eq_some_iff.mp h
  rw [List.findIdx?_eq_some_iff_getElem]
  refine ⟨hi, by rw [he]; exact hx, ?_⟩
  intro k hki
  have := hk k hki l[k] (List.getElem?_eq_getElem (by omega))
  simp [this]

theorem NamesParameter.spec {pt : ParameterTransform ℝ} {i : Nat} (h : NamesParameter pt i) :
    ∃ w, parameterName pt i = some w ∧ IsName w ∧ modelParameterIndexFromName pt w = some i ∧
      (PlainParameter pt i → '.' ∉ w) := by
  obtain ⟨n, h1, h2, h3⟩ := h
  refine ⟨n.toList, by simp [parameterName, h1], h2, ?_, fun hp => hp n h1⟩
  refine findIdx?_first _ h1 (by simp) ?_
  intro k hk y hy
  rw [decide_eq_false_iff_not]
  intro e
  exact h3 k hk (by rw [hy, String.toList_inj.mp e])

theorem NamesJoint.spec {sk : Skeleton ℝ} {i : Nat} (h : NamesJoint sk i) :
    ∃ w, jointName sk i = some w ∧ IsName w ∧ jointIndexFromName sk w = some i ∧ (PlainJoint sk i → '.' ∉ w) := by
  obtain ⟨j, h1, h2, h3⟩ := h
  refine ⟨j.name.toList, by simp [jointName, h1], h2, ?_, fun hp => hp j h1⟩
  refine findIdx?_first _ h1 (by simp) ?_
  intro k hk y hy
  rw [decide_eq_false_iff_not]
  intro e
  exact h3 k hk y hy (String.toList_inj.mp e)

theorem takeWhile_dot {w n : List Char} (h : '.' ∉ w) :
    (w ++ '.' :: n).takeWhile (· ≠ '.') = w ∧ ((w ++ '.' :: n).dropWhile (· ≠ '.')).tail = n := by
  have hw : ∀ x ∈ w, (decide (x ≠ '.')) = true := by
    intro x hx
    rw [decide_eq_true_eq]
    intro e
    exact h (e ▸ hx)
  constructor
  · rw [List.takeWhile_append_of_pos hw]; simp
  · rw [List.dropWhile_append_of_pos hw]; simp

theorem NamesJoint.param {sk : Skeleton ℝ} {i d : Nat} (h : NamesJoint sk i) (hp : PlainJoint sk i) (hd : d < 7) :
    ∃ w, jointParameterToName sk i d = some w ∧ IsName w ∧ '.' ∈ w ∧ jointParameterIndexFromName sk w = some (i, d) := by
  obtain ⟨w, h1, h2, h3, h4⟩ := h.spec
  obtain ⟨n, hn, hn1, hn2⟩ : ∃ n, jointParameterNames[d]? = some n ∧ (∀ x ∈ n, x.isAlphanum = true) ∧
      (jointParameterNames.findIdx? fun m => n = m) = some d := by
    have : d = 0 ∨ d = 1 ∨ d = 2 ∨ d = 3 ∨ d = 4 ∨ d = 5 ∨ d = 6 := by omega
    rcases this with rfl | rfl | rfl | rfl | rfl | rfl | rfl <;> exact ⟨_, rfl, by decide, by decide⟩
  have hdot := h4 hp
  obtain ⟨e1, e2⟩ := takeWhile_dot (n := n) hdot
  refine ⟨w ++ '.' :: n, ?_, ?_, by simp, ?_⟩
  · unfold jointParameterToName
    unfold jointName at h1
    obtain ⟨j, hj1, hj2⟩ := Option.map_eq_some_iff.mp h1
    rw [hn, hj1]
    simp [hj2]
  · obtain ⟨c, r, rfl, ha, hb⟩ := h2
    refine ⟨c, r ++ '.' :: n, rfl, ha, ?_⟩
    intro x hx
    rcases List.mem_append.mp hx with hx | hx
    · exact hb x hx
    · rcases List.mem_cons.mp hx with hx | hx
      · exact Or.inr (Or.inr hx)
      · exact Or.inl (hn1 x hx)
  · unfold jointParameterIndexFromName
    rw [if_pos (by simp), e1, e2, h3, hn2]
    rfl

theorem parseRange_at {lo hi w : ℝ} (data : ℝ → ℝ → LimitData ℝ) (h1 : F.Faithful lo) (h2 : F.Faithful hi)
    (h3 : w = 1 ∨ F.Faithful w) :
    parseRange F data ⟨.openBracket, F.print lo ++ ',' :: ' ' :: (F.print hi ++ ']' :: weightText F w)⟩ =
      some ([.plain ⟨data lo hi, w⟩], ⟨.eof, []⟩) := by
  obtain ⟨t, ht, ho⟩ := weightText_at h3
  simp only [parseRange, getPair_at h1 h2, ht, Option.map_some, Option.bind_some, ho]

end Momentum.LimitsText
