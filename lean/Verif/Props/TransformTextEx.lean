import Verif.Props.TransformSets

/-! Concrete cases of C85. -/

namespace Momentum.TransformText

def exDefSkeleton : Skeleton ℚ := ⟨[⟨"a", none, Quat.one, ⟨0, 0, 0⟩⟩, ⟨"b", some 0, Quat.one, ⟨0, 1, 0⟩⟩]⟩

/-- Reads 1, 2 and 3 with blanks around them; `stod` reads `1e` as 1. -/
def exRead (s : List Char) : Option ℚ :=
  if trim s = ['1'] ∨ trim s = ['1', 'e'] then some 1 else if trim s = ['2'] then some 2 else if trim s = ['3'] then some 3 else none

theorem exWord {s : List Char} (h : s ≠ [] ∧ ∀ c ∈ s, c ∉ ['=', '+', '*', '#', '\n', ' ', '\t', '\x00']) : Word s := by
  have key : ∀ c ∈ s, c ≠ '=' ∧ c ≠ '+' ∧ c ≠ '*' ∧ c ≠ '#' ∧ c ≠ '\n' ∧ c ≠ ' ' ∧ c ≠ '\t' ∧ c ≠ '\x00' := by
    intro c hc
    have := h.2 c hc
    simpa using this
  refine ⟨h.1, fun c hc => ⟨(key c hc).1, (key c hc).2.1, (key c hc).2.2.1, (key c hc).2.2.2.1, (key c hc).2.2.2.2.1⟩, ?_⟩
  rintro c (hc | hc)
  · exact (key c (List.mem_of_head? hc)).2.2.2.2.2
  · exact (key c (List.mem_of_getLast? hc)).2.2.2.2.2

theorem exAx : NamesChannel exDefSkeleton 0 0 ['a'] ['t', 'x'] :=
  ⟨exWord (by decide), by decide, ⟨⟨_, rfl, by decide⟩, by intro k hk; omega⟩, by simp [IsChannel]⟩

theorem exBy : NamesChannel exDefSkeleton 1 4 ['b'] ['r', 'y'] := by
  refine ⟨exWord (by decide), by decide, ⟨⟨_, rfl, by decide⟩, ?_⟩, by simp [IsChannel]⟩
  intro k hk joint hj
  have : k = 0 := by omega
  subst this
  simp only [exDefSkeleton, List.getElem?_cons_zero, Option.some.injEq] at hj
  subst hj
  decide

theorem exNumeral1 : Numeral exRead ['1'] (1 : ℚ) := ⟨by decide, by decide, by decide⟩
theorem exNumeral2 : Numeral exRead [' ', '2'] (2 : ℚ) := ⟨by decide, by decide, by decide⟩
theorem exNumeral3 : Numeral exRead ['3', ' '] (3 : ℚ) := ⟨by decide, by decide, by decide⟩
theorem exNumeralE : Numeral exRead ['1', 'e'] (1 : ℚ) := ⟨by decide, by decide, by decide⟩

theorem exBlank : Blank [] := by intro c h; simp at h
theorem exBlank1 : Blank [' '] := by intro c h; simp at h; exact Or.inl h

theorem exNoJoint (n : List Char) (h : n.takeWhile (· ≠ '.') ≠ ['a'] ∧ n.takeWhile (· ≠ '.') ≠ ['b']) :
    NoJoint exDefSkeleton (n.takeWhile (· ≠ '.')) := by
  intro j hj
  simp only [exDefSkeleton, List.mem_cons, List.not_mem_nil, or_false] at hj
  rcases hj with rfl | rfl
  · exact fun e => h.1 (e.symm.trans (by decide))
  · exact fun e => h.2 (e.symm.trans (by decide))

/-- ` 2* p`. -/
theorem exTermP : TermText exRead exDefSkeleton (.param 2 ['p']) (" 2* p".toList) :=
  TermText.param (s := [' ', '2']) (pre := [' ']) (name := ['p']) (post := []) exNumeral2 exBlank1 (exWord (by decide)) exBlank
    (exNoJoint _ (by decide))

/-- `1*q`. -/
theorem exTermQ : TermText exRead exDefSkeleton (.param 1 ['q']) ("1*q".toList) :=
  TermText.param (s := ['1']) (pre := []) (name := ['q']) (post := []) exNumeral1 exBlank (exWord (by decide)) exBlank
    (exNoJoint _ (by decide))

/-- `3 *a.tx `. -/
theorem exTermA : TermText exRead exDefSkeleton (.ref 3 0 0) ("3 *a.tx ".toList) :=
  TermText.ref (s := ['3', ' ']) (pre := []) (joint := ['a']) (channel := ['t', 'x']) (post := [' ']) exNumeral3 exBlank exAx exBlank1

/-- `3 *b.ry `. -/
theorem exTermB : TermText exRead exDefSkeleton (.ref 3 1 4) ("3 *b.ry ".toList) :=
  TermText.ref (s := ['3', ' ']) (pre := []) (joint := ['b']) (channel := ['r', 'y']) (post := [' ']) exNumeral3 exBlank exBy exBlank1

theorem exTermOne : TermText exRead exDefSkeleton (.const 1) ("1".toList) := TermText.const exNumeral1

theorem exLineA : DefinitionText exRead exDefSkeleton ⟨0, 0, [.param 2 ['p'], .param 1 ['q']]⟩ ("a.tx = 2* p+1*q# 7*".toList) :=
  DefinitionText.intro (b1 := []) (joint := ['a']) (b2 := []) (b3 := []) (channel := ['t', 'x']) (b4 := [' ']) (sum := " 2* p+1*q".toList)
    (comment := "# 7*".toList) exBlank exBlank exBlank exBlank1 exAx (SumText.more exTermP (SumText.one exTermQ)) (by unfold StartsOther; decide)
    (Or.inr ⟨" 7*".toList, by decide, by decide⟩)

theorem exLineB : DefinitionText exRead exDefSkeleton ⟨1, 4, [.ref 3 0 0, .const 1]⟩ ("b .ry=3 *a.tx +1".toList) :=
  DefinitionText.intro (b1 := []) (joint := ['b']) (b2 := [' ']) (b3 := []) (channel := ['r', 'y']) (b4 := [])
    (sum := "3 *a.tx +1".toList) (comment := []) exBlank exBlank1 exBlank exBlank exBy (SumText.more exTermA (SumText.one exTermOne))
    (by unfold StartsOther; decide) (Or.inl rfl)

/-- A text with two definitions, a comment, and lines for other parsers. -/
def exDefText : List Char := "a.tx = 2* p+1*q# 7*\nlimit p = 3\n\nb .ry=3 *a.tx +1\n".toList

def exDefs : List (Definition ℚ) := [⟨0, 0, [.param 2 ['p'], .param 1 ['q']]⟩, ⟨1, 4, [.ref 3 0 0, .const 1]⟩]

theorem exText : Text exRead exDefSkeleton exDefs exDefText := by
  have := Text.definition exLineA (Text.other (s := "limit p = 3".toList) ⟨by decide, Or.inl (by unfold StartsOther; decide)⟩
    (Text.other (s := []) ⟨by decide, Or.inr (by decide)⟩ (Text.definition exLineB Text.nil)))
  exact this

theorem exEquational : Equational exDefs := by
  intro pre d post h
  match pre, h with
  | [], h =>
    simp only [exDefs, List.nil_append, List.cons.injEq] at h
    obtain ⟨rfl, rfl⟩ := h
    refine ⟨by simp [Definition.target], by decide, ?_⟩
    intro w j a hm
    simp at hm
  | [p], h =>
    simp only [exDefs, List.cons_append, List.nil_append, List.cons.injEq] at h
    obtain ⟨rfl, rfl, rfl⟩ := h
    refine ⟨by simp, by decide, ?_⟩
    intro w j a hm
    simp only [List.mem_cons, Term.ref.injEq, reduceCtorEq, List.not_mem_nil, or_false] at hm
    obtain ⟨rfl, rfl, rfl⟩ := hm
    refine ⟨by simp [Definition.target], ?_⟩
    intro e he _
    rw [List.mem_singleton.mp he]
    rfl
  | p :: p' :: pre, h =>
    simp only [exDefs, List.cons_append, List.cons.injEq] at h
    have := congrArg List.length h.2.2
    simp at this

/-- `C85_equation_partial`, `C85_value`, `C85_active` on the text: with `p = 5` and `q = 7` the values are 17 and 52. -/
example : ∃ pt, parseParameterTransform exRead exDefText exDefSkeleton = some (.ok pt) ∧ pt.name = ["p", "q"] ∧
    pt.apply [5, 7] = some [17, 0, 0, 0, 0, 0, 0, 0, 0, 0, 0, 52, 0, 0] := by
  obtain ⟨pt, e1, e2, e3⟩ := C85_value exText exEquational.noSelf
  refine ⟨pt, e1, by rw [e2]; decide, ?_⟩
  have := e3 fun n => if n = ['p'] then 5 else 7
  have hn : parameterNames exDefs = [['p'], ['q']] := by decide
  rw [hn] at this
  refine this.trans ?_
  decide +kernel

example := C85_equation_partial exText exEquational

example : ∃ pt, parseParameterTransform exRead exDefText exDefSkeleton = some (.ok pt) ∧ pt.activeJointParams[11]? = some true ∧
    pt.activeJointParams[3]? = some false := by
  obtain ⟨pt, e1, _, _, _, e2⟩ := C85_active exText exEquational.noSelf
  exact ⟨pt, e1, (e2 11 (by decide)).trans (by decide), (e2 3 (by decide)).trans (by decide)⟩

/-- `C85_self_reference`: `b.ry=1*q+3 *b.ry ` after the text. -/
example : parseParameterTransform exRead (exDefText ++ ("b.ry=1*q+3 *b.ry ".toList ++ '\n' :: [])) exDefSkeleton = none :=
  C85_self_reference (ts1 := [.param 1 ['q']]) (ts2 := []) (w' := 1) (n := ['q']) exText exEquational.noSelf
    (DefinitionText.intro (b1 := []) (joint := ['b']) (b2 := []) (b3 := []) (channel := ['r', 'y']) (b4 := [])
      (sum := "1*q+3 *b.ry ".toList) (comment := []) exBlank exBlank exBlank exBlank exBy (SumText.more exTermQ (SumText.one exTermB))
      (by unfold StartsOther; decide) (Or.inl rfl))
    (by simp) (by simp)

/-- `C85_unknown_joint`: `c.tx=1`. -/
example : parseParameterTransform exRead (exDefText ++ ("c.tx=1".toList ++ '\n' :: "a.ty=1".toList)) exDefSkeleton = some .throws :=
  C85_unknown_joint (b1 := []) (joint := ['c']) (b2 := []) (channel := ['t', 'x']) (sum := ['1']) exText exEquational.noSelf exBlank exBlank
    (exWord (by decide)) (by decide) (exNoJoint ['c'] (by decide)) rfl ⟨by unfold Plain; decide, by decide, by decide⟩
    ⟨by unfold Plain; decide, by decide⟩ (by unfold StartsOther; decide)

/-- `C85_joint_name`: `b.ry=1*a`. -/
example : parseParameterTransform exRead (exDefText ++ ("b.ry=1*a".toList ++ '\n' :: [])) exDefSkeleton = some .throws :=
  C85_joint_name (b1 := []) (joint := ['b']) (b2 := []) (b3 := []) (channel := ['r', 'y']) (b4 := []) (s := ['1']) (name := ['a']) exText
    exEquational.noSelf exBlank exBlank exBlank exBlank exBy exNumeral1 (exWord (by decide)) exAx.2.2.1 (by decide)
    (by intro c h; exact absurd h.cases (by simp)) (by unfold StartsOther; decide)

/-- `C85_product_ignored`: `a.ty=1*p - 2*q`. -/
example :=
  C85_product_ignored (b1 := []) (joint := ['b']) (b2 := []) (b3 := []) (channel := ['r', 'y']) (b4 := []) (A := ['1'])
    (B := "p - 2".toList) (C := ['q']) exText exEquational.noSelf exBlank exBlank exBlank exBlank exBy
    ⟨by unfold Plain; decide, by decide, by decide, by decide⟩ ⟨by unfold Plain; decide, by decide, by decide, by decide⟩
    ⟨by unfold Plain; decide, by decide, by decide, by decide⟩ (by unfold StartsOther; decide)

theorem exTextConst : Text exRead exDefSkeleton [⟨0, 0, [.param 2 ['p'], .const 1]⟩, ⟨1, 4, [.ref 3 0 0]⟩]
    "a.tx= 2* p+1\nb.ry=3 *a.tx \n".toList :=
  Text.definition (s := "a.tx= 2* p+1".toList) (DefinitionText.intro (b1 := []) (joint := ['a']) (b2 := []) (b3 := []) (channel := ['t', 'x'])
    (b4 := []) (sum := " 2* p+1".toList) (comment := []) exBlank exBlank exBlank exBlank exAx (SumText.more exTermP (SumText.one exTermOne))
    (by unfold StartsOther; decide) (Or.inl rfl))
    (Text.definition (s := "b.ry=3 *a.tx ".toList) (DefinitionText.intro (b1 := []) (joint := ['b']) (b2 := []) (b3 := []) (channel := ['r', 'y'])
      (b4 := []) (sum := "3 *a.tx ".toList) (comment := []) exBlank exBlank exBlank exBlank exBy (SumText.one exTermA)
      (by unfold StartsOther; decide) (Or.inl rfl)) Text.nil)

/-- `C85_reference_counterexample`. -/
example :=
  C85_reference_counterexample (by decide) exTextConst (by norm_num)

/-- `C85_order_counterexample`. -/
example :=
  C85_order_counterexample (j := 0) (a := 0) (j' := 1) (a' := 4) (w := 2) (u := 3) (n := ['p']) (by decide)
    (Text.definition (s := "b.ry=3 *a.tx ".toList) (DefinitionText.intro (b1 := []) (joint := ['b']) (b2 := []) (b3 := []) (channel := ['r', 'y'])
      (b4 := []) (sum := "3 *a.tx ".toList) (comment := []) exBlank exBlank exBlank exBlank exBy (SumText.one exTermA)
      (by unfold StartsOther; decide) (Or.inl rfl))
      (Text.definition (s := "a.tx= 2* p".toList) (DefinitionText.intro (b1 := []) (joint := ['a']) (b2 := []) (b3 := []) (channel := ['t', 'x'])
        (b4 := []) (sum := " 2* p".toList) (comment := []) exBlank exBlank exBlank exBlank exAx (SumText.one exTermP)
        (by unfold StartsOther; decide) (Or.inl rfl)) Text.nil))

/-- `C85_constants_counterexample`: `a.tx=1+ 2`. -/
example :=
  C85_constants_counterexample (j := 0) (a := 0) (c := 1) (c' := 2)
    (Text.definition (s := "a.tx=1+ 2".toList) (DefinitionText.intro (b1 := []) (joint := ['a']) (b2 := []) (b3 := []) (channel := ['t', 'x'])
      (b4 := []) (sum := "1+ 2".toList) (comment := []) exBlank exBlank exBlank exBlank exAx
      (SumText.more exTermOne (SumText.one (TermText.const exNumeral2))) (by unfold StartsOther; decide) (Or.inl rfl)) Text.nil)

/-- The `+` of an exponent splits a numeral: `a.tx=1e+ 2* p` is read as `1 + 2*p`. -/
example : ∃ pt, parseParameterTransform exRead "a.tx=1e+ 2* p\n".toList exDefSkeleton = some (.ok pt) ∧ pt.name = ["p"] ∧
    pt.apply [5] = some [11, 0, 0, 0, 0, 0, 0, 0, 0, 0, 0, 0, 0, 0] := by
  obtain ⟨pt, e1, e2, e3⟩ := C85_value (defs := [⟨0, 0, [.const 1, .param 2 ['p']]⟩])
    (Text.definition (s := "a.tx=1e+ 2* p".toList) (DefinitionText.intro (b1 := []) (joint := ['a']) (b2 := []) (b3 := []) (channel := ['t', 'x'])
      (b4 := []) (sum := "1e+ 2* p".toList) (comment := []) exBlank exBlank exBlank exBlank exAx
      (SumText.more (TermText.const exNumeralE) (SumText.one exTermP)) (by unfold StartsOther; decide) (Or.inl rfl)) Text.nil)
    (by intro d hd w j a hm; rw [List.mem_singleton.mp hd] at hm; simp at hm)
  refine ⟨pt, e1, by rw [e2]; decide, ?_⟩
  refine (e3 fun _ => 5).trans ?_
  decide +kernel

/-- A transform with three parameters. -/
def exSetsTransform : ParameterTransform ℚ where
  name := ["p", "q", "r"]
  transform := ⟨14, 3, []⟩
  offsets := []
  activeJointParams := []
  parameterSets := []
  poseConstraints := []
  blendShapeParameters := []
  faceExpressionParameters := []

theorem exSpaced : Spaced [['k'], ['r'], ['p']] " k  r p".toList :=
  Spaced.cons (b := [' ']) (w := ['k']) (r := "  r p".toList) (by decide) (by decide) (by unfold Entry; decide)
    (Spaced.cons (b := [' ', ' ']) (w := ['r']) (r := " p".toList) (by decide) (by decide) (by unfold Entry; decide)
      (Spaced.cons (b := [' ']) (w := ['p']) (r := []) (by decide) (by decide) (by unfold Entry; decide) (Spaced.nil (by decide))))

theorem exSetsText : KeyedText "parameterset".toList [(['k'], [['r'], ['p']])] "a.tx=1*p\nparameterset k  r p#q\n".toList :=
  KeyedText.other (s := "a.tx=1*p".toList) (by decide) (by decide)
    (KeyedText.line (t := " k  r p".toList) (comment := "#q".toList) exSpaced (Or.inr ⟨['q'], by decide, by decide⟩) KeyedText.nil)

theorem exIsP : IsParameter exSetsTransform 0 ['p'] := ⟨⟨"p", rfl, by decide⟩, by intro k hk; omega⟩

theorem exIsR : IsParameter exSetsTransform 2 ['r'] := parameterIndex_iff.mp (by decide)

/-- `C85_sets`: the set `k` holds parameters 0 and 2. -/
example :=
  C85_sets exSetsText (by
    intro e he w hw
    rw [List.mem_singleton.mp he] at hw
    simp only [List.mem_cons, List.not_mem_nil, or_false] at hw
    rcases hw with rfl | rfl
    · exact ⟨2, exIsR, by decide⟩
    · exact ⟨0, exIsP, by decide⟩)

/-- `C85_sets_unknown`. -/
example : parseParameterSets "a.tx=1*p\nparameterset k  r p#q\n".toList { exSetsTransform with name := ["p"] } = none :=
  C85_sets_unknown exSetsText (List.mem_singleton.mpr rfl) (w := ['r']) (by simp) (by simp)

/-- `C85_constraints`: `poseconstraints k r=1`. -/
example :=
  C85_constraints (read := exRead) (pt := exSetsTransform) (ls := [(['k'], [['r', '=', '1']])])
    (KeyedText.line (t := " k r=1".toList) (comment := [])
      (Spaced.cons (b := [' ']) (w := ['k']) (r := " r=1".toList) (by decide) (by decide) (by unfold Entry; decide)
        (Spaced.cons (b := [' ']) (w := ['r', '=', '1']) (r := []) (by decide) (by decide) (by unfold Entry; decide) (Spaced.nil (by decide))))
      (Or.inl rfl) KeyedText.nil)
    (by
      intro e he
      rw [List.mem_singleton.mp he]
      exact ⟨[(2, 1)], Items.cons (n := ['r']) (v := ['1']) (by decide) (by decide) (by decide) (by decide) exIsR (by decide) Items.nil⟩)

end Momentum.TransformText
