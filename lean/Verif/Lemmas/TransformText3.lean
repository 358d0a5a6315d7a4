import Verif.Lemmas.TransformText2

/-! Helper lemmas for C85: lines and texts. -/

namespace Momentum.TransformText

open LimitsText (getLines withoutComment jointParameterNames)

section
variable {K : Type} [CommRing K] {sk : Skeleton K} {read : List Char → Option K}

theorem Plain.append {a b : List Char} (ha : Plain a) (hb : Plain b) : Plain (a ++ b) := by
  intro c hc
  rcases List.mem_append.mp hc with h | h
  · exact ha c h
  · exact hb c h

theorem Plain.cons {c : Char} {b : List Char} (hc : c ≠ '=' ∧ c ≠ '#' ∧ c ≠ '\n') (hb : Plain b) : Plain (c :: b) := by
  intro x hx
  rcases List.mem_cons.mp hx with rfl | h
  · exact hc
  · exact hb x h

theorem Blank.plain {s : List Char} (h : Blank s) : Plain s := by
  intro c hc
  rcases h c hc with rfl | rfl <;> decide

theorem Word.plain {s : List Char} (h : Word s) : Plain s := fun c hc => ⟨(h.2.1 c hc).1, (h.2.1 c hc).2.2.2.1, (h.2.1 c hc).2.2.2.2⟩

theorem Numeral.plain {s : List Char} {x : K} (h : Numeral read s x) : Plain s :=
  fun c hc => ⟨(h.2.1 c hc).1, (h.2.1 c hc).2.2.2.1, (h.2.1 c hc).2.2.2.2⟩

theorem TermText.spec {t : Term K} {s : List Char} (h : TermText read sk t s) : Plain s ∧ '+' ∉ s ∧ s ≠ [] := by
  cases h with
  | const hn => exact ⟨hn.plain, fun hm => (hn.2.1 _ hm).2.1 rfl, hn.1⟩
  | @param w sw pre name post hn hpre hw hpost hj =>
    refine ⟨hn.plain.append (Plain.cons (by decide) ((hpre.plain.append hw.plain).append hpost.plain)), ?_, by simp⟩
    have a0 : '+' ∉ sw := fun hm => (hn.2.1 _ hm).2.1 rfl
    have a1 := hpre.no '+' (by decide)
    have a2 := hpost.no '+' (by decide)
    have a3 : '+' ∉ name := fun hm => (hw.2.1 _ hm).2.1 rfl
    simp [a0, a1, a2, a3]
  | @ref w j a sw pre joint channel post hn hpre hc hpost =>
    have hw := channel_word hc
    refine ⟨hn.plain.append (Plain.cons (by decide) ((hpre.plain.append hw.plain).append hpost.plain)), ?_, by simp⟩
    have a0 : '+' ∉ sw := fun hm => (hn.2.1 _ hm).2.1 rfl
    have a1 := hpre.no '+' (by decide)
    have a2 := hpost.no '+' (by decide)
    have a3 : '+' ∉ (joint ++ '.' :: channel) := fun hm => (hw.2.1 _ hm).2.1 rfl
    have a4 : '+' ≠ '*' := by decide
    rw [List.mem_append, List.mem_cons, List.mem_append, List.mem_append]
    tauto

theorem SumText.plain {ts : List (Term K)} {s : List Char} (h : SumText read sk ts s) : Plain s ∧ s ≠ [] := by
  induction h with
  | one h => exact ⟨h.spec.1, h.spec.2.2⟩
  | more h _ ih => exact ⟨h.spec.1.append (Plain.cons (by decide) ih.1), by simp⟩

/-- The outcome of several summands. -/
structure Afters (sk : Skeleton K) (row : Nat) (s s' : ParseState K) (ts : List (Term K)) : Prop where
  inv : Inv sk s'
  lin : ∀ v, lin s' v = ts.foldl (Term.run v row) (lin s v)
  off : off s' = ts.foldl (Term.constant row) (off s)
  names : s'.names = (ts.filterMap Term.name?).foldl addName s.names
  active : s'.active = s.active

theorem Term.addTo_eq (names : List (List Char)) (t : Term K) :
    t.addTo names = (([t].filterMap Term.name?).foldl addName names) := by
  cases t <;> rfl

theorem Afters.one {row : Nat} {s s' : ParseState K} {t : Term K} (h : After sk row s s' t) : Afters sk row s s' [t] :=
  ⟨h.inv, fun v => by rw [h.lin v]; rfl, by rw [h.off]; rfl, by rw [h.names, Term.addTo_eq], h.active⟩

theorem Afters.cons {row : Nat} {s s' s'' : ParseState K} {t : Term K} {ts : List (Term K)} (h : After sk row s s' t)
    (h' : Afters sk row s' s'' ts) : Afters sk row s s'' (t :: ts) := by
  refine ⟨h'.inv, fun v => ?_, ?_, ?_, by rw [h'.active, h.active]⟩
  · rw [h'.lin v, h.lin v, List.foldl_cons]
  · rw [h'.off, h.off, List.foldl_cons]
  · rw [h'.names, h.names, Term.addTo_eq, ← List.foldl_append, ← List.filterMap_append]
    rfl

theorem sum_spec {row : Nat} (hrow : row < sk.joints.length * 7) {ts : List (Term K)} {text : List Char}
    (h : SumText read sk ts text) (hne : ∀ w j a, Term.ref w j a ∈ ts → 7 * j + a ≠ row) : ∀ {s : ParseState K}, Inv sk s →
    ∃ s', runSteps (addTerm read sk row) s (tokenize (· = '+') text) = some (.ok s') ∧ Afters sk row s s' ts := by
  induction h with
  | @one t text ht =>
    intro s hs
    obtain ⟨s', e1, e2⟩ := addTerm_spec hrow hs ht fun w j a e => hne w j a (by simp [e])
    refine ⟨s', ?_, Afters.one e2⟩
    rw [tokenize_none _ (fun c hc => ?_) ht.spec.2.2]
    · simp only [runSteps, e1, thenStep]
    · simp only [decide_eq_false_iff_not]
      intro e
      exact ht.spec.2.1 (e ▸ hc)
  | @more t ts text r ht hts ih =>
    intro s hs
    obtain ⟨s', e1, e2⟩ := addTerm_spec hrow hs ht fun w j a e => hne w j a (by simp [e])
    obtain ⟨s'', e3, e4⟩ := ih (fun w j a hm => hne w j a (List.mem_cons_of_mem _ hm)) e2.inv
    refine ⟨s'', ?_, Afters.cons e2 e4⟩
    rw [tokenize_cons _ _ (fun c hc => ?_) (by simp) ht.spec.2.2]
    · simp only [runSteps, e1, thenStep, e3]
    · simp only [decide_eq_false_iff_not]
      intro e
      exact ht.spec.2.1 (e ▸ hc)

theorem startsOther_iff (s : List Char) : isOther s = true ↔ StartsOther s := by
  simp only [isOther, StartsOther, Bool.or_eq_true, List.isPrefixOf_iff_prefix, or_assoc]

theorem withoutComment_plain {l c : List Char} (h : '#' ∉ l) (hc : c = [] ∨ ∃ r, c = '#' :: r) : withoutComment (l ++ c) = l := by
  unfold withoutComment
  rw [List.takeWhile_append_of_pos (fun x hx => by
    simp only [decide_eq_true_eq]
    intro e
    exact h (e ▸ hx))]
  rcases hc with rfl | ⟨r, rfl⟩ <;> simp

/-- The outcome of a line. -/
structure AfterLine (sk : Skeleton K) (s s' : ParseState K) (d : Definition K) : Prop where
  inv : Inv sk s'
  lin : ∀ v, lin s' v = d.run v (lin s v)
  off : off s' = d.constants (off s)
  names : s'.names = (d.terms.filterMap Term.name?).foldl addName s.names
  active : s'.active = s.active.set d.target true

theorem Word.trimmed {a w b : List Char} (ha : Blank a) (hw : Word w) (hb : Blank b) : trim (a ++ w ++ b) = w :=
  trim_exact ha hb hw.2.2 hw.1

theorem IsChannel.trimmed {k : Nat} {a w b : List Char} (ha : Blank a) (hw : IsChannel k w) (hb : Blank b) : trim (a ++ w ++ b) = w := by
  refine trim_exact ha hb ?_ hw.spec.2.2.1
  intro c hc
  have hm : c ∈ w := by
    rcases hc with h | h
    · exact List.mem_of_head? h
    · exact List.mem_of_getLast? h
  have := hw.spec.2.2.2 c hm
  simp only [List.mem_cons, List.not_mem_nil, or_false] at this
  rcases this with rfl | rfl | rfl | rfl | rfl | rfl | rfl <;> decide

theorem left_spec {j a : Nat} {b1 joint b2 b3 channel b4 : List Char} (h1 : Blank b1) (h2 : Blank b2) (h3 : Blank b3) (h4 : Blank b4)
    (hc : NamesChannel sk j a joint channel) :
    tokenize (· = '.') (b1 ++ joint ++ b2 ++ '.' :: (b3 ++ channel ++ b4)) = [b1 ++ joint ++ b2, b3 ++ channel ++ b4] := by
  have hd : ∀ {s : List Char}, '.' ∉ s → ∀ c ∈ s, decide (c = '.') = false := by
    intro s hs c hc
    simp only [decide_eq_false_iff_not]
    intro e
    exact hs (e ▸ hc)
  have e1 := h1.no '.' (by decide)
  have e2 := h2.no '.' (by decide)
  have e3 := h3.no '.' (by decide)
  have e4 := h4.no '.' (by decide)
  have e5 := hc.2.2.2.avoid '.' (by decide)
  rw [tokenize_cons _ _ (hd ?_) (by simp) (by simp [hc.1.1]), tokenize_none _ (hd ?_) (by simp [hc.2.2.2.spec.2.2.1])]
  · simp [e3, e4, e5]
  · simp [e1, e2, hc.2.1]

theorem plain_left {j a : Nat} {b1 joint b2 b3 channel b4 : List Char} (h1 : Blank b1) (h2 : Blank b2) (h3 : Blank b3) (h4 : Blank b4)
    (hc : NamesChannel sk j a joint channel) : Plain (b1 ++ joint ++ b2 ++ '.' :: (b3 ++ channel ++ b4)) := by
  have hch : Plain channel := by
    intro c hm
    have := hc.2.2.2.spec.2.2.2 c hm
    simp only [List.mem_cons, List.not_mem_nil, or_false] at this
    rcases this with rfl | rfl | rfl | rfl | rfl | rfl | rfl <;> decide
  exact ((h1.plain.append hc.1.plain).append h2.plain).append (Plain.cons (by decide) ((h3.plain.append hch).append h4.plain))

theorem line_spec {d : Definition K} {text : List Char} (h : DefinitionText read sk d text)
    (hne : ∀ w j a, Term.ref w j a ∈ d.terms → 7 * j + a ≠ d.target) {s : ParseState K} (hs : Inv sk s) :
    '\n' ∉ text ∧ ∃ s', defineLine read sk s text = some (.ok s') ∧ AfterLine sk s s' d := by
  cases h with
  | @intro j a ts b1 joint b2 b3 channel b4 sum comment h1 h2 h3 h4 hc hsum hother hcom =>
    have hl := plain_left h1 h2 h3 h4 hc
    have hr := hsum.plain
    have e0 : b1 ++ joint ++ b2 ++ '.' :: (b3 ++ channel ++ b4 ++ '=' :: sum)
        = (b1 ++ joint ++ b2 ++ '.' :: (b3 ++ channel ++ b4)) ++ '=' :: sum := by simp
    rw [e0] at hother ⊢
    generalize hL : b1 ++ joint ++ b2 ++ '.' :: (b3 ++ channel ++ b4) = L at hl hother ⊢
    have hline : withoutComment (L ++ '=' :: sum ++ comment) = L ++ '=' :: sum := by
      refine withoutComment_plain ?_ ?_
      · intro hm
        rcases List.mem_append.mp hm with hm | hm
        · exact (hl _ hm).2.1 rfl
        · rcases List.mem_cons.mp hm with e | hm
          · exact absurd e (by decide)
          · exact (hr.1 _ hm).2.1 rfl
      · rcases hcom with h | ⟨r, h, _⟩
        · exact Or.inl h
        · exact Or.inr ⟨r, h⟩
    have hLne : L ≠ [] := by rw [← hL]; simp
    have htok : tokenize (· = '=') (L ++ '=' :: sum) = [L, sum] := by
      rw [tokenize_cons _ _ (fun c hc => by simpa using (hl c hc).1) (by simp) hLne,
        tokenize_none _ (fun c hc => by simpa using (hr.1 c hc).1) hr.2]
    have ho : isOther (L ++ '=' :: sum) = false := by
      rw [← Bool.not_eq_true, startsOther_iff]
      exact hother
    have hj := hc.2.2.1.spec
    have ha := hc.2.2.2.spec
    have hrow : j * 7 + a < sk.joints.length * 7 := by
      have := hj.2
      have := ha.1
      omega
    obtain ⟨s', q1, q2⟩ := sum_spec hrow hsum (fun w j' a' hm => by
      have := hne w j' a' hm
      simp only [Definition.target] at this
      rw [Nat.mul_comm j 7]
      exact this) (s := { s with active := s.active.set (j * 7 + a) true })
      ⟨hs.cols, hs.names, hs.offsets, by simpa using hs.active⟩
    have ht : (⟨j, a, ts⟩ : Definition K).target = j * 7 + a := by simp only [Definition.target]; omega
    refine ⟨?_, s', ?_, q2.inv, ?_, ?_, q2.names, ?_⟩
    · intro hm
      rcases List.mem_append.mp hm with hm | hm
      · rcases List.mem_append.mp hm with hm | hm
        · exact (hl _ hm).2.2 rfl
        · rcases List.mem_cons.mp hm with e | hm
          · exact absurd e (by decide)
          · exact (hr.1 _ hm).2.2 rfl
      · rcases hcom with h | ⟨r, h, hn⟩
        · rw [h] at hm; simp at hm
        · rw [h] at hm
          rcases List.mem_cons.mp hm with e | hm
          · exact absurd e (by decide)
          · exact hn hm
    · simp only [defineLine, hline, ho, htok, Bool.false_eq_true, if_false]
      rw [← hL]
      simp only [assign, left_spec h1 h2 h3 h4 hc, Word.trimmed h1 hc.1 h2, IsChannel.trimmed h3 hc.2.2.2 h4, hj.1, ha.2.1]
      exact q1
    · intro v
      rw [q2.lin v]
      simp only [Definition.run, ht]
      rfl
    · rw [q2.off]
      simp only [Definition.constants, ht]
      rfl
    · rw [q2.active, ht]

theorem other_spec {text : List Char} (h : OtherText text) (s : ParseState K) : defineLine read sk s text = some (.ok s) := by
  obtain ⟨_, h | h⟩ := h
  · have := (startsOther_iff _).mpr h
    unfold defineLine
    simp only [withoutComment, this, if_true]
  · unfold defineLine
    simp only []
    split
    · rfl
    · change '=' ∉ withoutComment text at h
      have hp : pieces (· = '=') (withoutComment text) = [withoutComment text] := by
        refine pieces_none _ fun c hc => ?_
        simp only [decide_eq_false_iff_not]
        intro e
        exact h (e ▸ hc)
      by_cases h0 : withoutComment text = []
      · simp only [tokenize, hp]
        rw [h0]
        rfl
      · simp [tokenize, hp, h0]

/-- The channels that are defined. -/
def activeAfter (b : List Bool) (defs : List (Definition K)) : List Bool := defs.foldl (fun b d => b.set d.target true) b

/-- The whole text. -/
theorem text_spec {defs : List (Definition K)} {text : List Char} (h : Text read sk defs text) (hne : NoSelfReference defs) :
    ∀ {s : ParseState K}, Inv sk s →
    ∃ s', runSteps (defineLine read sk) s (getLines text) = some (.ok s') ∧ Inv sk s' ∧
      (∀ v, lin s' v = defs.foldl (Definition.run v) (lin s v)) ∧ off s' = defs.foldl Definition.constants (off s) ∧
      s'.names = (defs.flatMap fun d => d.terms.filterMap Term.name?).foldl addName s.names ∧
      s'.active = activeAfter s.active defs := by
  induction h with
  | nil => intro s hs; exact ⟨s, rfl, hs, fun _ => rfl, rfl, rfl, rfl⟩
  | @definition d ds text r hd hds ih =>
    intro s hs
    obtain ⟨hnl, s', e1, e2⟩ := line_spec hd (hne d (by simp)) hs
    obtain ⟨s'', f1, f2, f3, f4, f5, f6⟩ := ih (fun x hx => hne x (List.mem_cons_of_mem _ hx)) e2.inv
    refine ⟨s'', ?_, f2, fun v => ?_, ?_, ?_, ?_⟩
    · rw [LimitsText.getLines_cons hnl]
      simp only [runSteps, e1, thenStep, f1]
    · rw [f3 v, e2.lin v, List.foldl_cons]
    · rw [f4, e2.off, List.foldl_cons]
    · rw [f5, e2.names, List.flatMap_cons, List.foldl_append]
    · rw [f6, e2.active]; rfl
  | @other ds text r ho hds ih =>
    intro s hs
    obtain ⟨s'', f1, f⟩ := ih hne hs
    refine ⟨s'', ?_, f⟩
    rw [LimitsText.getLines_cons ho.1]
    simp only [runSteps, other_spec ho, thenStep, f1]

theorem Inv.initial : Inv sk (initialState sk) := ⟨by simp [initialState], by simp [initialState], by simp [initialState], by simp [initialState]⟩

end
end Momentum.TransformText
