import Verif.Lemmas.TransformText4
import Verif.Lemmas.ParameterTransform2

/-! Helper lemmas for C85: the finished transform, and texts after which the parser stops. -/

namespace Momentum.TransformText

open LimitsText (getLines withoutComment jointParameterNames)

section
variable {K : Type} [CommRing K] {sk : Skeleton K} {read : List Char → Option K}

theorem sum_nonzero [DecidableEq K] (ts : List (Triplet K)) (i : Nat) (p : List K) :
    (((ts.filter fun t => t.val ≠ 0).filter (·.row == i)).map fun e => e.val * p.getD e.col 0).sum =
      ((ts.filter fun t => t.row = i).map fun e => e.val * p.getD e.col 0).sum := by
  induction ts with
  | nil => rfl
  | cons t ts ih =>
    by_cases h : t.val = 0
    · by_cases hr : t.row = i
      · simp only [List.filter_cons, h, hr, ne_eq, not_true_eq_false, decide_false, decide_true, if_true, List.map_cons, List.sum_cons, zero_mul,
          zero_add]
        simpa using ih
      · simpa [List.filter_cons, h, hr] using ih
    · by_cases hr : t.row = i
      · simp only [List.filter_cons, h, hr, ne_eq, not_false_eq_true, decide_true, if_true, beq_self_eq_true, List.map_cons, List.sum_cons]
        rw [← ih]
      · simpa [List.filter_cons, h, hr] using ih

theorem apply_finish [DecidableEq K] {s : ParseState K} (hs : Inv sk s) (v : List Char → K) :
    (finish sk s).apply (s.names.map v) = some ((List.range (sk.joints.length * 7)).map fun r => lin s v r + off s r) := by
  unfold ParameterTransform.apply finish
  simp only [List.length_map]
  rw [if_pos trivial, if_pos hs.offsets]
  congr 1
  refine List.ext_getElem ?_ ?_
  · simp [addVec, SparseMat.mulVec, hs.offsets]
  · intro i h1 h2
    have hi : i < sk.joints.length * 7 := by simpa using h2
    simp only [addVec, List.getElem_zipWith, List.getElem_map, List.getElem_range, SparseMat.mulVec]
    congr 1
    · rw [sum_nonzero]
      unfold lin
      congr 1
      refine List.map_congr_left fun t ht => ?_
      have := hs.cols t (List.mem_filter.mp ht).1
      simp [List.getD_eq_getElem?_getD, List.getElem?_eq_getElem this]
    · simp [off, List.getD_eq_getElem?_getD, List.getElem?_eq_getElem (hs.offsets ▸ hi)]

theorem lin_initial (v : List Char → K) : lin (initialState sk) v = fun _ => 0 := by
  funext r
  simp [lin, initialState]

theorem off_initial : off (initialState sk) = fun _ => 0 := by
  funext r
  simp only [off, initialState, List.getD_eq_getElem?_getD, List.getElem?_replicate]
  split <;> rfl

theorem runSteps_append {σ α : Type} (f : σ → α → Option (Outcome σ)) (s : σ) (a b : List α) :
    runSteps f s (a ++ b) = thenStep (runSteps f s a) fun s' => runSteps f s' b := by
  induction a generalizing s with
  | nil => rfl
  | cons x a ih =>
    rw [List.cons_append]
    simp only [runSteps]
    rcases f s x with _ | (_ | _ | _)
    · rfl
    · simp only [thenStep]; exact ih _
    · rfl
    · rfl

theorem DefinitionText.no_newline {d : Definition K} {text : List Char} (h : DefinitionText read sk d text) : '\n' ∉ text := by
  cases h with
  | @intro j a ts b1 joint b2 b3 channel b4 sum comment h1 h2 h3 h4 hc hsum hother hcom =>
    have hl := plain_left h1 h2 h3 h4 hc
    have hr := hsum.plain
    have e0 : b1 ++ joint ++ b2 ++ '.' :: (b3 ++ channel ++ b4 ++ '=' :: sum)
        = (b1 ++ joint ++ b2 ++ '.' :: (b3 ++ channel ++ b4)) ++ '=' :: sum := by simp
    rw [e0]
    intro hm
    rcases List.mem_append.mp hm with hm | hm
    · rcases List.mem_append.mp hm with hm | hm
      · exact (hl _ hm).2.2 rfl
      · rcases List.mem_cons.mp hm with e | hm
        · exact absurd e (by decide)
        · exact (hr.1 _ hm).2.2 rfl
    · rcases hcom with h | ⟨r, h, hn⟩
      · rw [h] at hm; simp at hm
      · rw [h] at hm
        rcases List.mem_cons.mp hm with e | hm
        · exact absurd e (by decide)
        · exact hn hm

theorem text_lines {defs : List (Definition K)} {text : List Char} (h : Text read sk defs text) (more : List Char) :
    getLines (text ++ more) = getLines text ++ getLines more := by
  induction h with
  | nil => rfl
  | definition hd _ ih =>
    rw [List.append_assoc, List.cons_append, LimitsText.getLines_cons hd.no_newline, LimitsText.getLines_cons hd.no_newline, ih]
    rfl
  | other ho _ ih =>
    rw [List.append_assoc, List.cons_append, LimitsText.getLines_cons ho.1, LimitsText.getLines_cons ho.1, ih]
    rfl

/-- What happens at a line after a good text. -/
theorem parse_stops [DecidableEq K] {defs : List (Definition K)} {text : List Char} (h : Text read sk defs text) (hne : NoSelfReference defs)
    {line : List Char} (hl : '\n' ∉ line) (rest : List Char) {x : Option (Outcome (ParseState K))}
    (hx : x = none ∨ x = some .throws) (hb : ∀ s, Inv sk s → defineLine read sk s line = x) :
    (x = none → parseParameterTransform read (text ++ (line ++ '\n' :: rest)) sk = none) ∧
    (x = some .throws → parseParameterTransform read (text ++ (line ++ '\n' :: rest)) sk = some .throws) := by
  obtain ⟨s', e1, e2, _⟩ := text_spec h hne (s := initialState sk) Inv.initial
  have key : runSteps (defineLine read sk) (initialState sk) (getLines (text ++ (line ++ '\n' :: rest))) =
      thenStep x fun s'' => runSteps (defineLine read sk) s'' (getLines rest) := by
    rw [text_lines h, runSteps_append, e1, LimitsText.getLines_cons hl]
    simp only [thenStep, runSteps]
    rw [hb s' e2]
  constructor
  · rintro rfl
    unfold parseParameterTransform
    rw [key]
    rfl
  · rintro rfl
    unfold parseParameterTransform
    rw [key]
    rfl

/-- Summands up to a reference to the joint parameter itself. -/
theorem sum_forever {j a : Nat} (hj : j < sk.joints.length) (ha : a < 7) {w : K} {ts1 ts2 : List (Term K)} {text : List Char}
    (h : SumText read sk (ts1 ++ .ref w j a :: ts2) text) (hne : ∀ w' j' a', Term.ref w' j' a' ∈ ts1 → 7 * j' + a' ≠ j * 7 + a) :
    ∀ {s : ParseState K}, Inv sk s →
    ((∃ t ∈ s.triplets, t.row = j * 7 + a) ∨ ∃ w' n, Term.param w' n ∈ ts1) →
    runSteps (addTerm read sk (j * 7 + a)) s (tokenize (· = '+') text) = none := by
  have hrow : j * 7 + a < sk.joints.length * 7 := by omega
  have self : ∀ {s : ParseState K} {u : List Char}, Inv sk s → (∃ t ∈ s.triplets, t.row = j * 7 + a) → TermText read sk (.ref w j a) u →
      addTerm read sk (j * 7 + a) s u = none := by
    intro s u hs ht hu
    cases hu with
    | @ref w j a sw pre joint channel post hn hpre hc hpost =>
      have hw := channel_word hc
      have htok := tokenize_weighted (r := pre ++ (joint ++ '.' :: channel) ++ post) (fun c hc => (hn.2.1 c hc).2.2.1) (by
        have a1 := hpre.no '*' (by decide)
        have a2 := hpost.no '*' (by decide)
        have a3 : '*' ∉ (joint ++ '.' :: channel) := fun hm => (hw.2.1 _ hm).2.2.1 rfl
        rw [List.mem_append, List.mem_append]
        tauto) hn.1 (by simp)
      have htrim := trim_exact hpre hpost hw.2.2 hw.1
      obtain ⟨h1, h2, h3, h4⟩ := hc
      obtain ⟨d1, d2⟩ := LimitsText.takeWhile_dot (n := channel) h2
      have hf : s.names.findIdx? (· = joint ++ '.' :: channel) = none := by
        rw [List.findIdx?_eq_none_iff]
        intro x hx
        simp only [decide_eq_false_iff_not]
        intro e
        have := hs.names x hx
        rw [e, d1] at this
        exact h3.not this
      have haa : refAttribute (joint ++ '.' :: channel) = some a := by
        rw [refAttribute, if_pos (by simp), d2]
        exact h4.spec.2.1
      simp only [addTerm, htok, hn.2.2, htrim, addWeighted, hf, d1, h3.spec.1, haa, copyLoop_forever _ w _ ht, Option.map_none]
  induction ts1 generalizing text with
  | nil =>
    intro s hs ht
    have ht' : ∃ t ∈ s.triplets, t.row = j * 7 + a := by
      rcases ht with h | ⟨_, _, h⟩
      · exact h
      · simp at h
    rw [List.nil_append] at h
    cases h with
    | one hu =>
      rw [tokenize_none _ (fun c hc => ?_) hu.spec.2.2]
      · simp only [runSteps, self hs ht' hu, thenStep]
      · simp only [decide_eq_false_iff_not]
        intro e
        exact hu.spec.2.1 (e ▸ hc)
    | more hu hts =>
      rw [tokenize_cons _ _ (fun c hc => ?_) (by simp) hu.spec.2.2]
      · simp only [runSteps, self hs ht' hu, thenStep]
      · simp only [decide_eq_false_iff_not]
        intro e
        exact hu.spec.2.1 (e ▸ hc)
  | cons t1 ts1 ih =>
    intro s hs ht
    rw [List.cons_append] at h
    generalize hq : ts1 ++ Term.ref w j a :: ts2 = q at h
    cases h with
    | one hu => simp at hq
    | more hu hts =>
      subst hq
      obtain ⟨s', e1, e2⟩ := addTerm_spec hrow hs hu fun w' j' a' e => hne w' j' a' (by simp [e])
      have hkeep : (∃ t ∈ s'.triplets, t.row = j * 7 + a) ∨ ∃ w' n, Term.param w' n ∈ ts1 := by
        rcases ht with ⟨t, ht, hr⟩ | ⟨w', n, hm⟩
        · left
          exact ⟨t, e2.keeps t ht, hr⟩
        · rcases List.mem_cons.mp hm with e | hm
          · left
            subst e
            exact e2.adds w' n rfl
          · exact Or.inr ⟨w', n, hm⟩
      rw [tokenize_cons _ _ (fun c hc => ?_) (by simp) hu.spec.2.2]
      · simp only [runSteps, e1, thenStep]
        exact ih hts (fun w' j' a' hm => hne w' j' a' (List.mem_cons_of_mem _ hm)) e2.inv hkeep
      · simp only [decide_eq_false_iff_not]
        intro e
        exact hu.spec.2.1 (e ▸ hc)

/-- A line with one equality sign. -/
theorem defineLine_split {L sum comment : List Char} (hl : Plain L) (hL : L ≠ []) (hsum : Plain sum) (hs : sum ≠ [])
    (hother : ¬ StartsOther (L ++ '=' :: sum)) (hcom : comment = [] ∨ ∃ r, comment = '#' :: r) (s : ParseState K) :
    defineLine read sk s (L ++ '=' :: sum ++ comment) = assign read sk s L sum := by
  have hline : withoutComment (L ++ '=' :: sum ++ comment) = L ++ '=' :: sum := by
    refine withoutComment_plain ?_ hcom
    intro hm
    rcases List.mem_append.mp hm with hm | hm
    · exact (hl _ hm).2.1 rfl
    · rcases List.mem_cons.mp hm with e | hm
      · exact absurd e (by decide)
      · exact (hsum _ hm).2.1 rfl
  have htok : tokenize (· = '=') (L ++ '=' :: sum) = [L, sum] := by
    rw [tokenize_cons _ _ (fun c hc => by simpa using (hl c hc).1) (by simp) hL,
      tokenize_none _ (fun c hc => by simpa using (hsum c hc).1) hs]
  have ho : isOther (L ++ '=' :: sum) = false := by
    rw [← Bool.not_eq_true, startsOther_iff]
    exact hother
  simp only [defineLine, hline, ho, htok, Bool.false_eq_true, if_false]

theorem defineLine_nocomment {L sum : List Char} (hl : Plain L) (hL : L ≠ []) (hsum : Plain sum) (hs : sum ≠ [])
    (hother : ¬ StartsOther (L ++ '=' :: sum)) (s : ParseState K) :
    defineLine read sk s (L ++ '=' :: sum) = assign read sk s L sum := by
  have := defineLine_split (read := read) (sk := sk) hl hL hsum hs hother (comment := []) (Or.inl rfl) s
  rwa [List.append_nil] at this

theorem defineLine_text {j a : Nat} {ts : List (Term K)} {b1 joint b2 b3 channel b4 sum comment : List Char} (h1 : Blank b1) (h2 : Blank b2)
    (h3 : Blank b3) (h4 : Blank b4) (hc : NamesChannel sk j a joint channel) (hsum : SumText read sk ts sum)
    (hother : ¬ StartsOther (b1 ++ joint ++ b2 ++ '.' :: (b3 ++ channel ++ b4 ++ '=' :: sum)))
    (hcom : comment = [] ∨ ∃ r, comment = '#' :: r ∧ '\n' ∉ r) (s : ParseState K) :
    defineLine read sk s (b1 ++ joint ++ b2 ++ '.' :: (b3 ++ channel ++ b4 ++ '=' :: sum) ++ comment) =
      runSteps (addTerm read sk (j * 7 + a)) { s with active := s.active.set (j * 7 + a) true } (tokenize (· = '+') sum) := by
  have hl := plain_left h1 h2 h3 h4 hc
  have e0 : b1 ++ joint ++ b2 ++ '.' :: (b3 ++ channel ++ b4 ++ '=' :: sum)
      = (b1 ++ joint ++ b2 ++ '.' :: (b3 ++ channel ++ b4)) ++ '=' :: sum := by simp
  rw [e0] at hother ⊢
  rw [defineLine_split hl (by simp) hsum.plain.1 hsum.plain.2 hother (by
    rcases hcom with h | ⟨r, h, _⟩
    · exact Or.inl h
    · exact Or.inr ⟨r, h⟩)]
  simp only [assign, left_spec h1 h2 h3 h4 hc, Word.trimmed h1 hc.1 h2, IsChannel.trimmed h3 hc.2.2.2 h4, hc.2.2.1.spec.1,
    hc.2.2.2.spec.2.1]

end
end Momentum.TransformText
