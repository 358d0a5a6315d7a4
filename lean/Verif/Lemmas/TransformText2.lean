import Verif.Lemmas.TransformText

/-! Helper lemmas for C85: what the parser has built agrees with the meaning of the definitions read so far. -/

namespace Momentum.TransformText

open LimitsText (getLines withoutComment jointParameterNames)

section
variable {K : Type} [CommRing K] {sk : Skeleton K} {read : List Char → Option K}

/-- The value the triplets give to a joint parameter. -/
def lin (s : ParseState K) (v : List Char → K) (r : Nat) : K :=
  ((s.triplets.filter fun t => t.row = r).map fun t => t.val * v (s.names.getD t.col [])).sum

/-- The constants. -/
def off (s : ParseState K) (r : Nat) : K := s.offsets.getD r 0

/-- What holds between lines and summands. -/
structure Inv (sk : Skeleton K) (s : ParseState K) : Prop where
  cols : ∀ t ∈ s.triplets, t.col < s.names.length
  names : ∀ n ∈ s.names, NoJoint sk (n.takeWhile (· ≠ '.'))
  offsets : s.offsets.length = sk.joints.length * 7
  active : s.active.length = sk.joints.length * 7

/-- The names after a summand. -/
def Term.addTo (names : List (List Char)) : Term K → List (List Char)
  | .param _ n => addName names n
  | _ => names

/-- The outcome of a summand. -/
structure After (sk : Skeleton K) (row : Nat) (s s' : ParseState K) (t : Term K) : Prop where
  inv : Inv sk s'
  lin : ∀ v, lin s' v = t.run v row (lin s v)
  off : off s' = t.constant row (off s)
  names : s'.names = t.addTo s.names
  active : s'.active = s.active
  keeps : ∀ u ∈ s.triplets, u ∈ s'.triplets
  adds : ∀ w n, t = .param w n → ∃ u ∈ s'.triplets, u.row = row

theorem lin_append (names : List (List Char)) (ts us : List (Triplet K)) (o : List K) (b : List Bool) (v : List Char → K) (r : Nat) :
    lin ⟨names, ts ++ us, o, b⟩ v r = lin ⟨names, ts, o, b⟩ v r + lin ⟨names, us, o, b⟩ v r := by
  simp [lin, List.filter_append]

theorem lin_names {names : List (List Char)} (more : List (List Char)) {ts : List (Triplet K)} (h : ∀ t ∈ ts, t.col < names.length)
    (o : List K) (b : List Bool) (v : List Char → K) (r : Nat) :
    lin ⟨names ++ more, ts, o, b⟩ v r = lin ⟨names, ts, o, b⟩ v r := by
  unfold lin
  congr 1
  refine List.map_congr_left fun t ht => ?_
  have := h t (List.mem_filter.mp ht).1
  simp [List.getD_eq_getElem?_getD, List.getElem?_append_left this]

theorem lin_single (names : List (List Char)) (row col : Nat) (w : K) (o : List K) (b : List Bool) (v : List Char → K) (r : Nat) :
    lin ⟨names, [⟨row, col, w⟩], o, b⟩ v r = if r = row then w * v (names.getD col []) else 0 := by
  by_cases h : r = row
  · simp [lin, h]
  · have : row ≠ r := fun e => h e.symm
    simp [lin, h, this]

theorem lin_copies (names : List (List Char)) (row ref : Nat) (w : K) (ts : List (Triplet K)) (o : List K) (b : List Bool)
    (v : List Char → K) (r : Nat) :
    lin ⟨names, copies row ref w ts, o, b⟩ v r = if r = row then w * lin ⟨names, ts, o, b⟩ v ref else 0 := by
  by_cases h : r = row
  · subst h
    rw [if_pos rfl]
    simp only [lin, copies]
    rw [List.filter_eq_self.mpr (by
      intro t ht
      obtain ⟨x, _, rfl⟩ := List.mem_map.mp ht
      simp), List.map_map, ← List.sum_map_mul_left]
    congr 1
    refine List.map_congr_left fun t _ => ?_
    simp only [Function.comp]
    ring
  · rw [if_neg h]
    simp only [lin, copies]
    rw [List.filter_eq_nil_iff.mpr (by
      intro t ht
      obtain ⟨x, _, rfl⟩ := List.mem_map.mp ht
      simpa using fun e => h e.symm)]
    simp

theorem update_add (x y : Nat → K) (row : Nat) (d : K) (h : ∀ r, y r = x r + if r = row then d else 0) :
    y = Function.update x row (x row + d) := by
  funext r
  rw [h r]
  by_cases e : r = row
  · subst e; simp
  · simp [e]

/-- A weight times a model parameter. -/
theorem addWeighted_param {row : Nat} {s : ParseState K} (hs : Inv sk s) (w : K) {name : List Char}
    (hn : NoJoint sk (name.takeWhile (· ≠ '.'))) :
    ∃ s', addWeighted sk row s w name = some (.ok s') ∧ After sk row s s' (.param w name) := by
  obtain ⟨names, ts, o, b⟩ := s
  have hj := NoJoint.spec.mpr hn
  by_cases hm : name ∈ names
  · obtain ⟨i, hi⟩ : ∃ i, names.findIdx? (· = name) = some i := by
      cases hf : names.findIdx? (· = name) with
      | some i => exact ⟨i, rfl⟩
      | none =>
        have := List.findIdx?_eq_none_iff.mp hf name hm
        simp at this
    have hget := List.findIdx?_eq_some_iff_getElem.mp hi
    refine ⟨⟨names, ts ++ [⟨row, i, w⟩], o, b⟩, by simp only [addWeighted, hi], ?_, ?_, rfl, ?_, rfl,
      fun u hu => List.mem_append_left _ hu, fun _ _ _ => ⟨_, List.mem_append_right _ (List.mem_singleton.mpr rfl), rfl⟩⟩
    · refine ⟨?_, hs.names, hs.offsets, hs.active⟩
      intro t ht
      rcases List.mem_append.mp ht with ht | ht
      · exact hs.cols t ht
      · rw [List.mem_singleton.mp ht]; exact hget.1
    · intro v
      refine update_add _ _ row _ fun r => ?_
      rw [lin_append, lin_single]
      have : names.getD i [] = name := by
        have h2 : names[i]'hget.1 = name := by simpa using hget.2.1
        simp [List.getD_eq_getElem?_getD, List.getElem?_eq_getElem hget.1, h2]
      rw [this]
    · simp [Term.addTo, addName, hm]
  · have hf : names.findIdx? (· = name) = none := by
      rw [List.findIdx?_eq_none_iff]
      intro x hx
      simp only [decide_eq_false_iff_not]
      intro e
      exact hm (e ▸ hx)
    refine ⟨⟨names ++ [name], ts ++ [⟨row, names.length, w⟩], o, b⟩, by simp only [addWeighted, hf, hj], ?_, ?_, rfl, ?_, rfl,
      fun u hu => List.mem_append_left _ hu, fun _ _ _ => ⟨_, List.mem_append_right _ (List.mem_singleton.mpr rfl), rfl⟩⟩
    · refine ⟨?_, ?_, hs.offsets, hs.active⟩
      · intro t ht
        rcases List.mem_append.mp ht with ht | ht
        · have := hs.cols t ht
          simp only [List.length_append, List.length_singleton] at this ⊢
          omega
        · rw [List.mem_singleton.mp ht]; simp
      · intro n hn'
        rcases List.mem_append.mp hn' with h | h
        · exact hs.names n h
        · rw [List.mem_singleton.mp h]; exact hn
    · intro v
      refine update_add _ _ row _ fun r => ?_
      rw [lin_append, lin_single, lin_names _ hs.cols]
      simp
    · simp [Term.addTo, addName, hm]

/-- A weight times another joint parameter. -/
theorem addWeighted_ref {row : Nat} {s : ParseState K} (hs : Inv sk s) (w : K) {j a : Nat} {joint channel : List Char}
    (hc : NamesChannel sk j a joint channel) (hne : 7 * j + a ≠ row) :
    ∃ s', addWeighted sk row s w (joint ++ '.' :: channel) = some (.ok s') ∧ After sk row s s' (.ref w j a) := by
  obtain ⟨names, ts, o, b⟩ := s
  obtain ⟨h1, h2, h3, h4⟩ := hc
  obtain ⟨d1, d2⟩ := LimitsText.takeWhile_dot (n := channel) h2
  have hj := h3.spec.1
  have hf : names.findIdx? (· = joint ++ '.' :: channel) = none := by
    rw [List.findIdx?_eq_none_iff]
    intro x hx
    simp only [decide_eq_false_iff_not]
    intro e
    have := hs.names x hx
    rw [e, d1] at this
    exact h3.not this
  have ha : refAttribute (joint ++ '.' :: channel) = some a := by
    rw [refAttribute, if_pos (by simp), d2]
    exact h4.spec.2.1
  have hcopy := copyLoop_spec (row := row) (ref := j * 7 + a) (by omega) w ts
  refine ⟨⟨names, ts ++ copies row (j * 7 + a) w ts, o, b⟩, ?_, ?_, ?_, rfl, rfl, rfl, fun u hu => List.mem_append_left _ hu, fun _ _ e => by cases e⟩
  · simp only [addWeighted, hf, d1, hj, ha, hcopy, Option.map_some]
  · refine ⟨?_, hs.names, hs.offsets, hs.active⟩
    intro t ht
    rcases List.mem_append.mp ht with ht | ht
    · exact hs.cols t ht
    · obtain ⟨x, hx, rfl⟩ := List.mem_map.mp ht
      exact hs.cols x (List.mem_filter.mp hx).1
  · intro v
    refine update_add _ _ row _ fun r => ?_
    rw [lin_append, lin_copies, Nat.mul_comm j 7]

theorem Word.noStar {w : List Char} (h : Word w) : ∀ c ∈ w, decide (c = '*') = false := by
  intro c hc
  simp [(h.2.1 c hc).2.2.1]

theorem Blank.no {s : List Char} (h : Blank s) (x : Char) (hx : x ≠ ' ' ∧ x ≠ '\t') : x ∉ s := by
  intro hm
  rcases h x hm with e | e
  · exact hx.1 e
  · exact hx.2 e

theorem tokenize_weighted {s r : List Char} (hs : ∀ c ∈ s, c ≠ '*') (hr : '*' ∉ r) (h0 : s ≠ []) (h1 : r ≠ []) :
    tokenize (· = '*') (s ++ '*' :: r) = [s, r] := by
  rw [tokenize_cons _ _ (fun c hc => by simpa using hs c hc) (by simp) h0, tokenize_none _ (fun c hc => ?_) h1]
  simp only [decide_eq_false_iff_not]
  intro e
  exact hr (e ▸ hc)

theorem IsChannel.avoid {a : Nat} {w : List Char} (h : IsChannel a w) (c : Char) (hc : c ∉ ['t', 'x', 'y', 'z', 'r', 's', 'c']) : c ∉ w :=
  fun hm => hc (h.spec.2.2.2 c hm)

theorem channel_word {j a : Nat} {joint channel : List Char} (hc : NamesChannel sk j a joint channel) :
    Word (joint ++ '.' :: channel) := by
  obtain ⟨h1, h2, h3, h4⟩ := hc
  have hchars : ∀ c ∈ channel, c ≠ '=' ∧ c ≠ '+' ∧ c ≠ '*' ∧ c ≠ '#' ∧ c ≠ '\n' ∧ c ≠ ' ' ∧ c ≠ '\t' ∧ c ≠ '\x00' := by
    intro c hc
    have := h4.spec.2.2.2 c hc
    simp only [List.mem_cons, List.not_mem_nil, or_false] at this
    rcases this with rfl | rfl | rfl | rfl | rfl | rfl | rfl <;> decide
  refine ⟨by simp, ?_, ?_⟩
  · intro c hc
    rcases List.mem_append.mp hc with h | h
    · exact h1.2.1 c h
    · rcases List.mem_cons.mp h with rfl | h
      · decide
      · have := hchars c h
        exact ⟨this.1, this.2.1, this.2.2.1, this.2.2.2.1, this.2.2.2.2.1⟩
  · intro c hc
    rcases hc with hc | hc
    · refine h1.2.2 c (Or.inl ?_)
      cases hj : joint with
      | nil => exact absurd hj h1.1
      | cons x r => rw [hj] at hc; simpa using hc
    · have hl : (joint ++ '.' :: channel).getLast? = channel.getLast? := by
        cases hch : channel with
        | nil => exact absurd hch h4.spec.2.2.1
        | cons x r => simp [List.getLast?_append, List.getLast?_cons_cons, List.getLast?_cons]
      rw [hl] at hc
      exact (hchars c (List.mem_of_getLast? hc)).2.2.2.2.2

/-- A written summand. -/
theorem addTerm_spec {row : Nat} (hrow : row < sk.joints.length * 7) {s : ParseState K} (hs : Inv sk s) {t : Term K} {text : List Char}
    (h : TermText read sk t text) (hne : ∀ w j a, t = .ref w j a → 7 * j + a ≠ row) :
    ∃ s', addTerm read sk row s text = some (.ok s') ∧ After sk row s s' t := by
  cases h with
  | @const c text hn =>
    obtain ⟨h0, h1, h2⟩ := hn
    refine ⟨{ s with offsets := s.offsets.set row c }, ?_, ⟨hs.cols, hs.names, by simpa using hs.offsets, hs.active⟩, fun v => rfl, ?_,
      rfl, rfl, fun _ hu => hu, fun _ _ e => by cases e⟩
    · have : tokenize (· = '*') text = [text] :=
        tokenize_none _ (fun x hx => by simpa using (h1 x hx).2.2.1) h0
      simp only [addTerm, this, h2]
    · funext r
      have := hs.offsets
      by_cases e : r = row
      · subst e
        simp [off, Term.constant, List.getD_eq_getElem?_getD, List.getElem?_set, this, hrow]
      · have e' : row ≠ r := fun x => e x.symm
        simp [off, Term.constant, List.getD_eq_getElem?_getD, List.getElem?_set, e, e']
  | @param w sw pre name post hn hpre hw hpost hj =>
    obtain ⟨h0, h1, h2⟩ := hn
    have htok := tokenize_weighted (r := pre ++ name ++ post) (fun c hc => (h1 c hc).2.2.1) (by
      have a1 := hpre.no '*' (by decide)
      have a2 := hpost.no '*' (by decide)
      have a3 : '*' ∉ name := fun hm => (hw.2.1 _ hm).2.2.1 rfl
      simp [a1, a2, a3]) h0 (by simp [hw.1])
    have htrim := trim_exact hpre hpost hw.2.2 hw.1
    obtain ⟨s', e1, e2⟩ := addWeighted_param (row := row) hs w hj
    exact ⟨s', by simp only [addTerm, htok, h2, htrim, e1], e2⟩
  | @ref w j a sw pre joint channel post hn hpre hc hpost =>
    obtain ⟨h0, h1, h2⟩ := hn
    have hw := channel_word hc
    have htok := tokenize_weighted (r := pre ++ (joint ++ '.' :: channel) ++ post) (fun c hc => (h1 c hc).2.2.1) (by
      have a1 := hpre.no '*' (by decide)
      have a2 := hpost.no '*' (by decide)
      have a3 : '*' ∉ (joint ++ '.' :: channel) := fun hm => (hw.2.1 _ hm).2.2.1 rfl
      rw [List.mem_append, List.mem_append]
      tauto) h0 (by simp)
    have htrim := trim_exact hpre hpost hw.2.2 hw.1
    obtain ⟨s', e1, e2⟩ := addWeighted_ref (row := row) hs w hc (hne w j a rfl)
    exact ⟨s', by simp only [addTerm, htok, h2, htrim, e1], e2⟩

end
end Momentum.TransformText
