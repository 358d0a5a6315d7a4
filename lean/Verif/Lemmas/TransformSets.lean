import Verif.Spec.TransformSets
import Verif.Lemmas.TransformText3

/-! Helper lemmas for C85: lines with a key and words. -/

namespace Momentum.TransformText

open LimitsText (getLines withoutComment)

theorem tokenize_skip (d : Char → Bool) {c : Char} (hc : d c = true) (r : List Char) : tokenize d (c :: r) = tokenize d r := by
  simp [tokenize, pieces, hc]

theorem tokenize_skips (d : Char → Bool) {b : List Char} (hb : ∀ c ∈ b, d c = true) (r : List Char) : tokenize d (b ++ r) = tokenize d r := by
  induction b with
  | nil => rfl
  | cons c b ih =>
    rw [List.cons_append, tokenize_skip d (hb c (by simp))]
    exact ih fun x hx => hb x (List.mem_cons_of_mem _ hx)

theorem white_blank {b : List Char} (h : ∀ c ∈ b, c = ' ' ∨ c = '\t') : ∀ c ∈ b, isWhite c = true := by
  intro c hc
  rcases h c hc with rfl | rfl <;> decide

theorem Entry.white {w : List Char} (h : Entry w) : ∀ c ∈ w, isWhite c = false := by
  intro c hc
  have := h.2 c hc
  simp [isWhite, this.1, this.2.1, this.2.2.1, this.2.2.2.1]

/-- A spaced text is empty or starts with a blank. -/
theorem Spaced.start {ws : List (List Char)} {r : List Char} (h : Spaced ws r) : r = [] ∨ ∃ c r', r = c :: r' ∧ isWhite c = true := by
  cases h with
  | nil hb =>
    cases r with
    | nil => exact Or.inl rfl
    | cons c b => exact Or.inr ⟨c, b, rfl, white_blank hb c (by simp)⟩
  | @cons ws b w r hb h0 hw hr =>
    cases b with
    | nil => exact absurd rfl h0
    | cons c b => exact Or.inr ⟨c, b ++ w ++ r, rfl, white_blank hb c (by simp)⟩

theorem tokenize_head {w r : List Char} {ts : List (List Char)} (hw : ∀ c ∈ w, isWhite c = false) (h0 : w ≠ [])
    (hr : r = [] ∨ ∃ c r', r = c :: r' ∧ isWhite c = true) (ht : tokenize isWhite r = ts) : tokenize isWhite (w ++ r) = w :: ts := by
  rcases hr with rfl | ⟨c, r', rfl, hc⟩
  · rw [List.append_nil, tokenize_none _ hw h0, ← ht]
    rfl
  · rw [tokenize_cons _ _ hw hc h0, ← ht, tokenize_skip _ hc]

theorem Spaced.tokens {ws : List (List Char)} {r : List Char} (h : Spaced ws r) : tokenize isWhite r = ws := by
  induction h with
  | @nil b hb =>
    have := tokenize_skips isWhite (white_blank hb) []
    rw [List.append_nil] at this
    rw [this]
    rfl
  | @cons ws b w r hb h0 hw hr ih =>
    rw [List.append_assoc, tokenize_skips _ (white_blank hb)]
    exact tokenize_head hw.white hw.1 hr.start ih

theorem Spaced.clean {ws : List (List Char)} {r : List Char} (h : Spaced ws r) : '\n' ∉ r ∧ '#' ∉ r := by
  have hblank : ∀ {b : List Char}, (∀ c ∈ b, c = ' ' ∨ c = '\t') → '\n' ∉ b ∧ '#' ∉ b := by
    intro b hb
    constructor
    · intro hm
      exact absurd (hb _ hm) (by decide)
    · intro hm
      exact absurd (hb _ hm) (by decide)
  induction h with
  | nil hb => exact hblank hb
  | @cons ws b w r hb h0 hw hr ih =>
    have h1 := hblank hb
    have h2 : '\n' ∉ w := fun hm => (hw.2 _ hm).2.2.2.1 rfl
    have h3 : '#' ∉ w := fun hm => (hw.2 _ hm).2.2.2.2.1 rfl
    simp [h1.1, h1.2, h2, h3, ih.1, ih.2]

theorem Spaced.entries {ws : List (List Char)} {r : List Char} (h : Spaced ws r) : ∀ w ∈ ws, Entry w := by
  induction h with
  | nil => simp
  | cons _ _ hw _ ih =>
    intro x hx
    rcases List.mem_cons.mp hx with rfl | hx
    · exact hw
    · exact ih x hx

/-- The common shape of `setLine` and `constraintLine`. -/
def keyedLine {α : Type} (start : List Char) (val : List (List Char) → Option α) (m : List (String × α)) (text : List Char) :
    Option (List (String × α)) :=
  if start.isPrefixOf (withoutComment text) then
    match tokenize isWhite (withoutComment text) with
    | _ :: key :: ws => (val ws).map fun x => assignKey m (String.ofList key) x
    | _ => none
  else some m

theorem setLine_keyed {K : Type} (pt : ParameterTransform K) :
    setLine pt = keyedLine "parameterset".toList fun ws => ws.foldlM (addMember pt) ParameterSet.empty := rfl

theorem constraintLine_keyed {K : Type} (read : List Char → Option K) (pt : ParameterTransform K) :
    constraintLine read pt = keyedLine "poseconstraints".toList fun ws => ws.foldlM (addItem read pt) [] := rfl

section
variable {α : Type} {start : List Char} {val : List (List Char) → Option α}

theorem keyedLine_line (hs : ∀ c ∈ start, isWhite c = false ∧ c ≠ '#') (h0 : start ≠ []) {key : List Char} {ws : List (List Char)}
    {t comment : List Char} (ht : Spaced (key :: ws) t) (hc : comment = [] ∨ ∃ c, comment = '#' :: c ∧ '\n' ∉ c) (m : List (String × α)) :
    keyedLine start val m (start ++ t ++ comment) = (val ws).map fun x => assignKey m (String.ofList key) x := by
  have hline : withoutComment (start ++ t ++ comment) = start ++ t := by
    refine withoutComment_plain ?_ ?_
    · intro hm
      rcases List.mem_append.mp hm with hm | hm
      · exact (hs _ hm).2 rfl
      · exact ht.clean.2 hm
    · rcases hc with h | ⟨c, h, _⟩
      · exact Or.inl h
      · exact Or.inr ⟨c, h⟩
  have htok := tokenize_head (fun c hc => (hs c hc).1) h0 ht.start ht.tokens
  unfold keyedLine
  rw [hline, if_pos (by simp), htok]

theorem keyed_ok (hs : ∀ c ∈ start, isWhite c = false ∧ c ≠ '#') (h0 : start ≠ []) {ls : List (List Char × List (List Char))}
    {text : List Char} (h : KeyedText start ls text) {f : List (List Char) → α} (hv : ∀ e ∈ ls, val e.2 = some (f e.2)) :
    ∀ m, (getLines text).foldlM (keyedLine start val) m =
      some (ls.foldl (fun m e => assignKey m (String.ofList e.1) (f e.2)) m) := by
  have hnl : '\n' ∉ start := fun hm => absurd (hs _ hm).1 (by decide)
  induction h with
  | nil => intro m; rfl
  | @line ls key ws t comment r ht hc hr ih =>
    intro m
    have hline : '\n' ∉ start ++ t ++ comment := by
      have h1 := ht.clean.1
      have h2 : '\n' ∉ comment := by
        rcases hc with rfl | ⟨c, rfl, hn⟩
        · simp
        · simp [hn]
      simp [hnl, h1, h2]
    rw [LimitsText.getLines_cons hline, List.foldlM_cons, keyedLine_line hs h0 ht hc, hv (key, ws) (List.mem_cons_self ..)]
    exact ih (fun e he => hv e (List.mem_cons_of_mem _ he)) _
  | @other ls s r hn hp hr ih =>
    intro m
    rw [LimitsText.getLines_cons hn, List.foldlM_cons]
    have : keyedLine start val m s = some m := by
      unfold keyedLine
      rw [if_neg]
      rw [List.isPrefixOf_iff_prefix]
      exact hp
    rw [this]
    exact ih hv m

/-- A line whose words have no value is an exception. -/
theorem keyed_throws (hs : ∀ c ∈ start, isWhite c = false ∧ c ≠ '#') (h0 : start ≠ []) {ls : List (List Char × List (List Char))}
    {text : List Char} (h : KeyedText start ls text) {e : List Char × List (List Char)} (he : e ∈ ls) (hv : val e.2 = none) :
    ∀ m, (getLines text).foldlM (keyedLine start val) m = none := by
  have hnl : '\n' ∉ start := fun hm => absurd (hs _ hm).1 (by decide)
  induction h with
  | nil => simp at he
  | @line ls key ws t comment r ht hc hr ih =>
    intro m
    have hline : '\n' ∉ start ++ t ++ comment := by
      have h1 := ht.clean.1
      have h2 : '\n' ∉ comment := by
        rcases hc with rfl | ⟨c, rfl, hn⟩
        · simp
        · simp [hn]
      simp [hnl, h1, h2]
    rw [LimitsText.getLines_cons hline, List.foldlM_cons, keyedLine_line hs h0 ht hc]
    rcases List.mem_cons.mp he with rfl | he
    · rw [hv]; rfl
    · cases hx : val ws with
      | none => rfl
      | some x => exact ih he _
  | @other ls s r hn hp hr ih =>
    intro m
    rw [LimitsText.getLines_cons hn, List.foldlM_cons]
    have : keyedLine start val m s = some m := by
      unfold keyedLine
      rw [if_neg]
      rw [List.isPrefixOf_iff_prefix]
      exact hp
    rw [this]
    exact ih he m

theorem ofList_inj {a b : List Char} (h : String.ofList a = String.ofList b) : a = b := by
  have := congrArg String.toList h
  simpa using this

/-- Which values the map holds in the end. -/
theorem mem_assigned {f : List (List Char) → α} (ls : List (List Char × List (List Char))) (m : List (String × α)) (key : List Char) (x : α) :
    (String.ofList key, x) ∈ ls.foldl (fun m e => assignKey m (String.ofList e.1) (f e.2)) m ↔
      (∃ ws, LastLine ls key ws ∧ x = f ws) ∨ ((∀ e ∈ ls, e.1 ≠ key) ∧ (String.ofList key, x) ∈ m) := by
  induction ls generalizing m with
  | nil =>
    simp only [List.foldl_nil, List.not_mem_nil, false_implies, implies_true, true_and]
    constructor
    · exact Or.inr
    · rintro (⟨ws, ⟨pre, post, h, _⟩, _⟩ | h)
      · simp at h
      · exact h
  | cons e ls ih =>
    rw [List.foldl_cons, ih]
    have hmem : (String.ofList key, x) ∈ assignKey m (String.ofList e.1) (f e.2) ↔
        (e.1 ≠ key ∧ (String.ofList key, x) ∈ m) ∨ (e.1 = key ∧ x = f e.2) := by
      unfold assignKey
      rw [List.mem_append, List.mem_filter, List.mem_singleton]
      by_cases hk : e.1 = key
      · subst hk; simp
      · have : ¬ String.ofList key = String.ofList e.1 := fun h => hk (ofList_inj h).symm
        simp [hk, this]
    rw [hmem]
    constructor
    · rintro (⟨ws, ⟨pre, post, h1, h2⟩, hx⟩ | ⟨h1, (⟨h2, h3⟩ | ⟨h2, h3⟩)⟩)
      · exact Or.inl ⟨ws, ⟨e :: pre, post, by rw [h1]; rfl, h2⟩, hx⟩
      · refine Or.inr ⟨?_, h3⟩
        intro d hd
        rcases List.mem_cons.mp hd with rfl | hd
        · exact h2
        · exact h1 d hd
      · refine Or.inl ⟨e.2, ⟨[], ls, by rw [← h2]; rfl, h1⟩, h3⟩
    · rintro (⟨ws, ⟨pre, post, h1, h2⟩, hx⟩ | ⟨h1, h2⟩)
      · cases pre with
        | nil =>
          rw [List.nil_append, List.cons.injEq] at h1
          obtain ⟨rfl, rfl⟩ := h1
          exact Or.inr ⟨h2, Or.inr ⟨rfl, hx⟩⟩
        | cons p pre =>
          rw [List.cons_append, List.cons.injEq] at h1
          exact Or.inl ⟨ws, ⟨pre, post, h1.2, h2⟩, hx⟩
      · exact Or.inr ⟨fun d hd => h1 d (List.mem_cons_of_mem _ hd), Or.inl ⟨h1 e (by simp), h2⟩⟩

end

section
variable {K : Type}

theorem Entry.trim {w : List Char} (h : Entry w) : TransformText.trim w = w := by
  have := trim_exact (a := []) (b := []) (w := w) (by intro c h; simp at h) (by intro c h; simp at h) (by
    intro c hc
    have hm : c ∈ w := by
      rcases hc with h | h
      · exact List.mem_of_head? h
      · exact List.mem_of_getLast? h
    have := h.2 c hm
    exact ⟨this.1, this.2.1, this.2.2.2.2.2⟩) h.1
  simpa using this

theorem parameterIndex_iff {pt : ParameterTransform K} {w : List Char} {i : Nat} : parameterIndex pt w = some i ↔ IsParameter pt i w := by
  unfold parameterIndex
  constructor
  · intro h
    obtain ⟨h1, h2, h3⟩ := List.findIdx?_eq_some_iff_getElem.mp h
    refine ⟨⟨_, List.getElem?_eq_getElem h1, by simpa using h2⟩, fun k hk n hn => ?_⟩
    have := h3 k hk
    obtain ⟨_, e⟩ := List.getElem?_eq_some_iff.mp hn
    rw [e] at this
    simpa using this
  · rintro ⟨⟨n, h1, h2⟩, h3⟩
    exact LimitsText.findIdx?_first _ h1 (by simp [h2]) fun k hk y hy => by simp [h3 k hk y hy]

theorem parameterIndex_none {pt : ParameterTransform K} {w : List Char} :
    parameterIndex pt w = none ↔ ∀ n ∈ pt.name, n.toList ≠ w := by
  simp [parameterIndex, List.findIdx?_eq_none_iff]

/-- The set of the parameters with these names. -/
def membersOf (pt : ParameterTransform K) (ps : ParameterSet) (ws : List (List Char)) : ParameterSet :=
  fun i => ps i || ws.any fun w => parameterIndex pt w = some i.val

theorem addMember_fold (pt : ParameterTransform K) {ws : List (List Char)} (hw : ∀ w ∈ ws, Entry w)
    (hk : ∀ w ∈ ws, ∃ i, IsParameter pt i w ∧ i < kMaxModelParams) (ps : ParameterSet) :
    ws.foldlM (addMember pt) ps = some (membersOf pt ps ws) := by
  induction ws generalizing ps with
  | nil =>
    simp only [List.foldlM_nil]
    refine congrArg some ?_
    funext i
    simp [membersOf]
  | cons w ws ih =>
    obtain ⟨i, h1, h2⟩ := hk w (by simp)
    have hi := parameterIndex_iff.mpr h1
    have : addMember pt ps w = some (fun j => if j.val = i then true else ps j) := by
      rw [addMember, (hw w (by simp)).trim, hi]
      exact if_pos h2
    rw [List.foldlM_cons, this]
    refine (ih (fun x hx => hw x (List.mem_cons_of_mem _ hx)) (fun x hx => hk x (List.mem_cons_of_mem _ hx)) _).trans ?_
    refine congrArg some ?_
    funext j
    simp only [membersOf, List.any_cons, hi]
    by_cases e : j.val = i
    · simp [e]
    · have e' : ¬ i = j.val := fun h => e h.symm
      simp [e, e']

theorem addMember_none (pt : ParameterTransform K) {ws : List (List Char)} (hw : ∀ w ∈ ws, Entry w)
    {w : List Char} (hm : w ∈ ws) (hk : ∀ n ∈ pt.name, n.toList ≠ w) (ps : ParameterSet) :
    ws.foldlM (addMember pt) ps = none := by
  induction ws generalizing ps with
  | nil => simp at hm
  | cons x ws ih =>
    rw [List.foldlM_cons]
    rcases List.mem_cons.mp hm with rfl | hm
    · have : addMember pt ps w = none := by
        simp [addMember, (hw w (by simp)).trim, parameterIndex_none.mpr hk]
      rw [this]
      rfl
    · cases hx : addMember pt ps x with
      | none => rfl
      | some ps' => exact ih (fun y hy => hw y (List.mem_cons_of_mem _ hy)) hm ps'

theorem addItem_fold {read : List Char → Option K} {pt : ParameterTransform K} {ws : List (List Char)} {xs : List (Nat × K)}
    (h : Items read pt ws xs) (hw : ∀ w ∈ ws, Entry w) (acc : List (Nat × K)) :
    ws.foldlM (addItem read pt) acc = some (acc ++ xs) := by
  induction h generalizing acc with
  | nil => simp
  | @cons ws xs n v i x h1 h2 h3 h4 h5 h6 _ ih =>
    have htok : tokenize (· = '=') (n ++ '=' :: v) = [n, v] := by
      rw [tokenize_cons _ _ (fun c hc => ?_) (by simp) h3, tokenize_none _ (fun c hc => ?_) h4]
      · simp only [decide_eq_false_iff_not]; intro e; exact h2 (e ▸ hc)
      · simp only [decide_eq_false_iff_not]; intro e; exact h1 (e ▸ hc)
    have : addItem read pt acc (n ++ '=' :: v) = some (acc ++ [(i, x)]) := by
      have ht : TransformText.trim (n ++ '=' :: v) = n ++ '=' :: v := (hw _ (List.mem_cons_self ..)).trim
      simp only [addItem, ht, htok, parameterIndex_iff.mpr h5, h6, Option.bind_some, Option.map_some]
    rw [List.foldlM_cons, this]
    refine (ih (fun y hy => hw y (List.mem_cons_of_mem _ hy)) _).trans ?_
    simp
  | @skip ws xs w h1 _ ih =>
    have he := hw w (List.mem_cons_self ..)
    have htok : tokenize (· = '=') w = [w] := tokenize_none _ (fun c hc => by
      simp only [decide_eq_false_iff_not]; intro e; exact h1 (e ▸ hc)) he.1
    have : addItem read pt acc w = some acc := by
      simp only [addItem, he.trim, htok]
    rw [List.foldlM_cons, this]
    exact ih (fun y hy => hw y (List.mem_cons_of_mem _ hy)) acc

theorem KeyedText.entries {start : List Char} {ls : List (List Char × List (List Char))} {text : List Char} (h : KeyedText start ls text) :
    ∀ e ∈ ls, ∀ w ∈ e.2, Entry w := by
  induction h with
  | nil => simp
  | line ht _ _ ih =>
    intro e he w hw
    rcases List.mem_cons.mp he with rfl | he
    · exact ht.entries w (List.mem_cons_of_mem _ hw)
    · exact ih e he w hw
  | other _ _ _ ih => exact ih

end
end Momentum.TransformText
