import Verif.Lemmas.LineReader

/-! Helper lemmas for C87: what a line says, and sections. -/

namespace Momentum.LineReader

open TransformText (Blank trim assignKey isBlank)
open LimitsText (withoutComment)

theorem trim_blank {b : List Char} (h : Blank b) : trim b = [] := by
  unfold trim
  have : b.reverse.dropWhile isBlank = [] := by
    rw [List.dropWhile_eq_nil_iff]
    exact fun c hc => h.isBlank c (by simpa using hc)
  rw [this]
  rfl

theorem Blank.append {a b : List Char} (ha : Blank a) (hb : Blank b) : Blank (a ++ b) := by
  intro c hc
  rcases List.mem_append.mp hc with h | h
  · exact ha c h
  · exact hb c h

theorem Blank.noHash {b : List Char} (hb : Blank b) : '#' ∉ b := fun h => absurd (hb _ h) (by decide)

theorem Says.clean {l w : List Char} (h : Says l w) : trim (withoutComment l) = w := by
  cases h with
  | @mk a _ b c ha hb hw he hc =>
    rw [TransformText.withoutComment_plain (by
      simp [Blank.noHash ha, Blank.noHash hb, hw]) hc]
    by_cases h0 : w = []
    · subst h0
      rw [List.append_nil]
      exact trim_blank (Blank.append ha hb)
    · exact TransformText.trim_exact ha hb he h0

theorem Heading.sectionName {n w : List Char} (h : Heading n w) : LineReader.sectionName w = some n := by
  obtain ⟨rfl, h0, hw⟩ := h
  unfold LineReader.sectionName
  refine (if_pos ⟨rfl, by simp, ?_, ?_⟩).trans ?_
  · rw [List.dropLast_concat]
  · rw [List.dropLast_concat]; exact h0
  · rw [List.dropLast_concat, List.all_eq_true]
    intro c hc
    simpa [isWordChar] using hw c hc

theorem sectionName_none {w : List Char} (h : ∀ n, ¬ Heading n w) : sectionName w = none := by
  cases w with
  | nil => rfl
  | cons c r =>
    unfold sectionName
    refine if_neg ?_
    rintro ⟨rfl, h1, h2, h3⟩
    refine h r.dropLast ⟨?_, h2, ?_⟩
    · congr 1
      obtain ⟨h4, h5⟩ := List.getLast?_eq_some_iff.mp h1
      rw [h5, List.dropLast_concat]
    · intro c hc
      have := List.all_eq_true.mp h3 c hc
      simpa [isWordChar] using this

theorem sectionLine_empty {l : List Char} (h : Says l []) (s : SectionState) : sectionLine s l = s := by
  simp [sectionLine, h.clean]

theorem sectionLine_heading {l w n : List Char} (h : Says l w) (hn : Heading n w) (s : SectionState) :
    sectionLine s l = { result := s.store, name := n, content := [] } := by
  have h0 : w ≠ [] := by rw [hn.1]; simp
  simp only [sectionLine, h.clean, if_neg h0, hn.sectionName]

theorem sectionLine_outside {l w : List Char} (h : Says l w) (hn : ∀ n, ¬ Heading n w) {s : SectionState} (hs : s.name = []) :
    sectionLine s l = s := by
  simp [sectionLine, h.clean, sectionName_none hn, hs]

theorem sectionLine_inside {l w : List Char} (h : Says l w) (h0 : w ≠ []) (hn : ∀ n, ¬ Heading n w) {s : SectionState} (hs : s.name ≠ []) :
    sectionLine s l = { s with content := s.content ++ (w ++ ['\n']) } := by
  simp [sectionLine, h.clean, sectionName_none hn, hs, h0]

theorem Plain.outside {ls : List (List Char)} {t : List Char} (h : Plain ls t) {s : SectionState} (hs : s.name = []) :
    ls.foldl sectionLine s = s := by
  induction h with
  | nil => rfl
  | empty hl _ ih => rw [List.foldl_cons, sectionLine_empty hl, ih]
  | line hl _ hn _ ih => rw [List.foldl_cons, sectionLine_outside hl hn hs, ih]

theorem Plain.inside {ls : List (List Char)} {t : List Char} (h : Plain ls t) {s : SectionState} (hs : s.name ≠ []) :
    ls.foldl sectionLine s = { s with content := s.content ++ t } := by
  induction h generalizing s with
  | nil => simp
  | empty hl _ ih => rw [List.foldl_cons, sectionLine_empty hl, ih hs]
  | line hl h0 hn _ ih =>
    rw [List.foldl_cons, sectionLine_inside hl h0 hn hs, ih (by exact hs)]
    simp

theorem Sections.store {ls : List (List Char)} {ds : List (List Char × List Char)} (h : Sections ls ds) (s : SectionState) :
    (ls.foldl sectionLine s).store = ds.foldl (fun m d => assignKey m (String.ofList d.1) d.2) s.store := by
  induction h generalizing s with
  | nil => rfl
  | @cons l w n t ls rest ds hl hn hp _ ih =>
    rw [List.foldl_cons, List.foldl_append, sectionLine_heading hl hn, hp.inside (by exact hn.2.1), ih, List.foldl_cons]
    congr 1
    simp [SectionState.store, hn.2.1]

/-- Which sections the map holds in the end. -/
theorem mem_stored (ds : List (List Char × List Char)) (m : List (String × List Char)) (k : String) (x : List Char) :
    (k, x) ∈ ds.foldl (fun m d => assignKey m (String.ofList d.1) d.2) m ↔
      lastSection ds k = some x ∨ (lastSection ds k = none ∧ (k, x) ∈ m) := by
  induction ds generalizing m with
  | nil => simp [lastSection]
  | cons d ds ih =>
    rw [List.foldl_cons, ih]
    have hl : lastSection (d :: ds) k = (lastSection ds k).or (if String.ofList d.1 = k then some d.2 else none) := by
      unfold lastSection
      rw [List.reverse_cons, List.find?_append]
      cases hf : List.find? (fun d => decide (String.ofList d.1 = k)) ds.reverse with
      | some y => rfl
      | none => by_cases hk : String.ofList d.1 = k <;> simp [hk]
    rw [hl]
    unfold assignKey
    rw [List.mem_append, List.mem_filter, List.mem_singleton, Prod.mk.injEq]
    cases hx : lastSection ds k with
    | some y => simp
    | none =>
      by_cases hk : String.ofList d.1 = k
      · subst hk
        simp
        exact eq_comm
      · simp [hk, Ne.symm hk]

theorem keys_stored (ds : List (List Char × List Char)) {m : List (String × List Char)} (hm : (m.map Prod.fst).Nodup) :
    ((ds.foldl (fun m d => assignKey m (String.ofList d.1) d.2) m).map Prod.fst).Nodup := by
  induction ds generalizing m with
  | nil => exact hm
  | cons d ds ih =>
    rw [List.foldl_cons]
    refine ih ?_
    unfold assignKey
    rw [List.map_append, List.map_singleton, List.nodup_append]
    refine ⟨?_, by simp, ?_⟩
    · exact hm.sublist (List.Sublist.map _ List.filter_sublist)
    · intro a ha b hb
      rw [List.mem_singleton] at hb
      subst hb
      obtain ⟨e, he, rfl⟩ := List.mem_map.mp ha
      simpa using (List.mem_filter.mp he).2

theorem Content.data {ls : List (List Char)} {t : List Char} (h : Content ls t) (d : List Char) : ls.foldl definitionLine d = d ++ t := by
  induction h generalizing d with
  | nil => simp
  | empty hl _ ih => rw [List.foldl_cons, show definitionLine d _ = d by simp [definitionLine, hl.clean], ih]
  | @line l w ls t hl h0 _ ih =>
    rw [List.foldl_cons, show definitionLine d l = d ++ (w ++ ['\n']) by simp [definitionLine, hl.clean, h0], ih]
    simp

/-- Every line without zero characters says something. -/
theorem says_total {l : List Char} (h : '\x00' ∉ l) : ∃ w, Says l w := by
  have hl : l = l.takeWhile (· ≠ '#') ++ l.dropWhile (· ≠ '#') := List.takeWhile_append_dropWhile.symm
  have hc : l.dropWhile (· ≠ '#') = [] ∨ ∃ s, l.dropWhile (· ≠ '#') = '#' :: s := by
    cases hd : l.dropWhile (· ≠ '#') with
    | nil => exact Or.inl rfl
    | cons c s =>
      have := List.head?_dropWhile_not (fun c => decide (c ≠ '#')) l
      rw [hd] at this
      exact Or.inr ⟨s, by simpa using this⟩
  have hp : ∀ c ∈ l.takeWhile (· ≠ '#'), c ≠ '#' ∧ c ≠ '\x00' := by
    intro c hc
    refine ⟨by simpa using List.mem_takeWhile_imp hc, ?_⟩
    rintro rfl
    exact h ((List.takeWhile_prefix _).subset hc)
  generalize l.takeWhile (· ≠ '#') = p at hl hp
  generalize l.dropWhile (· ≠ '#') = c at hl hc
  have hblank : ∀ {x : Char} {s : List Char}, x ∈ s.takeWhile isBlank → (∀ c ∈ s, c ≠ '#' ∧ c ≠ '\x00') → x = ' ' ∨ x = '\t' := by
    intro x s hx hs
    have h1 := List.mem_takeWhile_imp hx
    have h2 := (hs x ((List.takeWhile_prefix _).subset hx)).2
    simpa [isBlank, h2] using h1
  -- blanks in front, then blanks behind
  have h1 : p = p.takeWhile isBlank ++ p.dropWhile isBlank := List.takeWhile_append_dropWhile.symm
  have ha : Blank (p.takeWhile isBlank) := fun x hx => hblank hx hp
  have hh := List.head?_dropWhile_not isBlank p
  have hq : ∀ c ∈ p.dropWhile isBlank, c ≠ '#' ∧ c ≠ '\x00' := fun c hc => hp c ((List.dropWhile_suffix _).subset hc)
  generalize p.takeWhile isBlank = a at h1 ha
  generalize p.dropWhile isBlank = q at h1 hh hq
  have h2 : q = (q.reverse.dropWhile isBlank).reverse ++ (q.reverse.takeWhile isBlank).reverse := by
    rw [← List.reverse_append, List.takeWhile_append_dropWhile, List.reverse_reverse]
  have hb : Blank (q.reverse.takeWhile isBlank).reverse := fun x hx =>
    hblank (List.mem_reverse.mp hx) (fun c hc => hq c (List.mem_reverse.mp hc))
  have hg := List.head?_dropWhile_not isBlank q.reverse
  generalize q.reverse.dropWhile isBlank = w at h2 hg
  generalize (q.reverse.takeWhile isBlank).reverse = b at h2 hb
  refine ⟨w.reverse, ?_⟩
  have hw : '#' ∉ w.reverse := by
    intro hm
    exact (hq '#' (by rw [h2]; exact List.mem_append_left _ hm)).1 rfl
  have hnb : ∀ x, isBlank x = false → x ≠ ' ' ∧ x ≠ '\t' ∧ x ≠ '\x00' := by
    intro x hx
    simpa [isBlank, not_or, and_assoc] using hx
  rw [hl, h1, h2, ← List.append_assoc a]
  refine Says.mk ha hb hw ?_ hc
  intro x hx
  apply hnb
  rcases hx with hx | hx
  · rw [h2, List.head?_append, hx] at hh
    simpa using hh
  · rw [List.getLast?_reverse] at hx
    rw [hx] at hg
    simpa using hg

theorem content_total {ls : List (List Char)} (h : ∀ l ∈ ls, '\x00' ∉ l) : ∃ t, Content ls t := by
  induction ls with
  | nil => exact ⟨[], .nil⟩
  | cons l ls ih =>
    obtain ⟨t, ht⟩ := ih fun x hx => h x (List.mem_cons_of_mem _ hx)
    obtain ⟨w, hw⟩ := says_total (h l (by simp))
    by_cases h0 : w = []
    · subst h0
      exact ⟨t, .empty hw ht⟩
    · exact ⟨_, .line hw h0 ht⟩

/-- Every list of lines starts with lines before the first heading, and goes on with sections. -/
theorem sections_total {ls : List (List Char)} (h : ∀ l ∈ ls, '\x00' ∉ l) :
    ∃ pre t rest ds, ls = pre ++ rest ∧ Plain pre t ∧ Sections rest ds := by
  induction ls with
  | nil => exact ⟨[], [], [], [], rfl, .nil, .nil⟩
  | cons l ls ih =>
    obtain ⟨pre, t, rest, ds, h1, h2, h3⟩ := ih fun x hx => h x (List.mem_cons_of_mem _ hx)
    obtain ⟨w, hw⟩ := says_total (h l (by simp))
    by_cases h0 : w = []
    · subst h0
      exact ⟨l :: pre, t, rest, ds, by rw [h1]; rfl, .empty hw h2, h3⟩
    · by_cases hn : ∃ n, Heading n w
      · obtain ⟨n, hn⟩ := hn
        exact ⟨[], [], l :: ls, (n, t) :: ds, rfl, .nil, h1 ▸ .cons hw hn h2 h3⟩
      · exact ⟨l :: pre, w ++ '\n' :: t, rest, ds, by rw [h1]; rfl, .line hw h0 (fun n hn' => hn ⟨n, hn'⟩) h2, h3⟩

end Momentum.LineReader
