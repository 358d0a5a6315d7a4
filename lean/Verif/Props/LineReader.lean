import Verif.Lemmas.LineReader3

/-! # C87: files that are read line by line -/

namespace Momentum.LineReader

open TransformText (Blank trim)

theorem IsHeader.trim {h : List Char} (hh : IsHeader h) : TransformText.trim h = "Momentum Model Definition V1.0".toList := by
  obtain ⟨a, b, ha, hb, rfl⟩ := hh
  refine TransformText.trim_exact ha hb ?_ (by decide)
  intro c hc
  have : c = 'M' ∨ c = '0' := by
    rcases hc with hc | hc
    · left
      have h2 : magic.head? = some 'M' := by decide
      exact Option.some.inj (hc.symm.trans h2)
    · right
      have h2 : magic.getLast? = some '0' := by decide
      exact Option.some.inj (hc.symm.trans h2)
  rcases this with rfl | rfl <;> decide

/-- A model file in which every line has a line end, be it `\n`, `\r\n` or `\r`: the result has exactly the sections of the file, each
with the text of its lines without comments, blanks around and empty lines; of several sections with one name the last one counts.
Lines before the first section are ignored.
Missing: files without a line end after the last line, see `C87_last_line_lost`, and files that end with `\r`, see
`C87_never_ends`. -/
theorem C87_sections_partial {h : List Char} {pre rest : List (List Char)} {t text : List Char} {ds : List (List Char × List Char)}
    (hl : Lines (h :: (pre ++ rest)) text []) (hh : IsHeader h) (hp : Plain pre t) (hs : Sections rest ds) :
    ∃ m, loadMomentumModel text = some (.ok m) ∧ (m.map Prod.fst).Nodup ∧ ∀ k x, (k, x) ∈ m ↔ lastSection ds k = some x := by
  refine ⟨ds.foldl (fun m d => TransformText.assignKey m (String.ofList d.1) d.2) [], ?_, keys_stored ds (by simp), ?_⟩
  · unfold loadMomentumModel
    have h1 : (getLine (Stream.ofText text)).1 = h := by
      obtain ⟨t', h1, -⟩ := hl.getLine
      rw [h1]
    dsimp only
    rw [h1, if_neg (by rw [hh.trim]; simp), pureLoop_lines sectionLine hl ⟨by simp, by simp⟩]
    simp only [thenStep]
    rw [List.foldl_append, hp.outside rfl, hs.store]
    rfl
  · intro k x
    rw [mem_stored]
    simp

/-- Every list of lines (without zero characters) has sections. -/
theorem C87_sections_exist {ls : List (List Char)} (h : ∀ l ∈ ls, '\x00' ∉ l) :
    ∃ pre t rest ds, ls = pre ++ rest ∧ Plain pre t ∧ Sections rest ds := sections_total h

/-- Every text is made of lines and a rest that has no line end or only a `\r` at its end. -/
theorem C87_lines_exist (text : List Char) : ∃ ls r, Lines ls text r ∧ (OnLine r ∨ ∃ l, OnLine l ∧ r = l ++ ['\r']) := lines_total text

/-- A definition file in which every line has a line end: what is parsed is the text of the lines after the first, without comments,
blanks around and empty lines. -/
theorem C87_definition_partial {l : List Char} {ls : List (List Char)} {t text : List Char} (hl : Lines (l :: ls) text [])
    (hc : Content ls t) : definitionData text = some (.ok t) := by
  unfold definitionData
  rw [pureLoop_lines definitionLine hl ⟨by simp, by simp⟩, hc.data]
  rfl

/-- Two files with the same lines and different line ends are read alike. -/
theorem C87_line_ends {l : List Char} {ls : List (List Char)} {text text' : List Char} (h : Lines (l :: ls) text []) (h' : Lines (l :: ls) text' []) :
    loadMomentumModel text = loadMomentumModel text' ∧ definitionData text = definitionData text' := by
  have ho : OnLine ([] : List Char) := ⟨by simp, by simp⟩
  constructor
  · unfold loadMomentumModel
    have h1 : (getLine (Stream.ofText text)).1 = l := by obtain ⟨t', h1, -⟩ := h.getLine; rw [h1]
    have h2 : (getLine (Stream.ofText text')).1 = l := by obtain ⟨t', h1, -⟩ := h'.getLine; rw [h1]
    dsimp only
    rw [h1, h2, pureLoop_lines sectionLine h ho, pureLoop_lines sectionLine h' ho]
  · unfold definitionData
    rw [pureLoop_lines definitionLine h ho, pureLoop_lines definitionLine h' ho]

/-- A file with another first line has no sections. -/
theorem C87_other_header {h r : List Char} (ho : OnLine h) (hr : r = [] ∨ ∃ c s, r = c :: s ∧ (c = '\n' ∨ c = '\r'))
    (hz : '\x00' ∉ h) (hh : ¬ IsHeader h) : loadMomentumModel (h ++ r) = some (.ok []) := by
  unfold loadMomentumModel
  dsimp only
  rw [headerLine ho hr]
  refine if_pos fun e => hh ?_
  -- the trimmed line determines the line up to blanks
  have hblank : ∀ {x : Char} {s : List Char}, x ∈ s.takeWhile TransformText.isBlank → '\x00' ∉ s → x = ' ' ∨ x = '\t' := by
    intro x s hx hs
    have h1 := List.mem_takeWhile_imp hx
    have h2 : x ≠ '\x00' := by
      rintro rfl
      exact hs ((List.takeWhile_prefix _).subset hx)
    simpa [TransformText.isBlank, h2] using h1
  have h1 : h = (h.reverse.dropWhile TransformText.isBlank).reverse ++ (h.reverse.takeWhile TransformText.isBlank).reverse := by
    rw [← List.reverse_append, List.takeWhile_append_dropWhile, List.reverse_reverse]
  have h2 : (h.reverse.dropWhile TransformText.isBlank).reverse =
      ((h.reverse.dropWhile TransformText.isBlank).reverse).takeWhile TransformText.isBlank ++ TransformText.trim h :=
    List.takeWhile_append_dropWhile.symm
  refine ⟨((h.reverse.dropWhile TransformText.isBlank).reverse).takeWhile TransformText.isBlank,
    (h.reverse.takeWhile TransformText.isBlank).reverse, ?_, ?_, ?_⟩
  · intro x hx
    refine hblank hx ?_
    intro hm
    exact hz (h1 ▸ List.mem_append_left _ hm)
  · intro x hx
    exact hblank (List.mem_reverse.mp hx) (by simpa using hz)
  · rw [e] at h2
    exact h1.trans (congrArg (· ++ _) h2)

/-- The code violates the expectation: a last line without a line end is not read, whatever it says.  The last section of a model file
loses its last line. -/
theorem C87_last_line_lost {l r : List Char} {ls : List (List Char)} {text text' : List Char} (h : Lines (l :: ls) text [])
    (hr : OnLine r) (h' : Lines (l :: ls) text' r) :
    loadMomentumModel text' = loadMomentumModel text ∧ definitionData text' = definitionData text := by
  have ho : OnLine ([] : List Char) := ⟨by simp, by simp⟩
  constructor
  · unfold loadMomentumModel
    have h1 : (getLine (Stream.ofText text)).1 = l := by obtain ⟨t', h1, -⟩ := h.getLine; rw [h1]
    have h2 : (getLine (Stream.ofText text')).1 = l := by obtain ⟨t', h1, -⟩ := h'.getLine; rw [h1]
    dsimp only
    rw [h1, h2, pureLoop_lines sectionLine h ho, pureLoop_lines sectionLine h' hr]
  · unfold definitionData
    rw [pureLoop_lines definitionLine h ho, pureLoop_lines definitionLine h' hr]

/-- The code violates the expectation: the reader of definitions does not end on exactly the files that end with `\r`. -/
theorem C87_definition_never_ends (text : List Char) : definitionData text = none ↔ text.getLast? = some '\r' :=
  pureLoop_none_iff definitionLine text []

/-- The code violates the expectation: neither does the reader of model files. -/
theorem C87_never_ends {h r : List Char} (ho : OnLine h) (hr : r = [] ∨ ∃ c s, r = c :: s ∧ (c = '\n' ∨ c = '\r')) (hh : IsHeader h) :
    loadMomentumModel (h ++ r) = none ↔ (h ++ r).getLast? = some '\r' := by
  rw [← pureLoop_none_iff sectionLine (h ++ r) ⟨[], [], []⟩]
  unfold loadMomentumModel
  dsimp only
  rw [headerLine ho hr, if_neg (by rw [hh.trim]; simp)]
  generalize lineLoop (fun s l => Outcome.ok (sectionLine s l)) ⟨[], [], []⟩ (getLine (Stream.ofText (h ++ r))).2 = o
  cases o with
  | none => simp [thenStep]
  | some v => cases v <;> simp [thenStep]

/-! ## Examples -/

/-- Two sections with the three line ends, a comment and an empty line. -/
example : loadMomentumModel ("Momentum Model Definition V1.0\r\n\r\n[a]\rx = 1 # one\r\n  y\n[b_2]\n").toList =
    some (.ok [("a", "x = 1\ny\n".toList), ("b_2", [])]) := by
  have h : Lines ["Momentum Model Definition V1.0".toList, [], "[a]".toList, "x = 1 # one".toList, "  y".toList, "[b_2]".toList]
      ("Momentum Model Definition V1.0\r\n\r\n[a]\rx = 1 # one\r\n  y\n[b_2]\n").toList [] := by
    refine Lines.crlf (l := "Momentum Model Definition V1.0".toList) (by unfold OnLine; decide) ?_
    refine Lines.crlf (l := []) (by unfold OnLine; decide) ?_
    refine Lines.cr (l := "[a]".toList) (by unfold OnLine; decide) ?_ (by decide) (by decide)
    refine Lines.crlf (l := "x = 1 # one".toList) (by unfold OnLine; decide) ?_
    refine Lines.lf (l := "  y".toList) (by unfold OnLine; decide) ?_
    exact Lines.lf (l := "[b_2]".toList) (by unfold OnLine; decide) .nil
  unfold loadMomentumModel
  have h1 : (getLine (Stream.ofText ("Momentum Model Definition V1.0\r\n\r\n[a]\rx = 1 # one\r\n  y\n[b_2]\n").toList)).1 =
      "Momentum Model Definition V1.0".toList := by obtain ⟨t', h1, -⟩ := h.getLine; rw [h1]
  dsimp only
  rw [h1, if_neg (by decide), pureLoop_lines sectionLine h ⟨by simp, by simp⟩]
  decide

/-- Such lines have the sections of `C87_sections_partial`. -/
example : Sections ["[a]".toList, "x = 1 # one".toList, "[b_2]".toList] [("a".toList, "x = 1\n".toList), ("b_2".toList, [])] := by
  have e1 : Says "[a]".toList "[a]".toList :=
    Says.mk (a := []) (b := []) (c := []) (w := "[a]".toList) (by intro c h; simp at h) (by intro c h; simp at h) (by decide)
      (by intro x hx; simp at hx; rcases hx with rfl | rfl <;> decide) (Or.inl rfl)
  have e2 : Says "x = 1 # one".toList "x = 1".toList :=
    Says.mk (a := []) (b := [' ']) (c := "# one".toList) (w := "x = 1".toList) (by intro c h; simp at h) (by intro c h; simp at h; exact Or.inl h)
      (by decide) (by intro x hx; simp at hx; rcases hx with rfl | rfl <;> decide) (Or.inr ⟨_, rfl⟩)
  have e3 : Says "[b_2]".toList "[b_2]".toList :=
    Says.mk (a := []) (b := []) (c := []) (w := "[b_2]".toList) (by intro c h; simp at h) (by intro c h; simp at h) (by decide)
      (by intro x hx; simp at hx; rcases hx with rfl | rfl <;> decide) (Or.inl rfl)
  refine Sections.cons (ls := ["x = 1 # one".toList]) (rest := ["[b_2]".toList]) (n := "a".toList) (t := "x = 1\n".toList) e1
    ⟨by decide, by decide, by decide⟩ ?_ ?_
  · refine Plain.line (w := "x = 1".toList) (t := []) e2 (by decide) ?_ .nil
    rintro n ⟨h, -⟩
    exact absurd (congrArg List.head? h) (by simp)
  · exact Sections.cons (ls := []) (rest := []) (n := "b_2".toList) (t := []) e3 ⟨by decide, by decide, by decide⟩ .nil .nil

/-- The last line of this file is lost. -/
example : loadMomentumModel ("Momentum Model Definition V1.0\n[a]\nx\ny").toList = some (.ok [("a", "x\n".toList)]) := by
  have h : Lines ["Momentum Model Definition V1.0".toList, "[a]".toList, "x".toList] ("Momentum Model Definition V1.0\n[a]\nx\ny").toList "y".toList := by
    refine Lines.lf (l := "Momentum Model Definition V1.0".toList) (by unfold OnLine; decide) ?_
    refine Lines.lf (l := "[a]".toList) (by unfold OnLine; decide) ?_
    exact Lines.lf (l := "x".toList) (by unfold OnLine; decide) .nil
  unfold loadMomentumModel
  have h1 : (getLine (Stream.ofText ("Momentum Model Definition V1.0\n[a]\nx\ny").toList)).1 = "Momentum Model Definition V1.0".toList := by
    obtain ⟨t', h1, -⟩ := h.getLine; rw [h1]
  dsimp only
  rw [h1, if_neg (by decide), pureLoop_lines sectionLine h (by unfold OnLine; decide)]
  decide

/-- This file is read for ever. -/
example : definitionData ("Momentum Model Definition V1.0\rroot.tx = x\r").toList = none :=
  (C87_definition_never_ends _).mpr (by decide)

end Momentum.LineReader
