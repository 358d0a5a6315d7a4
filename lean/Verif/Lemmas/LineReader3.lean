import Verif.Lemmas.LineReader2

/-! Helper lemmas for C87: how a text ends. -/

namespace Momentum.LineReader

open TransformText (Blank trim)

theorem getLast_append_cons (l : List Char) (c : Char) (t : List Char) :
    (l ++ c :: t).getLast? = some ((t.getLast?).getD c) := by
  rw [List.getLast?_append_of_ne_nil _ (by simp), List.getLast?_cons]

theorem Lines.noReturn {ls : List (List Char)} {t r : List Char} (h : Lines ls t r) (hr : OnLine r) : t.getLast? ≠ some '\r' := by
  induction h with
  | nil => exact fun e => hr.2 (List.mem_of_getLast? e)
  | @lf l t r ls hl _ ih =>
    rw [getLast_append_cons]
    cases ht : t.getLast? with
    | none => simp
    | some c => simpa [ht] using ih hr
  | @crlf l t r ls hl _ ih =>
    rw [getLast_append_cons, List.getLast?_cons]
    cases ht : t.getLast? with
    | none => simp
    | some c => simpa [ht] using ih hr
  | @cr l t r ls hl _ h0 _ ih =>
    rw [getLast_append_cons]
    cases ht : t.getLast? with
    | none => exact absurd (List.getLast?_eq_none_iff.mp ht) h0
    | some c => simpa [ht] using ih hr

theorem Lines.return {ls : List (List Char)} {t l : List Char} (h : Lines ls t (l ++ ['\r'])) : t.getLast? = some '\r' := by
  generalize hr : l ++ ['\r'] = r at h
  induction h with
  | nil => rw [← hr]; simp
  | lf _ _ ih => rw [getLast_append_cons, ih hr]; rfl
  | crlf _ _ ih => rw [getLast_append_cons, List.getLast?_cons, ih hr]; rfl
  | cr _ _ _ _ ih => rw [getLast_append_cons, ih hr]; rfl

/-- What the first line of a text is. -/
theorem headerLine {h r : List Char} (ho : OnLine h) (hr : r = [] ∨ ∃ c s, r = c :: s ∧ (c = '\n' ∨ c = '\r')) :
    (getLine (Stream.ofText (h ++ r))).1 = h := by
  rw [getLine_ofText, getLoop_append ho]
  rcases hr with rfl | ⟨c, s, rfl, rfl | rfl⟩
  · rw [getLoop.eq_1, List.append_nil]
  · rw [getLoop_lf, List.append_nil]
  · have : (getLoop ('\r' :: s)).1 = [] := by rw [getLoop.eq_2, if_neg (by decide), if_pos rfl]
    simp [this]

section
variable {σ : Type} (f : σ → List Char → σ)

/-- The loop over lines with a body that always succeeds, after the first line of a text. -/
theorem pureLoop_lines {l r text : List Char} {ls : List (List Char)} (h : Lines (l :: ls) text r) (hr : OnLine r) (x : σ) :
    lineLoop (fun s l => .ok (f s l)) x (getLine (Stream.ofText text)).2 = some (.ok (ls.foldl f x)) := by
  obtain ⟨t', h1, h2⟩ := h.getLine
  rw [h1]
  dsimp only
  rw [lineLoop_lines _ h2, stepsOf_ok]
  exact lineLoop_rest _ _ hr

theorem pureLoop_none_iff (text : List Char) (x : σ) :
    lineLoop (fun s l => .ok (f s l)) x (getLine (Stream.ofText text)).2 = none ↔ text.getLast? = some '\r' := by
  have hb : ∀ y : σ, ∃ z, (fun s l => Outcome.ok (f s l)) y [] = .ok z := fun y => ⟨_, rfl⟩
  obtain ⟨ls, r, h, hr⟩ := lines_total text
  rcases hr with hr | ⟨l, hl, rfl⟩
  · refine iff_of_false ?_ (h.noReturn hr)
    cases ls with
    | nil =>
      cases h
      have h1 : getLine (Stream.ofText text) = (text, ⟨[], true, true⟩) := by
        have := getLoop_append (t := []) hr
        rw [List.append_nil] at this
        rw [getLine_ofText, this, getLoop.eq_1, List.append_nil]
      rw [h1, lineLoop.eq_1]
      simp [getLine]
    | cons l ls =>
      rw [pureLoop_lines f h hr]
      simp
  · refine iff_of_true ?_ h.return
    cases ls with
    | nil =>
      cases h
      have h1 : getLine (Stream.ofText (l ++ ['\r'])) = (l, ⟨[], true, false⟩) := by
        rw [getLine_ofText, getLoop_append hl]
        rw [show getLoop ['\r'] = ([], ⟨[], true, false⟩) from rfl, List.append_nil]
      rw [h1]
      exact lineLoop_stuck _ hb x
    | cons l' ls =>
      obtain ⟨t', h1, h2⟩ := h.getLine
      rw [h1]
      dsimp only
      rw [lineLoop_lines _ h2, stepsOf_ok]
      exact lineLoop_cr _ hb _ hl

end

end Momentum.LineReader
