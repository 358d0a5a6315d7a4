import Verif.Spec.LineReader
import Verif.Lemmas.TransformSets
import Mathlib.Data.List.TakeWhile

/-! Helper lemmas for C87: lines, loops over lines, and sections. -/

namespace Momentum.LineReader

open TransformText (Blank trim assignKey)
open LimitsText (withoutComment)

theorem OnLine.tail {c : Char} {l : List Char} (h : OnLine (c :: l)) : OnLine l :=
  ⟨fun m => h.1 (List.mem_cons_of_mem _ m), fun m => h.2 (List.mem_cons_of_mem _ m)⟩

theorem getLoop_append {l t : List Char} (h : OnLine l) : getLoop (l ++ t) = (l ++ (getLoop t).1, (getLoop t).2) := by
  induction l with
  | nil => rfl
  | cons c l ih =>
    have h1 : c ≠ '\n' := fun e => h.1 (by simp [e])
    have h2 : c ≠ '\r' := fun e => h.2 (by simp [e])
    rw [List.cons_append, getLoop.eq_2, if_neg h1, if_neg h2, ih h.tail]
    rfl

theorem getLoop_lf (t : List Char) : getLoop ('\n' :: t) = ([], Stream.ofText t) := by
  rfl

theorem getLoop_crlf (t : List Char) : getLoop ('\r' :: '\n' :: t) = ([], Stream.ofText t) := by
  rfl

theorem getLoop_cr {t : List Char} (h0 : t ≠ []) (h : t.head? ≠ some '\n') : getLoop ('\r' :: t) = ([], Stream.ofText t) := by
  cases t with
  | nil => exact absurd rfl h0
  | cons c t =>
    have hc : c ≠ '\n' := fun e => h (by simp [e])
    rw [getLoop.eq_2, if_neg (by decide), if_pos rfl, afterReturn, if_neg hc]
    rfl

theorem getLine_ofText (t : List Char) : getLine (Stream.ofText t) = getLoop t := rfl

/-- Reading the first of some lines. -/
theorem Lines.getLine {l : List Char} {ls : List (List Char)} {t r : List Char} (h : Lines (l :: ls) t r) :
    ∃ t', LineReader.getLine (Stream.ofText t) = (l, Stream.ofText t') ∧ Lines ls t' r := by
  cases h with
  | @lf _ t _ _ hl h => exact ⟨t, by rw [getLine_ofText, getLoop_append hl, getLoop_lf, List.append_nil], h⟩
  | @crlf _ t _ _ hl h => exact ⟨t, by rw [getLine_ofText, getLoop_append hl, getLoop_crlf, List.append_nil], h⟩
  | @cr _ t _ _ hl h h0 hn => exact ⟨t, by rw [getLine_ofText, getLoop_append hl, getLoop_cr h0 hn, List.append_nil], h⟩

/-- Steps one after another. -/
def stepsOf {σ : Type} (body : σ → List Char → Outcome σ) : σ → List (List Char) → Outcome σ
  | x, [] => .ok x
  | x, l :: ls =>
    match body x l with
    | .ok y => stepsOf body y ls
    | .throws => .throws
    | .ub => .ub

section
variable {σ : Type} (body : σ → List Char → Outcome σ)

theorem lineLoop_cons (x : σ) {l : List Char} {ls : List (List Char)} {t r : List Char} (h : Lines (l :: ls) t r) :
    ∃ t', Lines ls t' r ∧ lineLoop body x (Stream.ofText t) =
      match body x l with
      | .ok y => lineLoop body y (Stream.ofText t')
      | .throws => some .throws
      | .ub => some .ub := by
  obtain ⟨t', h1, h2⟩ := h.getLine
  refine ⟨t', h2, ?_⟩
  rw [lineLoop.eq_1, h1]
  rfl

/-- A loop over lines does its body for each of them and goes on with the rest. -/
theorem lineLoop_lines {ls : List (List Char)} {t r : List Char} (h : Lines ls t r) (x : σ) :
    lineLoop body x (Stream.ofText t) =
      match stepsOf body x ls with
      | .ok y => lineLoop body y (Stream.ofText r)
      | .throws => some .throws
      | .ub => some .ub := by
  induction ls generalizing t x with
  | nil =>
    cases h
    rfl
  | cons l ls ih =>
    obtain ⟨t', h1, h2⟩ := lineLoop_cons body x h
    rw [h2]
    unfold stepsOf
    cases body x l with
    | ok y => exact ih h1 y
    | throws => rfl
    | ub => rfl

/-- What is left without a line end is not seen by the body. -/
theorem lineLoop_rest (x : σ) {r : List Char} (h : OnLine r) : lineLoop body x (Stream.ofText r) = some (.ok x) := by
  have h1 : getLine (Stream.ofText r) = (r, ⟨[], true, true⟩) := by
    have := getLoop_append (t := []) h
    rw [List.append_nil] at this
    rw [getLine_ofText, this, getLoop.eq_1, List.append_nil]
  rw [lineLoop.eq_1, h1]
  rfl

/-- A stream with `eof` and without `fail` is never left when empty lines do not stop the body. -/
theorem lineLoop_stuck (hb : ∀ x, ∃ y, body x [] = .ok y) (x : σ) : lineLoop body x ⟨[], true, false⟩ = none := by
  have key : ∀ r : Outcome σ, lineLoop body x ⟨[], true, false⟩ = some r → False := by
    intro r hr
    have := lineLoop.partial_correctness body (fun _ s _ => s ≠ ⟨[], true, false⟩) ?_ x ⟨[], true, false⟩ r hr
    · exact this rfl
    · intro f ih x s r h hs
      subst hs
      obtain ⟨y, hy⟩ := hb x
      have hg : getLine ⟨[], true, false⟩ = ([], ⟨[], true, false⟩) := rfl
      simp only [hg, hy] at h
      exact ih y ⟨[], true, false⟩ r (by simpa using h) rfl
  cases h : lineLoop body x ⟨[], true, false⟩ with
  | none => rfl
  | some r => exact (key r h).elim

theorem lineLoop_cr (hb : ∀ x, ∃ y, body x [] = .ok y) (x : σ) {l : List Char} (h : OnLine l) :
    lineLoop body x (Stream.ofText (l ++ ['\r'])) =
      match body x l with
      | .ok _ => none
      | .throws => some .throws
      | .ub => some .ub := by
  have h1 : getLine (Stream.ofText (l ++ ['\r'])) = (l, ⟨[], true, false⟩) := by
    rw [getLine_ofText, getLoop_append h]
    rw [show getLoop ['\r'] = ([], ⟨[], true, false⟩) from rfl, List.append_nil]
  rw [lineLoop.eq_1, h1]
  simp only [Bool.false_eq_true, if_false]
  cases body x l with
  | ok y => exact lineLoop_stuck body hb y
  | throws => rfl
  | ub => rfl

end

theorem stepsOf_ok {σ : Type} (f : σ → List Char → σ) (x : σ) (ls : List (List Char)) :
    stepsOf (fun s l => .ok (f s l)) x ls = .ok (ls.foldl f x) := by
  induction ls generalizing x with
  | nil => rfl
  | cons l ls ih => exact ih (f x l)

/-- Every text is made of lines and a rest without line end, or a rest with a single `\r` at the end. -/
theorem lines_total (t : List Char) : ∃ ls r, Lines ls t r ∧ (OnLine r ∨ ∃ l, OnLine l ∧ r = l ++ ['\r']) := by
  have key : ∀ n, ∀ t : List Char, t.length ≤ n → ∃ ls r, Lines ls t r ∧ (OnLine r ∨ ∃ l, OnLine l ∧ r = l ++ ['\r']) := by
    intro n
    induction n with
    | zero =>
      intro t ht
      have : t = [] := List.length_eq_zero_iff.mp (Nat.le_zero.mp ht)
      subst this
      exact ⟨[], [], .nil, Or.inl ⟨by simp, by simp⟩⟩
    | succ n ih =>
      intro t ht
      -- the first line end
      have hsplit : t = t.takeWhile (fun c => c ≠ '\n' ∧ c ≠ '\r') ++ t.dropWhile (fun c => c ≠ '\n' ∧ c ≠ '\r') :=
        (List.takeWhile_append_dropWhile).symm
      have hon : OnLine (t.takeWhile (fun c => c ≠ '\n' ∧ c ≠ '\r')) := by
        have hall : ∀ c ∈ t.takeWhile (fun c => c ≠ '\n' ∧ c ≠ '\r'), c ≠ '\n' ∧ c ≠ '\r' := by
          intro c hc
          simpa using List.mem_takeWhile_imp hc
        exact ⟨fun m => (hall _ m).1 rfl, fun m => (hall _ m).2 rfl⟩
      generalize t.takeWhile (fun c => c ≠ '\n' ∧ c ≠ '\r') = l at hsplit hon
      cases hd : t.dropWhile (fun c => c ≠ '\n' ∧ c ≠ '\r') with
      | nil =>
        rw [hd, List.append_nil] at hsplit
        subst hsplit
        exact ⟨[], t, .nil, Or.inl hon⟩
      | cons c r =>
        have hc : ¬ (c ≠ '\n' ∧ c ≠ '\r') := by
          have := List.head?_dropWhile_not (fun c => decide (c ≠ '\n' ∧ c ≠ '\r')) t
          rw [hd] at this
          simpa using this
        rw [hd] at hsplit
        have hlen : r.length ≤ n := by
          have := congrArg List.length hsplit
          simp only [List.length_append, List.length_cons] at this
          omega
        by_cases h1 : c = '\n'
        · subst h1
          obtain ⟨ls, r', h2, h3⟩ := ih r hlen
          exact ⟨l :: ls, r', hsplit ▸ .lf hon h2, h3⟩
        · have h2 : c = '\r' := by
            by_contra h2
            exact hc ⟨h1, h2⟩
          subst h2
          cases r with
          | nil => exact ⟨[], t, .nil, Or.inr ⟨l, hon, hsplit⟩⟩
          | cons d r =>
            by_cases hdn : d = '\n'
            · subst hdn
              obtain ⟨ls, r', h2, h3⟩ := ih r (by simp only [List.length_cons] at hlen; omega)
              exact ⟨l :: ls, r', hsplit ▸ .crlf hon h2, h3⟩
            · obtain ⟨ls, r', h2, h3⟩ := ih (d :: r) hlen
              exact ⟨l :: ls, r', hsplit ▸ .cr hon h2 (by simp) (by simpa using hdn), h3⟩
  exact key t.length t le_rfl

end Momentum.LineReader
