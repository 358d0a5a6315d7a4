import Verif.Spec.LocatorText
import Verif.Lemmas.TransformText

/-!
# Lines and fields of the text format of locators
-/

namespace Momentum.LocatorText

open TransformText (trim tokenize tokenize_none tokenize_cons trim_exact)

theorem svtoi_print {i : Int} (h : IsInt32 i) : svtoi (printInt i ++ [',']) = .ok i := by
  have key : ∀ n : Nat, ((Nat.toDigits 10 n ++ [',']).takeWhile Char.isDigit) = Nat.toDigits 10 n := by
    intro n
    rw [List.takeWhile_append_of_pos fun c hc => Nat.isDigit_of_mem_toDigits (by norm_num) (by norm_num) hc]
    simp
  have hval : ∀ n : Nat, digitsValue (Nat.toDigits 10 n ++ [',']) = n := by
    intro n
    rw [digitsValue, key]
    have := Nat.ofDigitChars_ten_toDigits (n := n)
    rwa [Nat.ofDigitChars_eq_foldl] at this
  have hhead : ∀ n : Nat, ∃ c r, Nat.toDigits 10 n ++ [','] = c :: r ∧ c.isDigit = true := by
    intro n
    obtain ⟨c, r, hcr⟩ := List.exists_cons_of_ne_nil (Nat.toDigits_ne_nil (n := n) (b := 10))
    refine ⟨c, r ++ [','], by rw [hcr]; rfl, Nat.isDigit_of_mem_toDigits (b := 10) (n := n) (by norm_num) (by norm_num) ?_⟩
    rw [hcr]; simp
  have hnsp : ∀ c : Char, c.isDigit = true → isNumberSpace c = false ∧ c ≠ '-' := by
    intro c hc
    constructor
    · by_contra hx
      simp only [isNumberSpace, Bool.not_eq_false, Bool.or_eq_true, decide_eq_true_eq] at hx
      rcases hx with (((((rfl | rfl) | rfl) | rfl) | rfl) | rfl) <;> simp [Char.isDigit] at hc
    · rintro rfl; simp [Char.isDigit] at hc
  unfold svtoi printInt
  split_ifs with hneg
  · have h1 : ('-' :: Nat.toDigits 10 i.natAbs ++ [',']).dropWhile isNumberSpace = '-' :: (Nat.toDigits 10 i.natAbs ++ [',']) := by
      simp [List.dropWhile_cons, isNumberSpace]
    rw [h1]
    simp only [fromChars, key, List.isEmpty_iff, Nat.toDigits_ne_nil, if_false, hval]
    have : -(i.natAbs : Int) = i := by omega
    rw [this]
    exact if_pos h
  · obtain ⟨c, r, hcr, hc⟩ := hhead i.natAbs
    have h1 : (Nat.toDigits 10 i.natAbs ++ [',']).dropWhile isNumberSpace = Nat.toDigits 10 i.natAbs ++ [','] := by
      rw [hcr]; simp [List.dropWhile_cons, (hnsp c hc).1]
    rw [h1]
    have h2 : fromChars (Nat.toDigits 10 i.natAbs ++ [',']) = some (i.natAbs : Int) := by
      have hk := key i.natAbs
      have hv := hval i.natAbs
      rw [hcr] at hk hv ⊢
      unfold fromChars
      split
      · rename_i heq
        exact absurd (List.cons.inj heq).1 (hnsp c hc).2
      · rw [hk, hv]
        simp [Nat.toDigits_ne_nil]
    rw [h2]
    have : (i.natAbs : Int) = i := by omega
    simp only [this]
    exact if_pos h

theorem svtof_print {F : NumFormat} {x : ℝ} (h : Faithful F x) : svtof F (F.print x ++ [',']) = .ok x := by
  have h1 : (F.print x ++ [',']).dropWhile isNumberSpace = F.print x ++ [','] := by
    cases hp : F.print x with
    | nil => simp [isNumberSpace]
    | cons c r =>
      have := (h.1 c (by rw [hp]; simp)).2.2.2
      simp [List.dropWhile_cons, this]
  rw [svtof, h1, h.2]

theorem quoted_inner (n t : List Char) (ht : '"' ∉ t) : quoted ('"' :: (n ++ '"' :: t)) = n := by
  have h1 : ('"' :: (n ++ '"' :: t)).dropWhile (fun c => decide (c ≠ '"')) = '"' :: (n ++ '"' :: t) := by simp [List.dropWhile_cons]
  have h2 : ((n ++ '"' :: t).reverse.dropWhile (fun c => decide (c ≠ '"'))) = '"' :: n.reverse := by
    rw [List.reverse_append, List.reverse_cons, List.append_assoc]
    rw [List.dropWhile_append_of_pos]
    · simp [List.dropWhile_cons]
    · intro c hc
      simp only [decide_eq_true_eq]
      rintro rfl
      exact ht (by simpa using hc)
  have h3 : ∀ inner, inner = n ++ '"' :: t →
      (if '"' ∈ inner then (inner.reverse.dropWhile (· ≠ '"')).tail.reverse else inner) = n := by
    rintro _ rfl
    rw [if_pos (by simp), h2]
    simp
  unfold quoted
  rw [if_pos (by simp)]
  exact h3 _ (by rw [h1]; rfl)

/-- The line of a field, without its end. -/
def entryLine (key : String) (value : List Char) : List Char := "\t\t\t\"".toList ++ key.toList ++ "\":".toList ++ value ++ [',']

theorem entry_eq (key : String) (value : List Char) : entry key value = entryLine key value ++ ['\n'] := by
  simp [entry, entryLine]

theorem trim_tabs {w : List Char} (h0 : w ≠ []) (hw : ∀ c, w.head? = some c ∨ w.getLast? = some c → c ≠ ' ' ∧ c ≠ '\t' ∧ c ≠ '\x00') :
    trim (['\t', '\t', '\t'] ++ w) = w := by
  have := trim_exact (a := ['\t', '\t', '\t']) (w := w) (b := []) (by simp [TransformText.Blank]) (by simp [TransformText.Blank]) hw h0
  simpa using this

theorem trim_entryLine (key : String) (value : List Char) :
    trim (entryLine key value) = '"' :: (key.toList ++ ['"']) ++ ':' :: (value ++ [',']) := by
  have h : entryLine key value = ['\t', '\t', '\t'] ++ ('"' :: (key.toList ++ ['"']) ++ ':' :: (value ++ [','])) := by
    simp [entryLine]
  rw [h]
  refine trim_tabs (by simp) ?_
  intro c hc
  rcases hc with hc | hc
  · simp at hc; subst hc; decide
  · have hl : ('"' :: (key.toList ++ ['"']) ++ ':' :: (value ++ [','])).getLast? = some ',' := by
      rw [show '"' :: (key.toList ++ ['"']) ++ ':' :: (value ++ [',']) = ('"' :: (key.toList ++ ['"']) ++ ':' :: value) ++ [','] by simp]
      exact List.getLast?_concat
    rw [hl] at hc
    cases hc; decide

/-- One line of a locator is read. -/
structure Reads (F : NumFormat) (sk : Skeleton ℝ) (d : Draft) (line : List Char) (d' : Draft) : Prop where
  nonempty : trim line ≠ []
  goesOn : (trim line).head? ≠ some '}'
  field : fieldLine F sk d (trim line) = .ok d'

theorem Reads.step {F : NumFormat} {sk : Skeleton ℝ} {d d' : Draft} {line : List Char} (h : Reads F sk d line d') {rest : List (List Char)}
    (hr : rest ≠ []) : fieldLoop F sk d (line :: rest) = fieldLoop F sk d' rest := by
  rw [fieldLoop, if_neg h.nonempty, if_neg h.goesOn, h.field]
  simp [Outcome.bind, hr]

theorem tokens_of (key value : List Char) (hk : ∀ c ∈ key, c ≠ ':') (h0 : key ≠ []) (hv : ∀ c ∈ value, c ≠ ':') :
    tokenize (· = ':') (key ++ ':' :: (value ++ [','])) = [key, value ++ [',']] := by
  rw [tokenize_cons _ _ (by simpa using hk) (by simp) h0, tokenize_none _ _ (by simp)]
  intro c hc
  rcases List.mem_append.mp hc with hc | hc
  · simpa using hv c hc
  · simp at hc; subst hc; decide

theorem Reads.entry {F : NumFormat} {sk : Skeleton ℝ} {d d' : Draft} {key : String} {value : List Char}
    (hk : ∀ c ∈ key.toList, c ≠ ':') (hv : ∀ c ∈ value, c ≠ ':')
    (hf : LocatorText.field F sk d ('"' :: (key.toList ++ ['"'])) (value ++ [',']) = .ok d') : Reads F sk d (entryLine key value) d' := by
  refine ⟨by rw [trim_entryLine]; simp, by rw [trim_entryLine]; simp, ?_⟩
  rw [trim_entryLine, fieldLine, if_neg (by simp), tokens_of _ _ _ (by simp) hv]
  · exact hf
  · intro c hc
    simp only [List.mem_cons, List.mem_append, List.not_mem_nil, or_false] at hc
    rcases hc with rfl | hc | rfl
    · decide
    · exact hk c hc
    · decide

/-- Texts with a colon after a quote fall into at least two pieces. -/
theorem tokens_colon {v : List Char} (hc : ':' ∈ v) (t : Char) (ht : t ≠ ':') :
    ∃ a b r, tokenize (· = ':') ('"' :: (v ++ [t])) = a :: b :: r := by
  obtain ⟨p, q, hp, rfl⟩ : ∃ p q, ':' ∉ p ∧ v = p ++ ':' :: q := List.eq_append_cons_of_mem hc |>.imp fun p h => h.imp fun q h => ⟨h.2, h.1⟩
  rw [show '"' :: (p ++ ':' :: q ++ [t]) = ('"' :: p) ++ ':' :: (q ++ [t]) by simp]
  rw [tokenize_cons _ _ _ (by simp) (by simp)]
  · have hne : tokenize (· = ':') (q ++ [t]) ≠ [] := by
      clear hc hp
      have : ∀ s : List Char, tokenize (fun c => decide (c = ':')) (s ++ [t]) ≠ [] := by
        intro s
        induction s with
        | nil => simp [tokenize, TransformText.pieces, ht]
        | cons c s ih =>
          by_cases hcc : c = ':'
          · simpa [tokenize, TransformText.pieces, hcc] using ih
          · simp only [tokenize, List.cons_append, TransformText.pieces, hcc, decide_false, if_false, Bool.false_eq_true]
            cases TransformText.pieces (fun c => decide (c = ':')) (s ++ [t]) with
            | nil => simp
            | cons x xs => simp
      exact this q
    obtain ⟨b, r, hbr⟩ := List.exists_cons_of_ne_nil hne
    exact ⟨_, b, r, by rw [hbr]⟩
  · intro x hx
    rcases List.mem_cons.mp hx with rfl | hx
    · decide
    · simp only [decide_eq_false_iff_not]; rintro rfl; exact hp hx

theorem Reads.colon {F : NumFormat} {sk : Skeleton ℝ} {d : Draft} {line key v : List Char} (t : Char) (ht : t ≠ ':')
    (hl : trim line = '"' :: key ++ ':' :: ('"' :: (v ++ [t]))) (hk : ∀ c ∈ key, c ≠ ':') (hc : ':' ∈ v) : Reads F sk d line d := by
  refine ⟨by rw [hl]; simp, by rw [hl]; simp, ?_⟩
  rw [hl, fieldLine, if_neg (by simp), tokenize_cons _ _ _ (by simp) (by simp)]
  · obtain ⟨a, b, r, h⟩ := tokens_colon hc t ht
    rw [h]
  · intro c hc
    rcases List.mem_cons.mp hc with rfl | hc
    · decide
    · simpa using hk c hc

end Momentum.LocatorText
