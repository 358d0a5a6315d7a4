import Verif.Spec.TransformText
import Verif.Lemmas.LimitsText3
import Mathlib.Tactic.IntervalCases
import Mathlib.Algebra.BigOperators.Ring.List

/-! Helper lemmas for C85: words, tokens and the copying loop. -/

namespace Momentum.TransformText

open LimitsText (getLines withoutComment jointParameterNames)

theorem pieces_none (d : Char → Bool) {s : List Char} (h : ∀ c ∈ s, d c = false) : pieces d s = [s] := by
  induction s with
  | nil => rfl
  | cons c s ih =>
    have hc := h c (by simp)
    have := ih fun x hx => h x (List.mem_cons_of_mem _ hx)
    simp [pieces, hc, this]

theorem pieces_cons (d : Char → Bool) {s : List Char} {c : Char} (r : List Char) (h : ∀ x ∈ s, d x = false) (hc : d c = true) :
    pieces d (s ++ c :: r) = s :: pieces d r := by
  induction s with
  | nil => simp [pieces, hc]
  | cons x s ih =>
    have hx := h x (by simp)
    have := ih fun y hy => h y (List.mem_cons_of_mem _ hy)
    simp [pieces, hx, this]

theorem tokenize_none (d : Char → Bool) {s : List Char} (h : ∀ c ∈ s, d c = false) (h0 : s ≠ []) : tokenize d s = [s] := by
  simp [tokenize, pieces_none d h, h0]

theorem tokenize_cons (d : Char → Bool) {s : List Char} {c : Char} (r : List Char) (h : ∀ x ∈ s, d x = false) (hc : d c = true)
    (h0 : s ≠ []) : tokenize d (s ++ c :: r) = s :: tokenize d r := by
  simp [tokenize, pieces_cons d r h hc, h0]

theorem dropWhile_exact {p : Char → Bool} {a b : List Char} (ha : ∀ c ∈ a, p c = true) (hb : ∀ c, b.head? = some c → p c = false) :
    (a ++ b).dropWhile p = b := by
  rw [List.dropWhile_append_of_pos ha]
  cases b with
  | nil => rfl
  | cons c b => simp [List.dropWhile_cons, hb c rfl]

theorem Blank.isBlank {s : List Char} (h : Blank s) : ∀ c ∈ s, isBlank c = true := by
  intro c hc
  rcases h c hc with rfl | rfl <;> decide

theorem notBlank {c : Char} (h : c ≠ ' ' ∧ c ≠ '\t' ∧ c ≠ '\x00') : isBlank c = false := by
  simp [isBlank, h.1, h.2.1, h.2.2]

theorem trim_exact {a w b : List Char} (ha : Blank a) (hb : Blank b)
    (hw : ∀ c, w.head? = some c ∨ w.getLast? = some c → c ≠ ' ' ∧ c ≠ '\t' ∧ c ≠ '\x00') (h0 : w ≠ []) : trim (a ++ w ++ b) = w := by
  unfold trim
  have h1 : ((a ++ w ++ b).reverse.dropWhile TransformText.isBlank) = (a ++ w).reverse := by
    rw [List.reverse_append]
    refine dropWhile_exact (fun c hc => hb.isBlank c (by simpa using hc)) ?_
    intro c hc
    refine notBlank (hw c (Or.inr ?_))
    rw [List.head?_reverse, List.getLast?_append] at hc
    cases hl : w.getLast? with
    | none => exact absurd (List.getLast?_eq_none_iff.mp hl) h0
    | some x => rw [hl] at hc; simpa using hc
  rw [h1, List.reverse_reverse]
  exact dropWhile_exact ha.isBlank fun c hc => notBlank (hw c (Or.inl hc))

theorem IsChannel.cases {a : Nat} {w : List Char} (h : IsChannel a w) :
    (a, w) ∈ [(0, ['t', 'x']), (1, ['t', 'y']), (2, ['t', 'z']), (3, ['r', 'x']), (4, ['r', 'y']), (5, ['r', 'z']), (6, ['s', 'c'])] := by
  unfold IsChannel at h
  have ha : a < 7 := by
    by_contra hc
    rw [List.getElem?_eq_none (by simpa using hc)] at h
    exact absurd h (by simp)
  have key : ∀ s : String, s = String.ofList w → w = s.toList := fun s e => by rw [e, String.toList_ofList]
  interval_cases a <;> (have := key _ (Option.some.inj h); subst this; decide)

theorem IsChannel.spec {a : Nat} {w : List Char} (h : IsChannel a w) :
    a < 7 ∧ attributeOf w = some a ∧ w ≠ [] ∧ ∀ c ∈ w, c ∈ ['t', 'x', 'y', 'z', 'r', 's', 'c'] := by
  have := h.cases
  simp only [List.mem_cons, Prod.mk.injEq, List.not_mem_nil, or_false] at this
  rcases this with ⟨rfl, rfl⟩ | ⟨rfl, rfl⟩ | ⟨rfl, rfl⟩ | ⟨rfl, rfl⟩ | ⟨rfl, rfl⟩ | ⟨rfl, rfl⟩ | ⟨rfl, rfl⟩ <;> decide

theorem isChannel_of_attributeOf {a : Nat} {w : List Char} (h : attributeOf w = some a) : IsChannel a w := by
  obtain ⟨h1, h2, -⟩ := List.findIdx?_eq_some_iff_getElem.mp h
  have h7 : a < 7 := h1
  have h3 : jointParameterNames[a]? = some w := by
    rw [List.getElem?_eq_getElem h1]
    exact congrArg some (of_decide_eq_true h2)
  unfold IsChannel
  clear h
  interval_cases a <;> (have := Option.some.inj h3; subst this; decide)

section
variable {K : Type} [CommRing K] {sk : Skeleton K}

theorem IsJoint.spec {j : Nat} {w : List Char} (h : IsJoint sk j w) : jointIdByName sk w = some j ∧ j < sk.joints.length := by
  obtain ⟨⟨J, h1, h2⟩, h3⟩ := h
  refine ⟨?_, (List.getElem?_eq_some_iff.mp h1).1⟩
  refine LimitsText.findIdx?_first _ h1 (by simp [h2]) ?_
  intro k hk y hy
  simp [h3 k hk y hy]

theorem NoJoint.spec {w : List Char} : jointIdByName sk w = none ↔ NoJoint sk w := by
  simp [jointIdByName, NoJoint, List.findIdx?_eq_none_iff]

theorem IsJoint.not {j : Nat} {w : List Char} (h : IsJoint sk j w) : ¬ NoJoint sk w := by
  rw [← NoJoint.spec, h.spec.1]
  simp

/-- Triplets without the row are passed over. -/
theorem copyLoop_none (row ref : Nat) (w : K) (a c : List (Triplet K)) (h : ∀ t ∈ c, t.row ≠ ref) :
    copyLoop row ref w a.length (a ++ c) = some (a ++ c) := by
  induction c generalizing a with
  | nil => rw [copyLoop]; simp
  | cons t c ih =>
    rw [copyLoop]
    have ht : (a ++ t :: c)[a.length]? = some t := by simp
    rw [ht]
    simp only [if_neg (h t (by simp))]
    have := ih (a ++ [t]) fun x hx => h x (List.mem_cons_of_mem _ hx)
    simpa using this

/-- The copies of the triplets of a row. -/
def copies (row ref : Nat) (w : K) (b : List (Triplet K)) : List (Triplet K) :=
  (b.filter fun t => t.row = ref).map fun t => ⟨row, t.col, t.val * w⟩

theorem copyLoop_append {row ref : Nat} (hne : row ≠ ref) (w : K) (a b c : List (Triplet K)) (h : ∀ t ∈ c, t.row ≠ ref) :
    copyLoop row ref w a.length (a ++ b ++ c) = some (a ++ b ++ c ++ copies row ref w b) := by
  induction b generalizing a c with
  | nil => simpa [copies] using copyLoop_none row ref w a c h
  | cons t b ih =>
    rw [copyLoop]
    have ht : (a ++ t :: b ++ c)[a.length]? = some t := by simp
    rw [ht]
    simp only []
    by_cases hr : t.row = ref
    · rw [if_pos hr]
      have := ih (a ++ [t]) (c ++ [⟨row, t.col, t.val * w⟩]) (by
        intro x hx
        rcases List.mem_append.mp hx with hx | hx
        · exact h x hx
        · rw [List.mem_singleton.mp hx]; exact hne)
      simpa [copies, hr] using this
    · rw [if_neg hr]
      have := ih (a ++ [t]) c h
      simpa [copies, hr] using this

/-- A reference to another joint parameter copies its triplets. -/
theorem copyLoop_spec {row ref : Nat} (hne : row ≠ ref) (w : K) (ts : List (Triplet K)) :
    copyLoop row ref w 0 ts = some (ts ++ copies row ref w ts) := by
  simpa using copyLoop_append hne w [] ts [] (by simp)

/-- The loop does not end when it finds a triplet of the row it writes. -/
theorem copyLoop_forever (row : Nat) (w : K) (ts : List (Triplet K)) (h : ∃ t ∈ ts, t.row = row) :
    copyLoop row row w 0 ts = none := by
  rw [Option.eq_none_iff_forall_ne_some]
  intro r hr
  have key := copyLoop.partial_correctness row row w
    (fun tr ts _ => (∃ (i : Nat) (t : Triplet K), tr ≤ i ∧ ts[i]? = some t ∧ t.row = row) → False) ?_ 0 ts r hr ?_
  · exact key
  · intro f ih tr ts' r' hr' ⟨i, t, hi, hit, htr⟩
    cases hx : ts'[tr]? with
    | none =>
      have h1 := List.getElem?_eq_none_iff.mp hx
      have h2 := (List.getElem?_eq_some_iff.mp hit).1
      omega
    | some x =>
      simp only [hx] at hr'
      refine ih _ _ _ hr' ?_
      by_cases hxr : x.row = row
      · rw [if_pos hxr]
        refine ⟨ts'.length, ⟨row, x.col, x.val * w⟩, ?_, by simp, rfl⟩
        have := (List.getElem?_eq_some_iff.mp hx).1
        omega
      · rw [if_neg hxr]
        refine ⟨i, t, ?_, hit, htr⟩
        rcases Nat.lt_or_eq_of_le hi with hlt | heq
        · omega
        · subst heq
          rw [hx] at hit
          exact absurd (by rw [Option.some.inj hit]; exact htr) hxr
  · obtain ⟨t, ht, he⟩ := h
    obtain ⟨i, hi⟩ := List.getElem?_of_mem ht
    exact ⟨i, t, Nat.zero_le _, hi, he⟩

end
end Momentum.TransformText
