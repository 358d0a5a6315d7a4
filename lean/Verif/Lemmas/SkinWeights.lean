import Verif.Model.SkinWeights
import Verif.Lemmas.ListOption
import Mathlib.Algebra.BigOperators.Group.Finset.Basic
import Mathlib.Algebra.BigOperators.Group.Finset.Piecewise

namespace Momentum
variable {K : Type} [CommRing K] [LinearOrder K]

/-- Total weight on joint `t` over the first `n` slots. -/
def weightOn (n : Nat) (row : SkinRow K) (t : Nat) : K :=
  ∑ k ∈ Finset.range n, if (row k).1 = t then (row k).2 else 0

theorem weightOn_update (n : Nat) (row row' : SkinRow K) (t i j : Nat) (hi : i < n) (hj : j < n) (hij : i ≠ j)
    (hother : ∀ k, k ≠ i → k ≠ j → row' k = row k)
    (h : (if (row' i).1 = t then (row' i).2 else 0) + (if (row' j).1 = t then (row' j).2 else 0)
      = (if (row i).1 = t then (row i).2 else 0) + (if (row j).1 = t then (row j).2 else 0)) :
    weightOn n row' t = weightOn n row t := by
  unfold weightOn
  rw [← Finset.add_sum_erase _ _ (Finset.mem_range.mpr hi),
    ← Finset.add_sum_erase _ _ (Finset.mem_erase.mpr ⟨hij.symm, Finset.mem_range.mpr hj⟩)]
  conv_rhs => rw [← Finset.add_sum_erase _ _ (Finset.mem_range.mpr hi),
    ← Finset.add_sum_erase _ _ (Finset.mem_erase.mpr ⟨hij.symm, Finset.mem_range.mpr hj⟩)]
  rw [← add_assoc, ← add_assoc, h]
  congr 1
  apply Finset.sum_congr rfl
  intro k hk
  have hk1 := (Finset.mem_erase.mp hk).1
  have hk2 := (Finset.mem_erase.mp (Finset.mem_erase.mp hk).2).1
  rw [hother k hk2 hk1]

theorem mergeStep_weightOn (n : Nat) (row : SkinRow K) (t i j : Nat) (hi : i < n) (hj : j < n) (hij : i ≠ j) :
    weightOn n (mergeStep row i j) t = weightOn n row t := by
  unfold mergeStep
  split
  · rename_i h
    apply weightOn_update n _ _ t i j hi hj hij
    · intro k h1 h2; rw [Function.update_of_ne h2, Function.update_of_ne h1]
    · rw [Function.update_self, Function.update_of_ne hij, Function.update_self]
      simp only [h]
      split <;> ring
  · rfl

theorem sortStep_weightOn (n : Nat) (row : SkinRow K) (t i j : Nat) (hi : i < n) (hj : j < n) (hij : i ≠ j) :
    weightOn n (sortStep row i j) t = weightOn n row t := by
  unfold sortStep
  split
  · apply weightOn_update n _ _ t i j hi hj hij
    · intro k h1 h2; rw [Function.update_of_ne h2, Function.update_of_ne h1]
    · rw [Function.update_self, Function.update_of_ne hij, Function.update_self]
      ring
  · rfl

/-- Invariant rule for the loop nest. -/
theorem pairLoop_inv (n : Nat) (step : SkinRow K → Nat → Nat → SkinRow K)
    (O : Nat → SkinRow K → Prop) (I : Nat → Nat → SkinRow K → Prop)
    (hI0 : ∀ i row, i < n → O i row → I i (i + 1) row)
    (hIs : ∀ i j row, i < j → j < n → I i j row → I i (j + 1) (step row i j))
    (hO : ∀ i row, i < n → I i n row → O (i + 1) row)
    (row : SkinRow K) (h0 : O 0 row) : O n (pairLoop n step row) := by
  unfold pairLoop
  have gen : ∀ m ≤ n, O m ((List.range m).foldl (fun row i =>
      (List.range (n - (i + 1))).foldl (fun row d => step row i (i + 1 + d)) row) row) := by
    intro m hm
    induction m with
    | zero => exact h0
    | succ m ih =>
      rw [List.range_succ, List.foldl_append, List.foldl_cons, List.foldl_nil]
      apply hO m _ (by omega)
      have inner : ∀ d ≤ n - (m + 1), ∀ row, O m row →
          I m (m + 1 + d) ((List.range d).foldl (fun row d => step row m (m + 1 + d)) row) := by
        intro d hd row hrow
        induction d with
        | zero => exact hI0 m row (by omega) hrow
        | succ d ihd =>
          rw [List.range_succ, List.foldl_append, List.foldl_cons, List.foldl_nil]
          exact hIs m (m + 1 + d) _ (by omega) (by omega) (ihd (by omega))
      have := inner (n - (m + 1)) le_rfl _ (ih (by omega))
      rwa [show m + 1 + (n - (m + 1)) = n by omega] at this
  exact gen n le_rfl

theorem pairLoop_pres (n : Nat) (step : SkinRow K → Nat → Nat → SkinRow K) (P : SkinRow K → Prop)
    (hs : ∀ i j row, i < j → j < n → P row → P (step row i j)) (row : SkinRow K) (h0 : P row) :
    P (pairLoop n step row) :=
  pairLoop_inv n step (fun _ => P) (fun _ _ => P) (fun _ _ _ h => h) hs (fun _ _ _ h => h) row h0

theorem merge_index (row : SkinRow K) (i j k : Nat) : (mergeStep row i j k).1 = (row k).1 := by
  unfold mergeStep
  split
  · by_cases h1 : k = j
    · subst h1; rw [Function.update_self]
    · rw [Function.update_of_ne h1]
      by_cases h2 : k = i
      · subst h2; rw [Function.update_self]
      · rw [Function.update_of_ne h2]
  · rfl

/-- After merging, slots `a < b` with the same joint have weight zero in `b`. -/
theorem pairLoop_merge (n : Nat) (row : SkinRow K) :
    ∀ a b, a < b → b < n → (pairLoop n mergeStep row a).1 = (pairLoop n mergeStep row b).1 →
      (pairLoop n mergeStep row b).2 = 0 := by
  have := pairLoop_inv n mergeStep
    (fun i r => ∀ a b, a < i → a < b → b < n → (r a).1 = (r b).1 → (r b).2 = 0)
    (fun i j r => (∀ a b, a < i → a < b → b < n → (r a).1 = (r b).1 → (r b).2 = 0) ∧
      (∀ b, i < b → b < j → (r i).1 = (r b).1 → (r b).2 = 0))
    (fun i row _ h => ⟨h, fun b h1 h2 => by omega⟩)
    (by
      intro i j r hij hjn ⟨h1, h2⟩
      have key : ∀ b, (∃ a, a < b ∧ a < i ∧ (r a).1 = (r b).1) → b < n → (mergeStep r i j b).2 = 0 := by
        rintro b ⟨a, hab, hai, hidx⟩ hbn
        have hb0 : (r b).2 = 0 := h1 a b hai hab hbn hidx
        unfold mergeStep
        split
        · rename_i heq
          by_cases e1 : b = j
          · subst e1; rw [Function.update_self]
          · rw [Function.update_of_ne e1]
            by_cases e2 : b = i
            · subst e2
              rw [Function.update_self]
              simp only
              rw [hb0, h1 a j hai (by omega) hjn (by rw [hidx, heq]), add_zero]
            · rw [Function.update_of_ne e2]; exact hb0
        · exact hb0
      refine ⟨?_, ?_⟩
      · intro a b hai hab hbn hidx
        rw [merge_index, merge_index] at hidx
        exact key b ⟨a, hab, hai, hidx⟩ hbn
      · intro b hib hbj hidx
        rw [merge_index, merge_index] at hidx
        by_cases e : b = j
        · subst e
          unfold mergeStep
          rw [if_pos hidx.symm, Function.update_self]
        · have hb0 := h2 b hib (by omega) hidx
          unfold mergeStep
          split
          · rw [Function.update_of_ne e, Function.update_of_ne (by omega)]; exact hb0
          · exact hb0)
    (by
      intro i r hi ⟨h1, h2⟩ a b ha hab hbn hidx
      rcases Nat.lt_succ_iff_lt_or_eq.mp ha with h | rfl
      · exact h1 a b h hab hbn hidx
      · exact h2 b hab hbn hidx)
    row (fun a b h => by omega)
  intro a b hab hbn
  exact this a b (by omega) hab hbn

/-- Exchange sort sorts. -/
theorem pairLoop_sorted (n : Nat) (row : SkinRow K) :
    ∀ a b, a < b → b < n → (pairLoop n sortStep row b).2 ≤ (pairLoop n sortStep row a).2 := by
  have := pairLoop_inv n sortStep
    (fun i r => ∀ a b, a < i → a < b → b < n → (r b).2 ≤ (r a).2)
    (fun i j r => (∀ a b, a < i → a < b → b < n → (r b).2 ≤ (r a).2) ∧
      (∀ b, i < b → b < j → (r b).2 ≤ (r i).2))
    (fun i row _ h => ⟨h, fun b h1 h2 => by omega⟩)
    (by
      intro i j r hij hjn ⟨h1, h2⟩
      unfold sortStep
      split
      · rename_i hlt
        refine ⟨?_, ?_⟩
        · intro a b hai hab hbn
          rw [Function.update_of_ne (show a ≠ j by omega), Function.update_of_ne (show a ≠ i by omega)]
          by_cases e1 : b = j
          · subst e1; rw [Function.update_self]; exact h1 a i hai hai (by omega)
          · rw [Function.update_of_ne e1]
            by_cases e2 : b = i
            · subst e2; rw [Function.update_self]; exact h1 a j hai (by omega) hjn
            · rw [Function.update_of_ne e2]; exact h1 a b hai hab hbn
        · intro b hib hbj
          rw [Function.update_of_ne (show i ≠ j by omega), Function.update_self]
          by_cases e1 : b = j
          · subst e1; rw [Function.update_self]; exact hlt.le
          · rw [Function.update_of_ne e1, Function.update_of_ne (by omega)]
            exact (h2 b hib (by omega)).trans hlt.le
      · rename_i hge
        refine ⟨h1, ?_⟩
        intro b hib hbj
        by_cases e1 : b = j
        · subst e1; exact not_lt.mp hge
        · exact h2 b hib (by omega))
    (by
      intro i r hi ⟨h1, h2⟩ a b ha hab hbn
      rcases Nat.lt_succ_iff_lt_or_eq.mp ha with h | rfl
      · exact h1 a b h hab hbn
      · exact h2 b hab hbn)
    row (fun a b h => by omega)
  intro a b hab hbn
  exact this a b (by omega) hab hbn

/-- "At most one non-zero slot per joint" is stable under swaps. -/
theorem pairLoop_sort_unique (n : Nat) (row : SkinRow K)
    (h : ∀ a b, a ≠ b → a < n → b < n → (row a).1 = (row b).1 → (row a).2 = 0 ∨ (row b).2 = 0) :
    ∀ a b, a ≠ b → a < n → b < n → (pairLoop n sortStep row a).1 = (pairLoop n sortStep row b).1 →
      (pairLoop n sortStep row a).2 = 0 ∨ (pairLoop n sortStep row b).2 = 0 := by
  apply pairLoop_pres n sortStep (fun r => ∀ a b, a ≠ b → a < n → b < n → (r a).1 = (r b).1 →
    (r a).2 = 0 ∨ (r b).2 = 0) _ row h
  intro i j r hij hjn hr
  unfold sortStep
  split
  · intro a b hab ha hb
    have val : ∀ k, Function.update (Function.update r i (r j)) j (r i) k = r (if k = j then i else if k = i then j else k) := by
      intro k
      by_cases e1 : k = j
      · rw [if_pos e1]; subst e1; rw [Function.update_self]
      · rw [Function.update_of_ne e1, if_neg e1]
        by_cases e2 : k = i
        · rw [if_pos e2]; subst e2; rw [Function.update_self]
        · rw [Function.update_of_ne e2, if_neg e2]
    rw [val, val]
    apply hr
    · split_ifs <;> omega
    · split_ifs <;> omega
    · split_ifs <;> omega
  · exact hr

end Momentum
