import Verif.Lemmas.SequenceSolver

/-!
# The calls of the banded solver
-/

namespace Momentum
open Finset
namespace SequenceFunction

variable {S : SequenceFunction} {active : Nat → Bool}

/-! ### Merged columns -/

theorem mergeColumn_eq (np n : Nat) (e : Nat → Nat → ℝ) (u : Nat) (hu : u < np) (c t : Nat) :
    mergeColumn np n e u c t = if c = u then e u t + ∑ k ∈ range (n - 1), e ((k + 1) * np + u) t else e c t := by
  unfold mergeColumn
  generalize n - 1 = m
  induction m generalizing c t with
  | zero => split_ifs with h <;> simp [h]
  | succ m ih =>
    rw [List.range'_concat, List.foldl_append, List.foldl_cons, List.foldl_nil]
    by_cases hc : c = u
    · subst hc
      rw [Function.update_self, ih, if_pos rfl, if_pos rfl, ih, if_neg, sum_range_succ, one_mul, add_comm 1 m, add_assoc]
      rw [one_mul, add_comm 1 m, add_mul]
      have : 0 < np := by omega
      omega
    · rw [Function.update_of_ne hc, ih, if_neg hc, if_neg hc]

theorem merge_eq (np n : Nat) (l : List Nat) (hn : l.Nodup) (hl : ∀ u ∈ l, u < np) (e : Nat → Nat → ℝ) (c t : Nat) :
    l.foldl (mergeColumn np n) e c t =
      if c ∈ l then e c t + ∑ k ∈ range (n - 1), e ((k + 1) * np + c) t else e c t := by
  induction l generalizing e c t with
  | nil => simp
  | cons u l ih =>
    obtain ⟨h1, h2⟩ := List.nodup_cons.1 hn
    have hu := hl u (by simp)
    have far : ∀ k c, mergeColumn np n e u ((k + 1) * np + c) t = e ((k + 1) * np + c) t := by
      intro k c
      rw [mergeColumn_eq np n e u hu, if_neg]
      intro hc
      have : np ≤ (k + 1) * np := Nat.le_mul_of_pos_left _ (by omega)
      omega
    rw [List.foldl_cons, ih h2 (fun w hw => hl w (by simp [hw])), mergeColumn_eq np n e u hu]
    simp only [far]
    by_cases hc : c = u
    · subst hc
      rw [if_neg h1, if_pos rfl, if_pos (by simp)]
    · rw [if_neg hc]
      by_cases hm : c ∈ l
      · rw [if_pos hm, if_pos (by simp [hm])]
      · rw [if_neg hm, if_neg (by simp [hm, hc])]

/-! ### The columns of several frames -/

theorem sequenceColumns_length (S : SequenceFunction) (n : Nat) : (S.sequenceColumns n).length = n * S.perFrame.length := by
  unfold sequenceColumns
  induction n with
  | zero => simp
  | succ n ih => rw [List.range_succ, List.flatMap_append, List.length_append, ih]; simp [add_mul]

theorem sequenceColumns_get (S : SequenceFunction) (n k q : Nat) (hk : k < n) (hq : q < S.perFrame.length) :
    (S.sequenceColumns n).getD (k * S.perFrame.length + q) 0 = S.perFrame.getD q 0 + k * S.np := by
  induction n with
  | zero => omega
  | succ n ih =>
    have e : S.sequenceColumns (n + 1) = S.sequenceColumns n ++ S.perFrame.map (· + n * S.np) := by
      unfold sequenceColumns
      rw [List.range_succ, List.flatMap_append]; simp
    have hlen := sequenceColumns_length S n
    rw [e, List.getD_eq_getElem?_getD]
    by_cases hkn : k < n
    · rw [List.getElem?_append_left, ← List.getD_eq_getElem?_getD, ih hkn]
      rw [hlen]
      calc k * S.perFrame.length + q < k * S.perFrame.length + S.perFrame.length := by omega
        _ = (k + 1) * S.perFrame.length := by ring
        _ ≤ _ := Nat.mul_le_mul_right _ hkn
    · have : k = n := by omega
      subst this
      rw [List.getElem?_append_right (by omega), hlen, Nat.add_sub_cancel_left, List.getElem?_map,
        List.getElem?_eq_getElem hq, List.getD_eq_getElem?_getD, List.getElem?_eq_getElem hq]
      rfl

theorem sequenceColumns_nodup (h : S.Sets active) (n : Nat) : (S.sequenceColumns n).Nodup := by
  have hlt : ∀ i ∈ S.perFrame, i < S.np := fun i hi => ((h.perFrame i).1 hi).1
  unfold sequenceColumns
  rw [List.nodup_flatMap]
  refine ⟨fun k _ => h.nodup.1.map fun a b hab => by simpa using hab, ?_⟩
  refine (List.nodup_range (n := n)).imp ?_
  intro a b hab
  rw [Function.onFun, List.disjoint_left]
  intro x hx hy
  obtain ⟨i, hi, rfl⟩ := List.mem_map.1 hx
  obtain ⟨i', hi', e⟩ := List.mem_map.1 hy
  apply hab
  have := hlt i hi
  have := hlt i' hi'
  have e : i' + b * S.np = i + a * S.np := e
  have hpos : 0 < S.np := by omega
  have q1 : (i' + b * S.np) / S.np = b := by rw [Nat.add_mul_div_right _ _ hpos, Nat.div_eq_of_lt (by omega), zero_add]
  have q2 : (i + a * S.np) / S.np = a := by rw [Nat.add_mul_div_right _ _ hpos, Nat.div_eq_of_lt (by omega), zero_add]
  rw [← q1, ← q2, e]

theorem take_columns (S : SequenceFunction) {m n : Nat} (hm : m ≤ n) :
    (S.sequenceColumns n).take (m * S.perFrame.length) = S.sequenceColumns m := by
  obtain ⟨d, rfl⟩ := Nat.exists_eq_add_of_le hm
  have e : S.sequenceColumns (m + d) = S.sequenceColumns m ++ (List.range d).flatMap fun k =>
      S.perFrame.map (· + (m + k) * S.np) := by
    unfold sequenceColumns
    rw [List.range_add, List.flatMap_append, List.flatMap_map]
  rw [e, ← sequenceColumns_length S m, List.take_left]

/-! ### The calls -/

/-- The call for a block of `n` frames from frame `f` on. -/
def windowCall (S : SequenceFunction) (f n rows : Nat) (e : Nat → Nat → ℝ) (b : Nat → ℝ) : BandCall :=
  .block (f * S.perFrame.length) ⟨rows, n * S.np, e, true, S.sequenceColumns n⟩ ⟨rows, n * S.np, e, true, S.universal⟩ rows b

theorem windowCall_fits (h : S.Sets active) {f n bw : Nat} (hn : n ≤ bw) (hf : f + n ≤ S.nFrames) (rows : Nat)
    (e : Nat → Nat → ℝ) (b : Nat → ℝ) : (S.windowCall f n rows e b).Fits (S.nFrames * S.perFrame.length) S.universal.length
      (bw * S.perFrame.length) := by
  refine ⟨rfl, rfl, ?_, ?_, rfl, fun _ => sequenceColumns_nodup h n, fun _ => h.nodup.2⟩
  · show (S.sequenceColumns n).length ≤ _
    rw [sequenceColumns_length]; exact Nat.mul_le_mul_right _ hn
  · show _ + (S.sequenceColumns n).length ≤ _
    rw [sequenceColumns_length, ← add_mul]; exact Nat.mul_le_mul_right _ hf

theorem windowCall_window (f n rows : Nat) (e : Nat → Nat → ℝ) (b : Nat → ℝ) :
    (S.windowCall f n rows e b).window = (f * S.perFrame.length, (f + n) * S.perFrame.length) := by
  show (_, _ + (S.sequenceColumns n).length) = _
  rw [sequenceColumns_length, ← add_mul]

/-- The rows of a call in the joined parameters. -/
theorem windowCall_rows (h : S.Sets active) {f n rows : Nat} (hn : 0 < n) (hf : f + n ≤ S.nFrames) (e e' : Nat → Nat → ℝ)
    (b : Nat → ℝ)
    (hb : ∀ k < n, ∀ i ∈ S.perFrame, ∀ t, e (k * S.np + i) t = e' (k * S.np + i) t)
    (hu : ∀ i ∈ S.universal, ∀ t, e i t = ∑ k ∈ range n, e' (k * S.np + i) t) (t j : Nat)
    (hj : j < S.nFrames * S.perFrame.length + S.universal.length) :
    ((S.windowCall f n rows e b).toRows (S.nFrames * S.perFrame.length)).a t j =
      ∑ k ∈ range n, ∑ i ∈ range S.np, e' (k * S.np + i) t * S.coord j (f + k) i := by
  have hin : ∀ k ∈ range n, ∑ i ∈ range S.np, e' (k * S.np + i) t * S.coord j (f + k) i =
      if S.perFrame.length * (f + k) ≤ j ∧ j < S.perFrame.length * (f + k) + S.perFrame.length then
        e' (k * S.np + S.perFrame.getD (j - S.perFrame.length * (f + k)) 0) t
      else if S.perFrame.length * S.nFrames ≤ j ∧ j < S.perFrame.length * S.nFrames + S.universal.length then
        e' (k * S.np + S.universal.getD (j - S.perFrame.length * S.nFrames) 0) t
      else 0 := fun k hk => sum_coord h j (f + k) (by have := mem_range.1 hk; omega) fun i => e' (k * S.np + i) t
  rw [sum_congr rfl hin]
  show (if j < S.nFrames * S.perFrame.length then
      (if f * S.perFrame.length ≤ j ∧ j < f * S.perFrame.length + (S.sequenceColumns n).length then
        e ((S.sequenceColumns n).getD (j - f * S.perFrame.length) 0) t else 0)
    else e (S.universal.getD (j - S.nFrames * S.perFrame.length) 0) t) = _
  rw [sequenceColumns_length, ← add_mul]
  set P := S.perFrame.length with hP
  have frame : ∀ k ∈ range n, P * (f + k) + P ≤ P * S.nFrames := fun k hk =>
    frame_range (by have := mem_range.1 hk; omega)
  have cm : S.nFrames * P = P * S.nFrames := Nat.mul_comm _ _
  by_cases hjb : j < S.nFrames * P
  · rw [if_pos hjb]
    have hnot : ¬ (P * S.nFrames ≤ j ∧ j < P * S.nFrames + S.universal.length) := by omega
    simp only [if_neg hnot]
    by_cases hw : f * P ≤ j ∧ j < (f + n) * P
    · rw [if_pos hw]
      have hP0 : 0 < P := by
        rcases Nat.eq_zero_or_pos P with h0 | h0
        · rw [h0] at hjb; omega
        · exact h0
      obtain ⟨m, hm⟩ := Nat.exists_eq_add_of_le hw.1
      have hm' : j - f * P = m := by omega
      have hdm := Nat.div_add_mod m P
      have hq := Nat.mod_lt m hP0
      set k := m / P
      set q := m % P
      have hkn : k < n := by
        by_contra hc
        have h1 : P * n ≤ P * k := Nat.mul_le_mul_left _ (by omega)
        have h2 : (f + n) * P = f * P + P * n := by ring
        omega
      have hjq : j = P * (f + k) + q := by
        have : P * (f + k) = f * P + P * k := by ring
        omega
      have hmem : S.perFrame.getD q 0 ∈ S.perFrame := by
        rw [List.getD_eq_getElem?_getD, List.getElem?_eq_getElem hq]
        exact List.getElem_mem _
      rw [sum_eq_single k, hm', show m = k * P + q from by rw [Nat.mul_comm k P]; exact hdm.symm,
        sequenceColumns_get S n k q hkn hq, Nat.add_comm, hb k hkn _ hmem, if_pos (by omega)]
      · congr 3
        omega
      · intro k' hk' hne
        rw [if_neg]
        rintro ⟨a, b⟩
        apply hne
        obtain ⟨r, hr⟩ := Nat.exists_eq_add_of_le a
        exact (slot_inj (P := P) (f := f + k') (f' := f + k) (k := r) (k' := q) (by omega) hq (by omega)).1 |> fun hh => by omega
      · intro hc; exact absurd (mem_range.2 hkn) hc
    · rw [if_neg hw]
      symm
      apply sum_eq_zero
      intro k hk
      rw [if_neg]
      rintro ⟨a, b⟩
      apply hw
      have := mem_range.1 hk
      have h1 : P * (f + k) = f * P + P * k := by ring
      have h2 : P * (f + k) + P = P * (f + (k + 1)) := by ring
      have h3 : P * (f + (k + 1)) ≤ P * (f + n) := Nat.mul_le_mul_left _ (by omega)
      rw [Nat.mul_comm (f + n) P]
      exact ⟨by omega, by omega⟩
  · rw [if_neg hjb]
    have hin2 : P * S.nFrames ≤ j ∧ j < P * S.nFrames + S.universal.length := by omega
    have hmem : S.universal.getD (j - P * S.nFrames) 0 ∈ S.universal := by
      have : j - P * S.nFrames < S.universal.length := by omega
      rw [List.getD_eq_getElem?_getD, List.getElem?_eq_getElem this]
      exact List.getElem_mem _
    rw [cm, hu _ hmem]
    apply sum_congr rfl
    intro k hk
    have := frame k hk
    rw [if_neg (by omega), if_pos hin2]

end SequenceFunction
end Momentum
