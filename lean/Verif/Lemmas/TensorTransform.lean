import Verif.Spec.TensorTransform
import Verif.Lemmas.TensorQuat
import Mathlib.Data.List.Forall2

/-!
# Lemmas about the leading dimensions
-/

namespace Momentum.TensorTransform

variable {α β : Type}

theorem unsqueezeTimes_shape (t : Rows α) (k : Nat) : (t.unsqueezeTimes k).shape = List.replicate k 1 ++ t.shape := by
  induction k with
  | zero => rfl
  | succ k ih => rw [Rows.unsqueezeTimes, Rows.unsqueeze, ih]; rfl

theorem unsqueezeTimes_get (t : Rows α) (k : Nat) (idx : List Nat) : (t.unsqueezeTimes k).get idx = t.get (idx.drop k) := by
  induction k generalizing idx with
  | zero => rfl
  | succ k ih =>
    rw [Rows.unsqueezeTimes, Rows.unsqueeze]
    show (t.unsqueezeTimes k).get idx.tail = _
    rw [ih, List.drop_tail]

/-- One or equal, dimension by dimension. -/
def Fits (l r : List Nat) : Prop := List.Forall₂ (fun a b => a = 1 ∨ a = b) l r

theorem newDims_fits {l r : List Nat} (h : Fits l r) : newDims l r = some r := by
  induction h with
  | nil => rfl
  | @cons a b l r hab _ ih =>
    unfold newDims
    split_ifs with h1 h2
    · rw [ih]; rfl
    · rw [ih, h2]; rfl
    · exact absurd hab (by tauto)

theorem fits_of_newDims {l r d : List Nat} (hl : l.length = r.length) (h : newDims l r = some d) : Fits l r := by
  induction l generalizing r d with
  | nil =>
    cases r with
    | nil => exact .nil
    | cons b r => simp at hl
  | cons a l ih =>
    cases r with
    | nil => simp at hl
    | cons b r =>
      simp only [List.length_cons, Nat.add_right_cancel_iff] at hl
      unfold newDims at h
      split_ifs at h with h1 h2
      · obtain ⟨d', hd, -⟩ := Option.map_eq_some_iff.1 h
        exact .cons (Or.inl h1) (ih hl hd)
      · obtain ⟨d', hd, -⟩ := Option.map_eq_some_iff.1 h
        exact .cons (Or.inr h2) (ih hl hd)

theorem fits_pad {k : Nat} {l r : List Nat} (hk : k ≤ r.length) : Fits (List.replicate k 1 ++ l) r ↔ Fits l (r.drop k) := by
  induction k generalizing r with
  | zero => rfl
  | succ k ih =>
    cases r with
    | nil => simp at hk
    | cons b r =>
      rw [List.replicate_succ, List.cons_append, List.drop_succ_cons]
      simp only [Fits, List.forall₂_cons, true_or, true_and]
      exact ih (by simpa using hk)

theorem repeats_iff {l r : List Nat} (h : l.length ≤ r.length) : Repeats l r ↔ Fits l (r.drop (r.length - l.length)) := by
  have hlen : l.length = (r.drop (r.length - l.length)).length := by rw [List.length_drop]; omega
  have hrev : (r.drop (r.length - l.length)).reverse = r.reverse.take l.length := by
    rw [List.take_reverse, ]
  unfold Fits
  rw [← List.forall₂_reverse_iff, List.forall₂_iff_get]
  constructor
  · rintro ⟨-, h2⟩
    refine ⟨by simpa using hlen, fun k h1 h3 => ?_⟩
    have := h2 k (by simpa using h1) (by have : k < l.length := by simpa using h1
                                         omega)
    simp only [List.get_eq_getElem, hrev, List.getElem_take]
    exact this
  · rintro ⟨-, h2⟩
    refine ⟨h, fun k h1 h3 => ?_⟩
    have := h2 k (by simpa using h1) (by rw [List.length_reverse, ← hlen]; exact h1)
    simp only [List.get_eq_getElem, hrev, List.getElem_take] at this
    exact this

theorem repeatedIndex_eq {l idx : List Nat} (h : l.length ≤ idx.length) :
    repeatedIndex l idx = List.zipWith (fun d i => if d = 1 then 0 else i) l (idx.drop (idx.length - l.length)) := by
  have hlen : l.length = (idx.drop (idx.length - l.length)).length := by rw [List.length_drop]; omega
  unfold repeatedIndex
  conv_lhs => rw [← List.take_append_drop (idx.length - l.length) idx, List.reverse_append]
  generalize idx.drop (idx.length - l.length) = b at hlen ⊢
  generalize (idx.take (idx.length - l.length)).reverse = a
  have h1 : List.zipWith (fun d i => if d = 1 then 0 else i) l.reverse (b.reverse ++ a) =
      List.zipWith (fun d i => if d = 1 then 0 else i) l.reverse b.reverse := by
    have := List.zipWith_append (f := fun d i => if d = 1 then 0 else i) (l₁ := l.reverse) (l₁' := ([] : List Nat))
      (l₂ := b.reverse) (l₂' := a) (by simpa using hlen)
    simpa using this
  rw [h1, ← List.reverse_zipWith hlen, List.reverse_reverse]

theorem matchLeading_spec (l : Rows α) (r : Rows β) :
    ((matchLeadingDimensions l r).isSome ↔ Repeats l.shape r.shape) ∧
    ∀ t, matchLeadingDimensions l r = some t → t.shape = r.shape ∧
      ∀ idx, idx.length = r.shape.length → t.get idx = l.get (repeatedIndex l.shape idx) := by
  unfold matchLeadingDimensions
  by_cases hlt : r.shape.length < l.shape.length
  · simp only [hlt, if_true]
    refine ⟨?_, fun t h => by simp at h⟩
    simp only [Option.isSome_none, Bool.false_eq_true, false_iff]
    rintro ⟨h, -⟩
    omega
  · simp only [hlt, if_false]
    have hle : l.shape.length ≤ r.shape.length := by omega
    have hpad : (l.unsqueezeTimes (r.shape.length - l.shape.length)).shape.length = r.shape.length := by
      rw [unsqueezeTimes_shape, List.length_append, List.length_replicate]; omega
    have hiff : Fits (l.unsqueezeTimes (r.shape.length - l.shape.length)).shape r.shape ↔ Repeats l.shape r.shape := by
      rw [unsqueezeTimes_shape, fits_pad (by omega), repeats_iff hle]
    refine ⟨?_, ?_⟩
    · rw [Option.isSome_map, ← hiff]
      constructor
      · intro h
        obtain ⟨d, hd⟩ := Option.isSome_iff_exists.1 h
        exact fits_of_newDims hpad hd
      · intro h
        rw [newDims_fits h]
        rfl
    · intro t ht
      obtain ⟨d, hd, rfl⟩ := Option.map_eq_some_iff.1 ht
      have hf := fits_of_newDims hpad hd
      rw [newDims_fits hf, Option.some.injEq] at hd
      subst hd
      refine ⟨rfl, fun idx hidx => ?_⟩
      show (l.unsqueezeTimes _).get _ = _
      rw [unsqueezeTimes_get, unsqueezeTimes_shape, List.drop_zipWith, repeatedIndex_eq (by omega), ← hidx,
        List.drop_left' (by simp)]

theorem repeatedIndex_inRange {l r idx : List Nat} (h : Repeats l r) (hidx : InRange r idx) : InRange l (repeatedIndex l idx) := by
  have hlen : idx.length = r.length := List.Forall₂.length_eq hidx
  rw [repeatedIndex_eq (by rw [hlen]; exact h.1)]
  have hf := (repeats_iff h.1).1 h
  have hd : InRange (r.drop (r.length - l.length)) (idx.drop (idx.length - l.length)) := by
    rw [hlen]
    exact List.forall₂_drop _ hidx
  generalize r.drop (r.length - l.length) = r' at hf hd
  generalize idx.drop (idx.length - l.length) = i' at hd
  unfold InRange at hd ⊢
  unfold Fits at hf
  clear h
  induction hf generalizing i' with
  | nil => cases hd; exact .nil
  | @cons a b l r hab _ ih =>
    cases hd with
    | cons h1 h2 =>
      refine .cons ?_ (ih _ h2)
      show (if a = 1 then 0 else _) < a
      split_ifs with h3
      · omega
      · rcases hab with hab | hab
        · exact absurd hab h3
        · rw [hab]; exact h1

end Momentum.TensorTransform
