import Verif.Model.SequenceSolver
import Verif.Lemmas.SequenceFunction
import Verif.Props.SequenceFunction
import Verif.Props.BandedQr

/-!
# The system of the sequence solver
-/

namespace Momentum
open Finset
namespace SequenceFunction

variable {S : SequenceFunction} {active : Nat → Bool}

/-! ### Sums over the rows of blocks written one below the other -/

/-- A sum over rows. -/
noncomputable def rowSum (φ : (Nat → ℝ) → ℝ → ℝ) (m : Nat) (e : Nat → Nat → ℝ) (b : Nat → ℝ) : ℝ :=
  ∑ t ∈ range m, φ (fun j => e j t) (b t)

theorem rowSum_extend {φ : (Nat → ℝ) → ℝ → ℝ} (h0 : φ (fun _ => 0) 0 = 0) {s : Fill} (hs : s.Clean) {N : Nat}
    (hN : s.position ≤ N) : rowSum φ N s.e s.residual = rowSum φ s.position s.e s.residual := by
  unfold rowSum
  symm
  apply sum_subset (range_subset_range.2 hN)
  intro t _ ht
  obtain ⟨h1, h2⟩ := hs t (by simpa using ht)
  rw [show (fun j => s.e j t) = fun _ => 0 from funext h1, h2, h0]

theorem rowSum_fill (φ : (Nat → ℝ) → ℝ → ℝ) (v : Nat → ℝ) (s : Fill) (F : ErrorFunction) :
    rowSum φ (fill v s F).position (fill v s F).e (fill v s F).residual =
      rowSum φ s.position s.e s.residual + rowSum φ (F.getJacobian v).rows (F.getJacobian v).e (F.getJacobian v).residual := by
  unfold rowSum
  show ∑ t ∈ range (s.position + (F.getJacobian v).rows), _ = _
  rw [sum_range_add]
  congr 1
  · apply sum_congr rfl
    intro t ht
    have ht := mem_range.1 ht
    have e1 : (fun j => (fill v s F).e j t) = fun j => s.e j t := by
      funext j
      exact if_neg (by omega)
    have e2 : (fill v s F).residual t = s.residual t := if_neg (by omega)
    rw [e1, e2]
  · apply sum_congr rfl
    intro t ht
    have ht := mem_range.1 ht
    have e1 : (fun j => (fill v s F).e j (s.position + t)) = fun j => (F.getJacobian v).e j t := by
      funext j
      show (if _ then (F.getJacobian v).e j (s.position + t - s.position) else _) = _
      rw [if_pos (by omega), Nat.add_sub_cancel_left]
    have e2 : (fill v s F).residual (s.position + t) = (F.getJacobian v).residual t := by
      show (if _ then (F.getJacobian v).residual (s.position + t - s.position) else _) = _
      rw [if_pos (by omega), Nat.add_sub_cancel_left]
    rw [e1, e2]

theorem rowSum_fills (φ : (Nat → ℝ) → ℝ → ℝ) (v : Nat → ℝ) (fs : List ErrorFunction) (s : Fill) :
    rowSum φ (fs.foldl (fill v) s).position (fs.foldl (fill v) s).e (fs.foldl (fill v) s).residual =
      rowSum φ s.position s.e s.residual +
        (fs.map fun F => rowSum φ (F.getJacobian v).rows (F.getJacobian v).e (F.getJacobian v).residual).sum := by
  induction fs generalizing s with
  | nil => simp
  | cons F fs ih => rw [List.foldl_cons, ih, rowSum_fill, List.map_cons, List.sum_cons, add_assoc]

theorem fills_clean (v : Nat → ℝ) (fs : List ErrorFunction) {s : Fill} (hs : s.Clean) : (fs.foldl (fill v) s).Clean := by
  induction fs generalizing s with
  | nil => exact hs
  | cons F fs ih => rw [List.foldl_cons]; exact ih (fill_clean hs F)

theorem fills_position (v : Nat → ℝ) (fs : List ErrorFunction) (s : Fill) :
    (fs.foldl (fill v) s).position = s.position + (fs.map fun F => (F.getJacobian v).rows).sum := by
  induction fs generalizing s with
  | nil => rfl
  | cons F fs ih => rw [List.foldl_cons, ih, List.map_cons, List.sum_cons, ← add_assoc]; rfl

theorem fills_error (v : Nat → ℝ) (fs : List ErrorFunction) (s : Fill) :
    (fs.foldl (fill v) s).error = s.error + (fs.map fun F => (F.getJacobian v).error).sum := by
  induction fs generalizing s with
  | nil => simp
  | cons F fs ih => rw [List.foldl_cons, ih, List.map_cons, List.sum_cons, ← add_assoc]; rfl

/-! ### The blocks of the solver -/

/-- `s` has one column per parameter and frame, `n` frames from `f` on; `s'` has one column per entry of the joined vector. -/
structure Joins (S : SequenceFunction) (f n : Nat) (s s' : Fill) : Prop where
  error : s.error = s'.error
  position : s.position = s'.position
  residual : s.residual = s'.residual
  e : ∀ j t, ∑ k ∈ range n, ∑ i ∈ range S.np, s.e (k * S.np + i) t * S.coord j (f + k) i = s'.e j t
  clean : s.Clean

theorem joins_zero (S : SequenceFunction) (f n : Nat) :
    S.Joins f n ⟨0, 0, fun _ _ => 0, fun _ => 0⟩ ⟨0, 0, fun _ _ => 0, fun _ => 0⟩ :=
  ⟨rfl, rfl, rfl, fun _ _ => by simp, fun _ _ => ⟨fun _ => rfl, rfl⟩⟩

theorem joins_put {f n : Nat} {s s' : Fill} (h : S.Joins f n s s') (v : Nat → ℝ) (F : SeqErrorFunction)
    (hF : F.numFrames ≤ n) :
    S.Joins f n (putBlock (F.numFrames * S.np) s (F.getJacobian (subspan (S.setJoined v).frames f F.numFrames)))
      (fill v s' (S.term (f, F))) := by
  set r := F.getJacobian (subspan (S.setJoined v).frames f F.numFrames) with hr
  have hrow : ((S.term (f, F)).getJacobian v).rows = r.rows := rfl
  refine ⟨?_, ?_, ?_, fun j t => ?_, fun t ht => ?_⟩
  · show s.error + r.error = s'.error + r.error
    rw [h.error]
  · show s.position + r.rows = s'.position + r.rows
    rw [h.position]
  · funext t
    show (if s.position ≤ t ∧ t < s.position + r.rows then r.residual (t - s.position) else s.residual t) =
      (if s'.position ≤ t ∧ t < s'.position + r.rows then r.residual (t - s'.position) else s'.residual t)
    rw [h.position, h.residual]
  · show ∑ k ∈ range n, ∑ i ∈ range S.np, (if k * S.np + i < F.numFrames * S.np ∧ s.position ≤ t ∧ t < s.position + r.rows then
        r.e (k * S.np + i) (t - s.position) else s.e (k * S.np + i) t) * S.coord j (f + k) i =
      (if s'.position ≤ t ∧ t < s'.position + r.rows then
        ∑ k ∈ range F.numFrames, ∑ i ∈ range S.np, r.e (k * S.np + i) (t - s'.position) * S.coord j (f + k) i else s'.e j t)
    by_cases hb : s.position ≤ t ∧ t < s.position + r.rows
    · rw [if_pos (h.position ▸ hb), ← h.position]
      symm
      rw [← sum_subset (range_subset_range.2 hF) (f := fun k => ∑ i ∈ range S.np, (if k * S.np + i < F.numFrames * S.np ∧
        s.position ≤ t ∧ t < s.position + r.rows then r.e (k * S.np + i) (t - s.position) else s.e (k * S.np + i) t) *
          S.coord j (f + k) i)]
      · apply sum_congr rfl
        intro k hk
        apply sum_congr rfl
        intro i hi
        have : k * S.np + i < F.numFrames * S.np := by
          calc k * S.np + i < k * S.np + S.np := by have := mem_range.1 hi; omega
            _ = (k + 1) * S.np := by ring
            _ ≤ _ := Nat.mul_le_mul_right _ (mem_range.1 hk)
        rw [if_pos ⟨this, hb⟩]
      · intro k _ hk
        apply sum_eq_zero
        intro i hi
        have : ¬ k * S.np + i < F.numFrames * S.np := by
          have : F.numFrames * S.np ≤ k * S.np := Nat.mul_le_mul_right _ (by simpa using hk)
          omega
        rw [if_neg fun hc => this hc.1, (h.clean t hb.1).1, zero_mul]
    · rw [if_neg (h.position ▸ hb), ← h.e]
      apply sum_congr rfl
      intro k hk
      apply sum_congr rfl
      intro i hi
      rw [if_neg fun hc => hb hc.2]
  · have ht : s.position + r.rows ≤ t := ht
    refine ⟨fun j => ?_, ?_⟩
    · show (if _ then _ else _) = _
      rw [if_neg (by omega), (h.clean t (by omega)).1]
    · show (if _ then _ else _) = _
      rw [if_neg (by omega), (h.clean t (by omega)).2]

/-- The loop of `computeSequenceJacobian`. -/
theorem sequence_fold (v : Nat → ℝ) (f n size : Nat) (l : List SeqErrorFunction) (hl : ∀ F ∈ l, F.numFrames ≤ n)
    (hr : ∀ F ∈ l, (F.getJacobian (subspan (S.setJoined v).frames f F.numFrames)).rows ≤ F.jacobianSize) (s s' : Fill)
    (hs : S.Joins f n s s') (hsz : s.position + (l.map SeqErrorFunction.jacobianSize).sum ≤ size) :
    ∃ s2, l.foldlM ((S.setJoined v).sequenceStep f n size) s = some s2 ∧
      S.Joins f n s2 ((l.map fun F => S.term (f, F)).foldl (fill v) s') := by
  induction l generalizing s s' with
  | nil => exact ⟨s, rfl, hs⟩
  | cons F l ih =>
    rw [List.map_cons, List.sum_cons] at hsz
    have hF := hr F (by simp)
    rw [List.foldlM_cons, List.map_cons, List.foldl_cons]
    unfold sequenceStep
    rw [if_pos ⟨hl F (by simp), by omega⟩]
    exact ih (fun G hG => hl G (by simp [hG])) (fun G hG => hr G (by simp [hG])) _ _
      (joins_put hs v F (hl F (by simp)))
      (by show s.position + (F.getJacobian (subspan (S.setJoined v).frames f F.numFrames)).rows + _ ≤ _; omega)

theorem perFrameStep_eq (S : SequenceFunction) (f size : Nat) (s : Fill) (F : ErrorFunction) :
    S.perFrameStep f size s F = S.sequenceStep f 1 size s F.toSeq := by
  unfold perFrameStep sequenceStep
  have e : F.toSeq.getJacobian (subspan S.frames f F.toSeq.numFrames) = F.getJacobian (S.frames f) := by
    show F.getJacobian (subspan S.frames f 1 0) = _
    rw [subspan_one]
  have h1 : F.toSeq.numFrames = 1 := rfl
  have h2 : F.toSeq.jacobianSize = F.jacobianSize := rfl
  rw [e, h1, h2, one_mul]
  by_cases h : s.position + F.jacobianSize ≤ size
  · rw [if_pos h, if_pos ⟨le_rfl, h⟩]
  · rw [if_neg h, if_neg fun hc => h hc.2]

theorem foldlM_congr_mem {α β : Type} (g g' : α → β → Option α) (l : List β) (h : ∀ s, ∀ x ∈ l, g s x = g' s x) (s : α) :
    l.foldlM g s = l.foldlM g' s := by
  induction l generalizing s with
  | nil => rfl
  | cons x l ih =>
    rw [List.foldlM_cons, List.foldlM_cons, h s x (by simp)]
    congr 1
    funext s'
    exact ih (fun s y hy => h s y (by simp [hy])) s'

theorem pad_ge (n : Nat) : n ≤ padForSSE n := by unfold padForSSE; omega

theorem frameRows_eq (S : SequenceFunction) (f : Nat) :
    S.frameRows f = (((weighted (S.frameErrors f)).map ErrorFunction.toSeq).map SeqErrorFunction.jacobianSize).sum := by
  unfold frameRows
  rw [List.map_map]
  have : ∀ (l : List ErrorFunction) (n : Nat), l.foldl (fun n F => n + F.jacobianSize) n =
      n + (l.map (SeqErrorFunction.jacobianSize ∘ ErrorFunction.toSeq)).sum := by
    intro l
    induction l with
    | nil => intro n; rfl
    | cons F l ih => intro n; rw [List.foldl_cons, ih, List.map_cons, List.sum_cons, ← add_assoc]; rfl
  rw [this, zero_add]

theorem seqRows_eq (S : SequenceFunction) (f : Nat) :
    S.seqRows f = ((weightedSeq (S.sequenceErrors f)).map SeqErrorFunction.jacobianSize).sum := by
  unfold seqRows
  have : ∀ (l : List SeqErrorFunction) (n : Nat), l.foldl (fun n F => n + F.jacobianSize) n =
      n + (l.map SeqErrorFunction.jacobianSize).sum := by
    intro l
    induction l with
    | nil => intro n; rfl
    | cons F l ih => intro n; rw [List.foldl_cons, ih, List.map_cons, List.sum_cons, ← add_assoc]
  rw [this, zero_add]

/-- The terms of one frame. -/
noncomputable def frameTermsAt (S : SequenceFunction) (f : Nat) : List (Nat × SeqErrorFunction) :=
  (weighted (S.frameErrors f)).map fun F => (f, F.toSeq)

/-- The sequence terms of one frame. -/
noncomputable def seqTermsAt (S : SequenceFunction) (f : Nat) : List (Nat × SeqErrorFunction) :=
  (weightedSeq (S.sequenceErrors f)).map fun F => (f, F)

/-- What the blocks of some terms are, one below the other, in the joined parameters. -/
noncomputable def stacked (S : SequenceFunction) (v : Nat → ℝ) (l : List (Nat × SeqErrorFunction)) : Fill :=
  (l.map S.term).foldl (fill v) ⟨0, 0, fun _ _ => 0, fun _ => 0⟩

/-- `computePerFrameJacobian`. -/
theorem perFrameJacobian_eq (v : Nat → ℝ) (f : Nat)
    (hr : ∀ F ∈ weighted (S.frameErrors f), (F.getJacobian ((S.setJoined v).frames f)).rows ≤ F.jacobianSize) :
    ∃ s, (S.setJoined v).perFrameJacobian f = some s ∧ S.Joins f 1 s (S.stacked v (S.frameTermsAt f)) := by
  obtain ⟨s, h1, h2⟩ := sequence_fold (S := S) v f 1 (padForSSE (S.frameRows f))
    ((weighted (S.frameErrors f)).map ErrorFunction.toSeq)
    (by intro F hF; obtain ⟨G, -, rfl⟩ := List.mem_map.1 hF; exact le_rfl)
    (by
      intro F hF
      obtain ⟨G, hG, rfl⟩ := List.mem_map.1 hF
      show (G.getJacobian (subspan (S.setJoined v).frames f 1 0)).rows ≤ _
      rw [subspan_one]
      exact hr G hG) _ _ (joins_zero S f 1)
    (by rw [← frameRows_eq]; show 0 + _ ≤ _; rw [zero_add]; exact pad_ge _)
  refine ⟨s, ?_, ?_⟩
  · rw [List.foldlM_map] at h1
    unfold perFrameJacobian
    rw [← h1]
    exact foldlM_congr_mem _ _ _ (fun s F _ => perFrameStep_eq (S.setJoined v) f _ s F) _
  · unfold stacked frameTermsAt
    rw [List.map_map] at h2 ⊢
    exact h2

/-- The loop of `computeSequenceJacobian`, before the columns are merged. -/
theorem sequenceLoop_eq (v : Nat → ℝ) (f n : Nat) (hn : ∀ F ∈ weightedSeq (S.sequenceErrors f), F.numFrames ≤ n)
    (hr : ∀ F ∈ weightedSeq (S.sequenceErrors f),
      (F.getJacobian (subspan (S.setJoined v).frames f F.numFrames)).rows ≤ F.jacobianSize) :
    ∃ s, (weightedSeq (S.sequenceErrors f)).foldlM ((S.setJoined v).sequenceStep f n (padForSSE (S.seqRows f)))
        ⟨0, 0, fun _ _ => 0, fun _ => 0⟩ = some s ∧ S.Joins f n s (S.stacked v (S.seqTermsAt f)) := by
  obtain ⟨s, h1, h2⟩ := sequence_fold (S := S) v f n (padForSSE (S.seqRows f)) _ hn hr _ _ (joins_zero S f n)
    (by rw [← seqRows_eq]; show 0 + _ ≤ _; rw [zero_add]; exact pad_ge _)
  refine ⟨s, h1, ?_⟩
  unfold stacked seqTermsAt
  rw [List.map_map]
  exact h2

end SequenceFunction
end Momentum
