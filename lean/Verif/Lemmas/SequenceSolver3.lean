import Verif.Lemmas.SequenceSolver2

/-!
# The system that an iteration of the sequence solver assembles
-/

namespace Momentum
open Finset
namespace SequenceFunction

variable {S : SequenceFunction} {active : Nat → Bool}

theorem mapM_some {α β : Type} (g : α → Option β) (k : α → β) (l : List α) (h : ∀ x ∈ l, g x = some (k x)) :
    l.mapM g = some (l.map k) := by
  induction l with
  | nil => rfl
  | cons x l ih => rw [List.mapM_cons, h x (by simp), ih fun y hy => h y (by simp [hy])]; rfl

theorem foldl_max_ge {α : Type} (l : List α) (x : α → Nat) (b : Nat) :
    b ≤ l.foldl (fun b F => max b (x F)) b ∧ ∀ F ∈ l, x F ≤ l.foldl (fun b F => max b (x F)) b := by
  induction l generalizing b with
  | nil => exact ⟨le_rfl, fun F hF => by simp at hF⟩
  | cons G l ih =>
    rw [List.foldl_cons]
    obtain ⟨h1, h2⟩ := ih (max b (x G))
    refine ⟨by omega, fun F hF => ?_⟩
    rcases List.mem_cons.1 hF with rfl | hF
    · omega
    · exact h2 F hF

theorem bandwidth_ge (S : SequenceFunction) :
    1 ≤ S.bandwidth ∧ ∀ f < S.nFrames, ∀ F ∈ S.sequenceErrors f, F.numFrames ≤ S.bandwidth := by
  unfold bandwidth
  rw [foldl_range_flatMap]
  obtain ⟨h1, h2⟩ := foldl_max_ge ((List.range S.nFrames).flatMap S.sequenceErrors) SeqErrorFunction.numFrames 1
  exact ⟨h1, fun f hf F hF => h2 F (List.mem_flatMap.2 ⟨f, List.mem_range.2 hf, hF⟩)⟩

/-- A fold with a running sum. -/
theorem foldlM_pair {α β : Type} (g : α → β → Option α) (e : β → ℝ) (l : List β) (s : α) (a : ℝ) :
    l.foldlM (fun (p : α × ℝ) f => do
      let s' ← g p.1 f
      some (s', p.2 + e f)) (s, a) = (l.foldlM g s).map fun s' => (s', a + (l.map e).sum) := by
  induction l generalizing s a with
  | nil => simp
  | cons x l ih =>
    rw [List.foldlM_cons, List.foldlM_cons]
    cases hg : g s x with
    | none => rfl
    | some s' =>
      refine (ih s' (a + e x)).trans ?_
      rw [List.map_cons, List.sum_cons, add_assoc]
      rfl

/-- What the error functions report fits into the rows they announce. -/
def RowsFit (S : SequenceFunction) (v : Nat → ℝ) : Prop :=
  (∀ f < S.nFrames, ∀ F ∈ S.frameErrors f, 0 < F.weight →
    (F.getJacobian ((S.setJoined v).frames f)).rows ≤ F.jacobianSize) ∧
  ∀ f < S.nFrames, ∀ F ∈ S.sequenceErrors f, 0 < F.weight →
    (F.getJacobian (subspan (S.setJoined v).frames f F.numFrames)).rows ≤ F.jacobianSize

/-- The Jacobian of frame `f`. -/
noncomputable def frameFill (S : SequenceFunction) (v : Nat → ℝ) (f : Nat) : Fill :=
  ((S.setJoined v).perFrameJacobian f).getD ⟨0, 0, fun _ _ => 0, fun _ => 0⟩

theorem frameFill_spec {v : Nat → ℝ} (hr : S.RowsFit v) {f : Nat} (hf : f < S.nFrames) :
    (S.setJoined v).perFrameJacobian f = some (S.frameFill v f) ∧
      S.Joins f 1 (S.frameFill v f) (S.stacked v (S.frameTermsAt f)) := by
  obtain ⟨s, h1, h2⟩ := perFrameJacobian_eq (S := S) v f fun F hF => by
    unfold weighted at hF
    have := List.mem_filter.1 hF
    exact hr.1 f hf F this.1 (by simpa using this.2)
  unfold frameFill
  rw [h1]
  exact ⟨rfl, h2⟩

/-- The call for frame `f`. -/
noncomputable def frameCall (S : SequenceFunction) (v : Nat → ℝ) (f : Nat) : BandCall :=
  S.windowCall f 1 (padForSSE (S.frameRows f)) (S.frameFill v f).e (S.frameFill v f).residual

/-- The merged Jacobian of the sequence functions that start at frame `f`. -/
noncomputable def seqFill (S : SequenceFunction) (v : Nat → ℝ) (bw f : Nat) : Fill :=
  ((S.setJoined v).sequenceJacobian f bw).getD ⟨0, 0, fun _ _ => 0, fun _ => 0⟩

/-- The call for the sequence functions that start at frame `f`. -/
noncomputable def seqCall (S : SequenceFunction) (v : Nat → ℝ) (bw f : Nat) : BandCall :=
  S.windowCall f (min (S.nFrames - f) bw) (padForSSE (S.seqRows f)) (S.seqFill v bw f).e (S.seqFill v bw f).residual

theorem seqFill_spec (h : S.Sets active) (hin : S.Inside) {v : Nat → ℝ} (hr : S.RowsFit v) {f : Nat} (hf : f < S.nFrames) :
    ∃ s, (S.setJoined v).sequenceJacobian f S.bandwidth = some (S.seqFill v S.bandwidth f) ∧
      S.Joins f (min (S.nFrames - f) S.bandwidth) s (S.stacked v (S.seqTermsAt f)) ∧
      (S.seqFill v S.bandwidth f).error = s.error ∧ (S.seqFill v S.bandwidth f).residual = s.residual ∧
      (∀ k, ∀ i ∈ S.perFrame, ∀ t, (S.seqFill v S.bandwidth f).e (k * S.np + i) t = s.e (k * S.np + i) t) ∧
      ∀ i ∈ S.universal, ∀ t, (S.seqFill v S.bandwidth f).e i t =
        ∑ k ∈ range (min (S.nFrames - f) S.bandwidth), s.e (k * S.np + i) t := by
  have hw : ∀ F ∈ weightedSeq (S.sequenceErrors f), F ∈ S.sequenceErrors f ∧ 0 < F.weight := by
    intro F hF
    unfold weightedSeq at hF
    have := List.mem_filter.1 hF
    exact ⟨this.1, by simpa using this.2⟩
  obtain ⟨s, h1, h2⟩ := sequenceLoop_eq (S := S) v f (min (S.nFrames - f) S.bandwidth)
    (fun F hF => by
      have := hin f F (hw F hF).1
      have := (bandwidth_ge S).2 f hf F (hw F hF).1
      omega)
    (fun F hF => hr.2 f hf F (hw F hF).1 (hw F hF).2)
  have e1 : (S.setJoined v).sequenceJacobian f S.bandwidth =
      some { s with e := S.universal.foldl (mergeColumn S.np (min (S.nFrames - f) S.bandwidth)) s.e } := by
    unfold sequenceJacobian
    show (do let s ← (weightedSeq (S.sequenceErrors f)).foldlM ((S.setJoined v).sequenceStep f (min (S.nFrames - f) S.bandwidth)
      (padForSSE (S.seqRows f))) ⟨0, 0, fun _ _ => 0, fun _ => 0⟩
             some { s with e := S.universal.foldl (mergeColumn S.np (min (S.nFrames - f) S.bandwidth)) s.e }) = _
    rw [h1]; rfl
  have e2 : S.seqFill v S.bandwidth f =
      { s with e := S.universal.foldl (mergeColumn S.np (min (S.nFrames - f) S.bandwidth)) s.e } := by
    unfold seqFill
    rw [e1]; rfl
  have hul : ∀ u ∈ S.universal, u < S.np := fun u hu => ((h.universal u).1 hu).1
  refine ⟨s, by rw [e1, e2], h2, by rw [e2], by rw [e2], fun k i hi t => ?_, fun i hi t => ?_⟩
  · rw [e2]
    show S.universal.foldl (mergeColumn S.np _) s.e (k * S.np + i) t = _
    rw [merge_eq _ _ _ h.nodup.2 hul, if_neg]
    intro hc
    rcases Nat.eq_zero_or_pos k with rfl | hk
    · rw [zero_mul, zero_add] at hc
      exact h.disjoint hi hc
    · have := hul _ hc
      have : S.np ≤ k * S.np := Nat.le_mul_of_pos_left _ hk
      omega
  · rw [e2]
    show S.universal.foldl (mergeColumn S.np _) s.e i t = _
    rw [merge_eq _ _ _ h.nodup.2 hul, if_pos hi]
    have hpos : 1 ≤ min (S.nFrames - f) S.bandwidth := by
      have := (bandwidth_ge S).1
      omega
    obtain ⟨m, hm⟩ := Nat.exists_eq_add_of_le hpos
    rw [hm, Nat.add_sub_cancel_left, Nat.add_comm 1 m, sum_range_succ']
    simp only [zero_mul, zero_add]
    ring

/-- A function of a row that looks only at the first `n` entries. -/
def LooksAt (n : Nat) (φ : (Nat → ℝ) → ℝ → ℝ) : Prop := ∀ a a' b, (∀ j < n, a j = a' j) → φ a b = φ a' b

/-- A sum over the rows of a history. -/
noncomputable def histSum (φ : (Nat → ℝ) → ℝ → ℝ) (hist : List Rows) : ℝ :=
  (hist.map fun r => ∑ t ∈ range r.m, φ (r.a t) (r.b t)).sum

theorem stacked_position (v : Nat → ℝ) (l : List (Nat × SeqErrorFunction)) :
    (S.stacked v l).position = (l.map fun T => ((S.term T).getJacobian v).rows).sum := by
  unfold stacked
  rw [fills_position, List.map_map]
  show 0 + _ = _
  rw [zero_add]; rfl

theorem rowSum_stacked {φ : (Nat → ℝ) → ℝ → ℝ} (h0 : φ (fun _ => 0) 0 = 0) (v : Nat → ℝ) (l : List (Nat × SeqErrorFunction))
    {N : Nat} (hN : (S.stacked v l).position ≤ N) :
    rowSum φ N (S.stacked v l).e (S.stacked v l).residual =
      (l.map fun T => rowSum φ ((S.term T).getJacobian v).rows ((S.term T).getJacobian v).e
        ((S.term T).getJacobian v).residual).sum := by
  have hc : (S.stacked v l).Clean := fills_clean v _ fun t _ => ⟨fun _ => rfl, rfl⟩
  rw [rowSum_extend h0 hc hN]
  unfold stacked
  rw [rowSum_fills, List.map_map]
  show rowSum φ 0 _ _ + _ = _
  unfold rowSum
  rw [sum_range_zero, zero_add]
  rfl

theorem call_rowSum {φ : (Nat → ℝ) → ℝ → ℝ} (hφ : LooksAt (S.nFrames * S.perFrame.length + S.universal.length) φ)
    {r : Rows} {s : Fill}
    (ha : ∀ t, ∀ j < S.nFrames * S.perFrame.length + S.universal.length, r.a t j = s.e j t) (hb : r.b = s.residual) :
    ∑ t ∈ range r.m, φ (r.a t) (r.b t) = rowSum φ r.m s.e s.residual := by
  unfold rowSum
  apply sum_congr rfl
  intro t _
  rw [hb]
  exact hφ _ _ _ (ha t)

theorem position_le {v : Nat → ℝ} {l : List (Nat × SeqErrorFunction)}
    (hl : ∀ T ∈ l, ((S.term T).getJacobian v).rows ≤ T.2.jacobianSize) :
    (S.stacked v l).position ≤ (l.map fun T => T.2.jacobianSize).sum := by
  rw [stacked_position]
  induction l with
  | nil => simp
  | cons T l ih =>
    rw [List.map_cons, List.sum_cons, List.map_cons, List.sum_cons]
    have := ih fun U hU => hl U (by simp [hU])
    have := hl T (by simp)
    omega

theorem terms_rows {v : Nat → ℝ} (hr : S.RowsFit v) {T : Nat × SeqErrorFunction} (hT : T ∈ S.terms) :
    ((S.term T).getJacobian v).rows ≤ T.2.jacobianSize := by
  rcases mem_terms.1 hT with ⟨F, e, hf, hm, hw⟩ | ⟨hf, hm, hw⟩
  · have := hr.1 _ hf F hm hw
    rw [e]
    show (F.getJacobian (subspan (S.setJoined v).frames T.1 1 0)).rows ≤ F.jacobianSize
    rw [subspan_one]
    exact this
  · exact hr.2 _ hf _ hm hw

theorem frameTermsAt_mem {f : Nat} (hf : f < S.nFrames) {T : Nat × SeqErrorFunction} (hT : T ∈ S.frameTermsAt f) : T ∈ S.terms := by
  unfold terms frameTerms
  exact List.mem_append_left _ (List.mem_flatMap.2 ⟨f, List.mem_range.2 hf, hT⟩)

theorem seqTermsAt_mem {f : Nat} (hf : f < S.nFrames) {T : Nat × SeqErrorFunction} (hT : T ∈ S.seqTermsAt f) : T ∈ S.terms := by
  unfold terms seqTerms
  exact List.mem_append_right _ (List.mem_flatMap.2 ⟨f, List.mem_range.2 hf, hT⟩)

/-- The rows of the call for frame `f` are those of the terms of that frame. -/
theorem frameCall_sum (h : S.Sets active) {v : Nat → ℝ} (hr : S.RowsFit v) {f : Nat} (hf : f < S.nFrames)
    {φ : (Nat → ℝ) → ℝ → ℝ} (h0 : φ (fun _ => 0) 0 = 0)
    (hφ : LooksAt (S.nFrames * S.perFrame.length + S.universal.length) φ) :
    histSum φ [(S.frameCall v f).toRows (S.nFrames * S.perFrame.length)] =
      ((S.frameTermsAt f).map fun T => rowSum φ ((S.term T).getJacobian v).rows ((S.term T).getJacobian v).e
        ((S.term T).getJacobian v).residual).sum := by
  obtain ⟨-, hj⟩ := frameFill_spec hr hf
  have key := call_rowSum (S := S) hφ (r := (S.frameCall v f).toRows (S.nFrames * S.perFrame.length))
    (s := S.stacked v (S.frameTermsAt f)) (fun t j hj' => by
      rw [← hj.e]
      exact windowCall_rows h (by omega) (by omega) _ _ _ (fun _ _ _ _ _ => rfl)
        (fun i _ t => by rw [sum_range_one, zero_mul, zero_add]) t j hj')
    hj.residual
  show (([(S.frameCall v f).toRows _]).map _).sum = _
  rw [List.map_singleton, List.sum_singleton, key]
  apply rowSum_stacked h0
  show _ ≤ padForSSE (S.frameRows f)
  refine le_trans (position_le fun T hT => terms_rows hr (frameTermsAt_mem hf hT)) (le_trans (le_of_eq ?_) (pad_ge _))
  rw [frameRows_eq]
  unfold frameTermsAt
  rw [List.map_map, List.map_map]; rfl

/-- The rows of the call for the sequence functions of frame `f` are those of their terms. -/
theorem seqCall_sum (h : S.Sets active) (hin : S.Inside) {v : Nat → ℝ} (hr : S.RowsFit v) {f : Nat} (hf : f < S.nFrames)
    {φ : (Nat → ℝ) → ℝ → ℝ} (h0 : φ (fun _ => 0) 0 = 0)
    (hφ : LooksAt (S.nFrames * S.perFrame.length + S.universal.length) φ) :
    histSum φ [(S.seqCall v S.bandwidth f).toRows (S.nFrames * S.perFrame.length)] =
      ((S.seqTermsAt f).map fun T => rowSum φ ((S.term T).getJacobian v).rows ((S.term T).getJacobian v).e
        ((S.term T).getJacobian v).residual).sum := by
  obtain ⟨s, -, hj, -, h2, h3, h4⟩ := seqFill_spec h hin hr hf
  have hb := (bandwidth_ge S).1
  have key := call_rowSum (S := S) hφ (r := (S.seqCall v S.bandwidth f).toRows (S.nFrames * S.perFrame.length))
    (s := S.stacked v (S.seqTermsAt f)) (fun t j hj' => by
      rw [← hj.e]
      exact windowCall_rows h (by omega) (by omega) _ _ _ (fun k _ i hi t => h3 k i hi t) h4 t j hj')
    (h2.trans hj.residual)
  show (([(S.seqCall v S.bandwidth f).toRows _]).map _).sum = _
  rw [List.map_singleton, List.sum_singleton, key]
  apply rowSum_stacked h0
  show _ ≤ padForSSE (S.seqRows f)
  refine le_trans (position_le fun T hT => terms_rows hr (seqTermsAt_mem hf hT)) (le_trans (le_of_eq ?_) (pad_ge _))
  rw [seqRows_eq]
  unfold seqTermsAt
  rw [List.map_map]; rfl

end SequenceFunction
end Momentum
