import Verif.Lemmas.SequenceSolver3
import Verif.Props.SequencePipeline

/-!
# The system that an iteration of the sequence solver assembles, continued
-/

namespace Momentum
open Finset
namespace SequenceFunction

variable {S : SequenceFunction} {active : Nat → Bool}

/-- All calls: the frames, then the sequence functions by their first frame. -/
noncomputable def allCalls (S : SequenceFunction) (v : Nat → ℝ) : List BandCall :=
  (List.range S.nFrames).map (S.frameCall v) ++
    if ∀ f < S.nFrames, S.sequenceErrors f = [] then [] else (List.range S.nFrames).map (S.seqCall v S.bandwidth)

theorem allCalls_fit (h : S.Sets active) (v : Nat → ℝ) : ∀ c ∈ S.allCalls v,
    c.Fits (S.nFrames * S.perFrame.length) S.universal.length (S.bandwidth * S.perFrame.length) := by
  have hb := (bandwidth_ge S).1
  intro c hc
  rcases List.mem_append.1 hc with hc | hc
  · obtain ⟨f, hf, rfl⟩ := List.mem_map.1 hc
    have := List.mem_range.1 hf
    exact windowCall_fits h (by omega) (by omega) _ _ _
  · split_ifs at hc
    · simp at hc
    · obtain ⟨f, hf, rfl⟩ := List.mem_map.1 hc
      have := List.mem_range.1 hf
      exact windowCall_fits h (by omega) (by omega) _ _ _

theorem allCalls_ordered (S : SequenceFunction) (v : Nat → ℝ) : BandOrdered (S.allCalls v) := by
  have hlt : ∀ n, (List.range n).Pairwise (· < ·) := fun n => List.pairwise_lt_range
  unfold BandOrdered allCalls
  rw [List.pairwise_append]
  refine ⟨?_, ?_, ?_⟩
  · rw [List.pairwise_map]
    refine (hlt _).imp fun {a b} hab _ => ?_
    unfold frameCall
    rw [windowCall_window, windowCall_window]
    exact Nat.mul_le_mul_right _ (by omega)
  · split_ifs
    · exact List.Pairwise.nil
    · rw [List.pairwise_map]
      refine (hlt _).imp fun {a b} hab _ => ?_
      unfold seqCall
      rw [windowCall_window, windowCall_window]
      exact Nat.mul_le_mul_right _ (by omega)
  · intro c hc d hd
    obtain ⟨f, hf, rfl⟩ := List.mem_map.1 hc
    split_ifs at hd
    · simp at hd
    · obtain ⟨g, hg, rfl⟩ := List.mem_map.1 hd
      unfold seqCall frameCall
      rw [windowCall_window, windowCall_window]
      rintro ⟨j, h1, h2, h3, h4⟩
      dsimp only at h1 h2 h3 h4 ⊢
      apply Nat.mul_le_mul_right
      by_contra hc
      have : (g + min (S.nFrames - g) S.bandwidth) * S.perFrame.length ≤ f * S.perFrame.length :=
        Nat.mul_le_mul_right _ (by omega)
      omega

theorem histSum_append (φ : (Nat → ℝ) → ℝ → ℝ) (l l' : List Rows) : histSum φ (l ++ l') = histSum φ l + histSum φ l' := by
  unfold histSum
  rw [List.map_append, List.sum_append]

theorem histSum_range (φ : (Nat → ℝ) → ℝ → ℝ) (n : Nat) (c : Nat → Rows) :
    histSum φ ((List.range n).map c) = ((List.range n).map fun f => histSum φ [c f]).sum := by
  unfold histSum
  rw [List.map_map]
  congr 1
  apply List.map_congr_left
  intro f _
  simp

/-- The rows of all calls are the rows of the Jacobian of the whole sequence. -/
theorem allCalls_sum (h : S.Sets active) (hin : S.Inside) {v : Nat → ℝ} (hr : S.RowsFit v) {b : Buffers} (hb : b.Fresh S)
    {φ : (Nat → ℝ) → ℝ → ℝ} (h0 : φ (fun _ => 0) 0 = 0)
    (hφ : LooksAt (S.nFrames * S.perFrame.length + S.universal.length) φ) :
    histSum φ (bandHistory (S.nFrames * S.perFrame.length) (S.allCalls v)) =
      rowSum φ (S.getJacobian v b).2.1 (S.getJacobian v b).2.2.1.e (S.getJacobian v b).2.2.1.residual := by
  obtain ⟨-, e2, e3, e4⟩ := getJacobian_eq h hin v b hb
  have hst : (S.terms.map S.term).foldl (fill v) ⟨0, 0, fun _ _ => 0, fun _ => 0⟩ = S.stacked v S.terms := rfl
  rw [hst] at e3 e4
  rw [e2, e3, e4, rowSum_stacked h0 v S.terms (by rw [jacobianSize_eq]; exact position_le fun T hT => terms_rows hr hT)]
  unfold bandHistory allCalls
  rw [List.map_append, histSum_append, List.map_map]
  unfold terms frameTerms seqTerms
  rw [List.map_append, List.sum_append, sum_flatMap, sum_flatMap]
  congr 1
  · refine (histSum_range φ S.nFrames _).trans ?_
    congr 1
    apply List.map_congr_left
    intro f hf
    exact frameCall_sum h hr (List.mem_range.1 hf) h0 hφ
  · split_ifs with hs
    · show histSum φ [] = _
      have : ∀ f ∈ List.range S.nFrames, (((weightedSeq (S.sequenceErrors f)).map fun F => (f, F)).map fun T =>
          rowSum φ ((S.term T).getJacobian v).rows ((S.term T).getJacobian v).e ((S.term T).getJacobian v).residual).sum = 0 := by
        intro f hf
        rw [hs f (List.mem_range.1 hf)]
        rfl
      rw [List.map_congr_left this]
      simp [histSum]
    · rw [List.map_map]
      refine (histSum_range φ S.nFrames _).trans ?_
      congr 1
      apply List.map_congr_left
      intro f hf
      exact seqCall_sum h hin hr (List.mem_range.1 hf) h0 hφ

theorem objective_hist (n : Nat) (lambda : ℝ) (hist : List Rows) (x : Nat → ℝ) :
    objective n lambda hist x = lambda ^ 2 * ∑ j ∈ range n, x j ^ 2 +
      histSum (fun a b => (∑ j ∈ range n, a j * x j - b) ^ 2) hist := rfl

theorem rhs_hist (hist : List Rows) (j : Nat) : normalRhs hist j = histSum (fun a b => a j * b) hist := rfl

/-! ### The run -/

theorem blocks_eq {v : Nat → ℝ} (hr : S.RowsFit v) : ∃ Q, (S.setJoined v).blocks = some Q ∧ Q.nFrames = S.nFrames ∧
    Q.perFrame = S.perFrame ∧ Q.universal = S.universal ∧ Q.np = S.np ∧ ∀ f < S.nFrames,
      Q.rows f = padForSSE (S.frameRows f) ∧ Q.jacobian f = (S.frameFill v f).e ∧
      Q.residual f = (S.frameFill v f).residual ∧ Q.error f = (S.frameFill v f).error := by
  have hm := mapM_some (S.setJoined v).perFrameJacobian (S.frameFill v) (List.range S.nFrames) fun f hf =>
    (frameFill_spec hr (List.mem_range.1 hf)).1
  unfold blocks
  show ∃ Q, (do let l ← (List.range S.nFrames).mapM (S.setJoined v).perFrameJacobian; _) = some Q ∧ _
  rw [hm]
  refine ⟨_, rfl, rfl, rfl, rfl, rfl, fun f hf => ?_⟩
  have hg : ((List.range S.nFrames).map (S.frameFill v))[f]? = some (S.frameFill v f) := by
    rw [List.getElem?_map, List.getElem?_range hf]; rfl
  refine ⟨rfl, ?_, ?_, ?_⟩ <;> simp only [hg] <;> rfl

theorem sequenceColumns_one (S : SequenceFunction) : S.sequenceColumns 1 = S.perFrame := by
  unfold sequenceColumns
  simp

theorem blocks_call {v : Nat → ℝ} {Q : SequenceBlocks ℝ} {f : Nat} (h2 : Q.perFrame = S.perFrame)
    (h3 : Q.universal = S.universal) (h4 : Q.np = S.np) (h5 : Q.rows f = padForSSE (S.frameRows f) ∧
      Q.jacobian f = (S.frameFill v f).e ∧ Q.residual f = (S.frameFill v f).residual ∧
      Q.error f = (S.frameFill v f).error) (s : BandQr) :
    s.add (f * Q.perFrame.length) (Q.band f) (Q.common f) (Q.rows f) (Q.residual f) = s.call (S.frameCall v f) := by
  obtain ⟨a, b, c, -⟩ := h5
  unfold frameCall windowCall SequenceBlocks.band SequenceBlocks.common
  rw [a, b, c, h2, h3, h4, sequenceColumns_one, one_mul]
  rfl

theorem foldlM_map_call (l : List Nat) (c : Nat → BandCall) (s : BandQr) :
    (l.map c).foldlM BandQr.call s = l.foldlM (fun s f => s.call (c f)) s := List.foldlM_map ..

theorem serial_calls {v : Nat → ℝ} {Q : SequenceBlocks ℝ} (h1 : Q.nFrames = S.nFrames) (h2 : Q.perFrame = S.perFrame)
    (h3 : Q.universal = S.universal) (h4 : Q.np = S.np) (h5 : ∀ f < S.nFrames, Q.rows f = padForSSE (S.frameRows f) ∧
      Q.jacobian f = (S.frameFill v f).e ∧ Q.residual f = (S.frameFill v f).residual ∧
      Q.error f = (S.frameFill v f).error) (s : BandQr) :
    Q.serial s = (((List.range S.nFrames).map (S.frameCall v)).foldlM BandQr.call s).map fun s' =>
      (s', 0 + ((List.range S.nFrames).map fun f => (S.frameFill v f).error).sum) := by
  unfold SequenceBlocks.serial
  rw [h1, foldlM_map_call, ← foldlM_pair]
  apply foldlM_congr_mem
  intro p f hf
  have hf := List.mem_range.1 hf
  rw [blocks_call h2 h3 h4 (h5 f hf), (h5 f hf).2.2.2]

theorem sequencePass_calls (h : S.Sets active) (hin : S.Inside) {v : Nat → ℝ} (hr : S.RowsFit v) (hP : S.perFrame ≠ [])
    (s : BandQr) (hs : s.bw = S.bandwidth * S.perFrame.length) :
    (S.setJoined v).sequencePass s =
      ((if ∀ f < S.nFrames, S.sequenceErrors f = [] then [] else
        (List.range S.nFrames).map (S.seqCall v S.bandwidth)).foldlM BandQr.call s).map fun s' =>
      (s', ((List.range S.nFrames).map fun f =>
        ((weightedSeq (S.sequenceErrors f)).map fun F => ((S.term (f, F)).getJacobian v).error).sum).sum) := by
  have hP0 : 0 < S.perFrame.length := List.length_pos_iff.2 hP
  unfold sequencePass
  show (if ∀ f < S.nFrames, S.sequenceErrors f = [] then _ else if S.perFrame.length = 0 ∨ s.bw % S.perFrame.length ≠ 0 then _
    else (List.range S.nFrames).foldlM ((S.setJoined v).sequencePassStep (s.bw / S.perFrame.length)) (s, 0)) = _
  by_cases he : ∀ f < S.nFrames, S.sequenceErrors f = []
  · rw [if_pos he, if_pos he]
    have : ∀ f ∈ List.range S.nFrames,
        ((weightedSeq (S.sequenceErrors f)).map fun F => ((S.term (f, F)).getJacobian v).error).sum = 0 := by
      intro f hf
      rw [he f (List.mem_range.1 hf)]; rfl
    rw [List.map_congr_left this]
    simp
  · rw [if_neg he, if_neg he, if_neg, hs, Nat.mul_div_cancel _ hP0, foldlM_map_call]
    · have hz : ∀ s' : BandQr, (s', ((List.range S.nFrames).map fun f =>
          ((weightedSeq (S.sequenceErrors f)).map fun F => ((S.term (f, F)).getJacobian v).error).sum).sum) =
          (s', 0 + ((List.range S.nFrames).map fun f => (S.seqFill v S.bandwidth f).error).sum) := by
        intro s'
        rw [zero_add]
        congr 2
        apply List.map_congr_left
        intro f hf
        obtain ⟨t, -, hj, h1, -⟩ := seqFill_spec h hin hr (List.mem_range.1 hf)
        rw [h1, hj.error]
        unfold stacked seqTermsAt
        rw [fills_error, List.map_map, List.map_map]
        show _ = 0 + _
        rw [zero_add]; rfl
      simp only [hz]
      rw [← foldlM_pair]
      apply foldlM_congr_mem
      intro p f hf
      obtain ⟨t, h1, -⟩ := seqFill_spec h hin hr (List.mem_range.1 hf)
      unfold sequencePassStep
      simp only
      rw [h1]
      show (do let q ← p.1.add (f * S.perFrame.length)
                  ⟨padForSSE (S.seqRows f), min (S.nFrames - f) S.bandwidth * S.np, (S.seqFill v S.bandwidth f).e, true,
                    (S.sequenceColumns S.bandwidth).take (min (S.nFrames - f) S.bandwidth * S.perFrame.length)⟩
                  ⟨padForSSE (S.seqRows f), min (S.nFrames - f) S.bandwidth * S.np, (S.seqFill v S.bandwidth f).e, true,
                    S.universal⟩ (padForSSE (S.seqRows f)) (S.seqFill v S.bandwidth f).residual
               some (q, p.2 + (S.seqFill v S.bandwidth f).error)) = _
      rw [take_columns S (by omega)]
      rfl
    · rw [hs, Nat.mul_mod_left]; omega

/-- What is assembled: the banded solver after all calls. -/
theorem assemble_spec (s : SequenceSolver) {active : Nat → Bool} (h : s.fn.Sets active) (hin : s.fn.Inside)
    (hr : s.fn.RowsFit s.parameters) (hP : s.fn.perFrame ≠ []) (hbw : s.bandwidth = s.fn.bandwidth) {b : Buffers}
    (hb : b.Fresh s.fn) :
    ∃ q, s.assemble none = some (q, (s.fn.getJacobian s.parameters b).1) ∧
      bandRun (s.fn.nFrames * s.fn.perFrame.length) s.fn.universal.length (s.fn.bandwidth * s.fn.perFrame.length)
        (Real.sqrt s.regularization) (s.fn.allCalls s.parameters) = some q := by
  have hP0 : 0 < s.fn.perFrame.length := List.length_pos_iff.2 hP
  have hbwp : 0 < s.fn.bandwidth * s.fn.perFrame.length := Nat.mul_pos (bandwidth_ge s.fn).1 hP0
  have hfit := allCalls_fit h s.parameters
  have hord := allCalls_ordered s.fn s.parameters
  obtain ⟨q, hq, -⟩ := bandRun_inv hbwp (lambda := Real.sqrt s.regularization) hfit hord
  obtain ⟨q1, hq1, -, -, hbw1, -⟩ := bandRun_inv hbwp (lambda := Real.sqrt s.regularization)
    (calls := (List.range s.fn.nFrames).map (s.fn.frameCall s.parameters))
    (fun c hc => hfit c (List.mem_append_left _ hc)) (List.pairwise_append.1 hord).1
  obtain ⟨Q, hQ, a1, a2, a3, a4, a5⟩ := blocks_eq hr
  refine ⟨q, ?_, hq⟩
  unfold bandRun allCalls at hq
  unfold bandRun at hq1
  cases h0 : BandQr.start (s.fn.nFrames * s.fn.perFrame.length) s.fn.universal.length (s.fn.bandwidth * s.fn.perFrame.length)
      (Real.sqrt s.regularization) with
  | none => rw [h0] at hq; cases hq
  | some q0 =>
    rw [h0] at hq hq1
    have hq1 : ((List.range s.fn.nFrames).map (s.fn.frameCall s.parameters)).foldlM BandQr.call q0 = some q1 := hq1
    have hq : (_ ++ _ : List BandCall).foldlM BandQr.call q0 = some q := hq
    rw [List.foldlM_append, hq1] at hq
    have hq : (_ : List BandCall).foldlM BandQr.call q1 = some q := hq
    unfold SequenceSolver.assemble
    rw [hbw, h0]
    show (do let p ← (← (s.fn.setJoined s.parameters).blocks).pass none q0
             let q ← (s.fn.setJoined s.parameters).sequencePass p.1
             some (q.1, 0 + p.2 + q.2)) = _
    rw [hQ]
    show (do let p ← Q.serial q0
             let q ← (s.fn.setJoined s.parameters).sequencePass p.1
             some (q.1, 0 + p.2 + q.2)) = _
    rw [serial_calls a1 a2 a3 a4 a5, hq1]
    show (do let q ← (s.fn.setJoined s.parameters).sequencePass q1
             some (q.1, 0 + (0 + _) + q.2)) = _
    rw [sequencePass_calls h hin hr hP q1 hbw1, hq]
    show some (q, _) = some (q, _)
    congr 2
    obtain ⟨e1, -⟩ := getJacobian_eq h hin s.parameters b hb
    rw [e1, fills_error, List.map_map]
    show 0 + (0 + _) + _ = 0 + _
    rw [zero_add, zero_add, zero_add]
    unfold terms frameTerms seqTerms
    rw [List.map_append, List.sum_append, sum_flatMap, sum_flatMap]
    congr 1
    · congr 1
      apply List.map_congr_left
      intro f hf
      rw [(frameFill_spec hr (List.mem_range.1 hf)).2.error]
      unfold stacked frameTermsAt
      rw [fills_error, List.map_map, List.map_map]
      show 0 + _ = _
      rw [zero_add]
    · show (List.map _ _).sum = _
      congr 1
      apply List.map_congr_left
      intro f hf
      rw [List.map_map]; rfl

end SequenceFunction
end Momentum
