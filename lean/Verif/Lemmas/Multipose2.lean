import Verif.Lemmas.Multipose

/-!
# The Jacobian of several poses
-/

namespace Momentum
open Finset

/-- An error function that uses all the rows it announces, the last of them zero. -/
def ErrorFunction.padded (F : ErrorFunction) : ErrorFunction where
  weight := F.weight
  jacobianSize := F.jacobianSize
  getError := F.getError
  getGradient := F.getGradient
  getJacobian p :=
    let r := F.getJacobian p
    ⟨r.error, F.jacobianSize, fun j t => if t < r.rows then r.e j t else 0, fun t => if t < r.rows then r.residual t else 0⟩

theorem ErrorFunction.padded_deriv {F : ErrorFunction} {p : Nat → ℝ} {i : Nat} (h : F.JacobianIsDerivative p i) :
    F.padded.JacobianIsDerivative p i := by
  refine ⟨h.error, le_rfl, fun _ => rfl, fun u => ?_, fun t _ => ?_⟩
  · show F.getError (Function.update p i u) = ∑ t ∈ range F.jacobianSize,
      (if t < (F.getJacobian (Function.update p i u)).rows then (F.getJacobian (Function.update p i u)).residual t else 0) ^ 2
    rw [h.squares, h.rows, ← sum_subset (range_subset_range.2 h.size)]
    · apply sum_congr rfl
      intro t ht
      rw [if_pos (mem_range.1 ht)]
    · intro t _ ht
      rw [if_neg (by simpa using ht)]
      ring
  · show HasDerivAt (fun u => if t < (F.getJacobian (Function.update p i u)).rows then
      (F.getJacobian (Function.update p i u)).residual t else 0) (if t < (F.getJacobian p).rows then (F.getJacobian p).e i t else 0)
      (p i)
    simp only [h.rows]
    split_ifs with ht
    · exact h.deriv t ht
    · exact hasDerivAt_const _ _

namespace MultiposeFunction
variable {M : MultiposeFunction}

/-- The terms of frame `f` with all rows. -/
noncomputable def termsAt (M : MultiposeFunction) (f : Nat) : List ErrorFunction :=
  (weighted (M.frameErrors f)).map fun F => (M.asSequence.term (f, F.toSeq)).padded

/-- All the terms, with all rows. -/
noncomputable def paddedTerms (M : MultiposeFunction) : List ErrorFunction := (List.range M.nFrames).flatMap M.termsAt

theorem paddedTerms_eq (M : MultiposeFunction) :
    M.paddedTerms = M.asSequence.terms.map fun T => (M.asSequence.term T).padded := by
  rw [frameTerms_terms, List.map_flatMap]
  unfold paddedTerms termsAt
  congr 1
  funext f
  rw [List.map_map]
  rfl

/-- The state of the loop over the error functions of a frame, and what has been filled into the full matrix if the columns were
moved at once. -/
structure Moves (M : MultiposeFunction) (f : Nat) (s0 : SequenceFunction.Fill) (w : FrameFill) (s : SequenceFunction.Fill) :
    Prop where
  error : w.error = s.error
  position : w.position = s.position
  start : s0.position + w.localPosition = w.position
  residual : w.residual = s.residual
  e : ∀ j t, s.e j t = if s0.position ≤ t ∧ t < w.position then
    ∑ i ∈ range M.np, w.temp i (t - s0.position) * M.asSequence.coord j f i else s0.e j t
  clean : ∀ i t, w.localPosition ≤ t → w.temp i t = 0

theorem term_jacobian (M : MultiposeFunction) (v : Nat → ℝ) (f : Nat) (F : ErrorFunction)
    (hfr : (M.setJoined v).frames = (M.asSequence.setJoined v).frames) :
    ((M.asSequence.term (f, F.toSeq)).getJacobian v).error = (F.getJacobian ((M.setJoined v).frames f)).error ∧
    ((M.asSequence.term (f, F.toSeq)).getJacobian v).rows = (F.getJacobian ((M.setJoined v).frames f)).rows ∧
    ((M.asSequence.term (f, F.toSeq)).getJacobian v).residual = (F.getJacobian ((M.setJoined v).frames f)).residual ∧
    ∀ j t, ((M.asSequence.term (f, F.toSeq)).getJacobian v).e j t =
      ∑ i ∈ range M.np, (F.getJacobian ((M.setJoined v).frames f)).e i t * M.asSequence.coord j f i := by
  have e0 : subspan (M.asSequence.setJoined v).frames f 1 0 = (M.setJoined v).frames f := by
    rw [SequenceFunction.subspan_one, hfr]
  refine ⟨?_, ?_, ?_, fun j t => ?_⟩
  · show (F.getJacobian (subspan (M.asSequence.setJoined v).frames f 1 0)).error = _
    rw [e0]
  · show (F.getJacobian (subspan (M.asSequence.setJoined v).frames f 1 0)).rows = _
    rw [e0]
  · show (F.getJacobian (subspan (M.asSequence.setJoined v).frames f 1 0)).residual = _
    rw [e0]
  · show ∑ k ∈ range 1, ∑ i ∈ range M.np,
      (F.getJacobian (subspan (M.asSequence.setJoined v).frames f 1 0)).e (k * M.np + i) t * M.asSequence.coord j (f + k) i = _
    rw [e0, sum_range_one]
    apply sum_congr rfl
    intro i _
    rw [zero_mul, zero_add, add_zero]

theorem moves_step (h : M.Laid) (v : Nat → ℝ) (f : Nat) {s0 s : SequenceFunction.Fill} {w : FrameFill} (hs : s.Clean)
    (hm : M.Moves f s0 w s) (F : ErrorFunction) (hF : (F.getJacobian ((M.setJoined v).frames f)).rows ≤ F.jacobianSize) :
    M.Moves f s0 ((M.setJoined v).jacTermStep f w F) (SequenceFunction.fill v s (M.asSequence.term (f, F.toSeq)).padded) := by
  obtain ⟨t1, t2, t3, t4⟩ := term_jacobian M v f F (congrArg SequenceFunction.frames (setJoined_asSequence h v))
  set r := F.getJacobian ((M.setJoined v).frames f) with hr
  refine ⟨?_, ?_, ?_, ?_, fun j t => ?_, fun i t ht => ?_⟩
  · show w.error + r.error = s.error + ((M.asSequence.term (f, F.toSeq)).getJacobian v).error
    rw [t1, hm.error]
  · show w.position + F.jacobianSize = s.position + F.jacobianSize
    rw [hm.position]
  · show s0.position + (w.localPosition + F.jacobianSize) = w.position + F.jacobianSize
    rw [← hm.start]; omega
  · funext t
    show (if w.position ≤ t ∧ t < w.position + r.rows then r.residual (t - w.position) else w.residual t) =
      (if s.position ≤ t ∧ t < s.position + F.jacobianSize then
        (if t - s.position < ((M.asSequence.term (f, F.toSeq)).getJacobian v).rows then
          ((M.asSequence.term (f, F.toSeq)).getJacobian v).residual (t - s.position) else 0) else s.residual t)
    rw [t2, t3, hm.residual, hm.position]
    by_cases h1 : s.position ≤ t ∧ t < s.position + r.rows
    · rw [if_pos h1, if_pos (by omega), if_pos (by omega)]
    · rw [if_neg h1]
      split_ifs with h2 h3
      · omega
      · exact (hs t h2.1).2
      · rfl
  · show (if s.position ≤ t ∧ t < s.position + F.jacobianSize then
        (if t - s.position < ((M.asSequence.term (f, F.toSeq)).getJacobian v).rows then
          ((M.asSequence.term (f, F.toSeq)).getJacobian v).e j (t - s.position) else 0) else s.e j t) =
      if s0.position ≤ t ∧ t < w.position + F.jacobianSize then
        ∑ i ∈ range M.np, (if w.localPosition ≤ t - s0.position ∧ t - s0.position < w.localPosition + r.rows then
          r.e i (t - s0.position - w.localPosition) else w.temp i (t - s0.position)) * M.asSequence.coord j f i else s0.e j t
    have h0 := hm.start
    have hp := hm.position
    rw [t2]
    by_cases h1 : s.position ≤ t ∧ t < s.position + F.jacobianSize
    · rw [if_pos h1, if_pos (show s0.position ≤ t ∧ t < w.position + F.jacobianSize by omega)]
      by_cases h2 : t - s.position < r.rows
      · rw [if_pos h2, t4]
        apply sum_congr rfl
        intro i _
        rw [if_pos (by omega), show t - s0.position - w.localPosition = t - s.position by omega]
      · rw [if_neg h2, sum_eq_zero]
        intro i _
        rw [if_neg (by omega), hm.clean i _ (by omega), zero_mul]
    · rw [if_neg h1, hm.e]
      by_cases h2 : s0.position ≤ t ∧ t < w.position
      · rw [if_pos h2, if_pos (by omega)]
        apply sum_congr rfl
        intro i _
        rw [if_neg (by omega)]
      · rw [if_neg h2, if_neg (by omega)]
  · have ht : w.localPosition + F.jacobianSize ≤ t := ht
    show (if w.localPosition ≤ t ∧ t < w.localPosition + r.rows then r.e i (t - w.localPosition) else w.temp i t) = 0
    rw [if_neg (by omega), hm.clean i t (by omega)]

theorem moves_fold (h : M.Laid) (v : Nat → ℝ) (f : Nat) {s0 : SequenceFunction.Fill} (l : List ErrorFunction)
    (hl : ∀ F ∈ l, (F.getJacobian ((M.setJoined v).frames f)).rows ≤ F.jacobianSize) :
    ∀ {s : SequenceFunction.Fill} {w : FrameFill}, s.Clean → M.Moves f s0 w s →
      M.Moves f s0 (l.foldl ((M.setJoined v).jacTermStep f) w)
        ((l.map fun F => (M.asSequence.term (f, F.toSeq)).padded).foldl (SequenceFunction.fill v) s) := by
  induction l with
  | nil => intro s w _ hm; exact hm
  | cons F l ih =>
    intro s w hs hm
    rw [List.foldl_cons, List.map_cons, List.foldl_cons]
    exact ih (fun G hG => hl G (by simp [hG])) (SequenceFunction.fill_clean hs _) (moves_step h v f hs hm F (hl F (by simp)))

theorem weighted_mem {l : List ErrorFunction} {F : ErrorFunction} (hF : F ∈ weighted l) : F ∈ l ∧ 0 < F.weight := by
  unfold weighted at hF
  have := List.mem_filter.1 hF
  exact ⟨this.1, by simpa using this.2⟩

theorem jacFrame_eq (h : M.Laid) {v : Nat → ℝ} (hr : M.RowsFit v) {s : SequenceFunction.Fill} (hs : s.Clean) {f : Nat}
    (hf : f < M.nFrames) : (M.setJoined v).jacFrame s f = (M.termsAt f).foldl (SequenceFunction.fill v) s := by
  have hm := moves_fold h v f (s0 := s) (weighted (M.frameErrors f))
    (fun F hF => hr f hf F (weighted_mem hF).1 (weighted_mem hF).2) (s := s) (w := ⟨s.error, s.position, 0, s.residual, fun _ _ => 0⟩) hs
    ⟨rfl, rfl, rfl, rfl, fun j t => by rw [if_neg]; exact fun hc => absurd hc.2 (Nat.not_lt.2 hc.1), fun _ _ _ => rfl⟩
  unfold termsAt
  unfold jacFrame
  show (⟨_, _, _, _⟩ : SequenceFunction.Fill) = _
  have hfe : (M.setJoined v).frameErrors f = M.frameErrors f := rfl
  rw [hfe]
  set w := (weighted (M.frameErrors f)).foldl ((M.setJoined v).jacTermStep f) ⟨s.error, s.position, 0, s.residual, fun _ _ => 0⟩
    with hw
  set s' := ((weighted (M.frameErrors f)).map fun F => (M.asSequence.term (f, F.toSeq)).padded).foldl (SequenceFunction.fill v) s
    with hs'
  have he : (List.range M.np).foldl (fun e i =>
      SequenceFunction.setColumn s.position w.localPosition e (M.slot f i) (w.temp i)) s.e = s'.e := by
    funext j t
    obtain ⟨f1, f2⟩ := fold_inj M.np (M.slot f) (slot_inj h hf) (fun i (col : Nat → ℝ) t =>
      if s.position ≤ t ∧ t < s.position + w.localPosition then w.temp i (t - s.position) else col t) s.e
    obtain ⟨c1, c2⟩ := sum_coord_slot h hf (fun i => w.temp i (t - s.position)) j
    rw [hm.e, ← hm.start]
    by_cases hx : ∃ i < M.np, M.slot f i = j
    · obtain ⟨i, hi, rfl⟩ := hx
      refine (congrFun (f1 i hi) t).trans ?_
      rw [c1 i hi rfl]
    · have hx : ∀ i < M.np, M.slot f i ≠ j := fun i hi e => hx ⟨i, hi, e⟩
      refine (congrFun (f2 j hx) t).trans ?_
      rw [c2 hx]
      split_ifs with hc
      · exact (hs t hc.1).1 j
      · rfl
  have e1 := hm.error
  have e2 := hm.position
  have e3 := hm.residual
  obtain ⟨a, b, c, d⟩ := s'
  simp only at e1 e2 e3 he
  rw [SequenceFunction.Fill.mk.injEq]
  exact ⟨e1, e2, he, e3⟩

theorem sizes_eq (M : MultiposeFunction) : (M.paddedTerms.map ErrorFunction.jacobianSize).sum =
    (List.range M.nFrames).foldl (fun n f => (weighted (M.frameErrors f)).foldl (fun n F => n + F.jacobianSize) n) 0 := by
  unfold paddedTerms
  have key : ∀ (l : List Nat) (a : Nat), l.foldl (fun n f => (weighted (M.frameErrors f)).foldl (fun n F => n + F.jacobianSize) n) a =
      a + ((l.flatMap M.termsAt).map ErrorFunction.jacobianSize).sum := by
    intro l
    induction l with
    | nil => intro a; simp
    | cons f l ih =>
      intro a
      have : ∀ (l : List ErrorFunction) (a : Nat), l.foldl (fun n F => n + F.jacobianSize) a = a + (l.map ErrorFunction.jacobianSize).sum := by
        intro l
        induction l with
        | nil => intro a; simp
        | cons F l ih => intro a; rw [List.foldl_cons, ih, List.map_cons, List.sum_cons, add_assoc]
      rw [List.foldl_cons, ih, this, List.flatMap_cons, List.map_append, List.sum_append, add_assoc]
      congr 2
      unfold termsAt
      rw [List.map_map]
      rfl
  rw [key, zero_add]

theorem getJacobian_eq (h : M.Laid) {v : Nat → ℝ} (hr : M.RowsFit v) {b : SequenceFunction.Buffers} (hb : M.Fresh b) :
    (M.getJacobian v b).1 = (M.paddedTerms.foldl (SequenceFunction.fill v) ⟨0, 0, fun _ _ => 0, fun _ => 0⟩).error ∧
    (M.getJacobian v b).2.1 = padForSSE (M.paddedTerms.map ErrorFunction.jacobianSize).sum ∧
    (M.getJacobian v b).2.2.1.e = (M.paddedTerms.foldl (SequenceFunction.fill v) ⟨0, 0, fun _ _ => 0, fun _ => 0⟩).e ∧
    (M.getJacobian v b).2.2.1.residual =
      (M.paddedTerms.foldl (SequenceFunction.fill v) ⟨0, 0, fun _ _ => 0, fun _ => 0⟩).residual := by
  have hbuf : ((M.setJoined v).resizeBuffers b).e = (fun _ _ => 0) ∧ ((M.setJoined v).resizeBuffers b).residual = fun _ => 0 := by
    unfold resizeBuffers
    split_ifs with hc
    · exact ⟨rfl, rfl⟩
    · rcases hb with ⟨h1, h2⟩ | h1
      · exact ⟨funext fun j => funext fun t => h1 j t, funext h2⟩
      · exact absurd h1 hc
  have key : ∀ n ≤ M.nFrames, (List.range n).foldl (M.setJoined v).jacFrame ⟨0, 0, fun _ _ => 0, fun _ => 0⟩ =
      ((List.range n).flatMap M.termsAt).foldl (SequenceFunction.fill v) ⟨0, 0, fun _ _ => 0, fun _ => 0⟩ := by
    intro n
    induction n with
    | zero => intro _; rfl
    | succ n ih =>
      intro hn
      rw [List.range_succ, List.foldl_append, List.foldl_cons, List.foldl_nil, List.flatMap_append, List.foldl_append,
        ih (by omega), List.flatMap_cons, List.flatMap_nil, List.append_nil]
      exact jacFrame_eq h hr (SequenceFunction.fills_clean v _ fun t _ => ⟨fun _ => rfl, rfl⟩) (by omega)
  have hk : (List.range M.nFrames).foldl (M.setJoined v).jacFrame ⟨0, 0, fun _ _ => 0, fun _ => 0⟩ =
    M.paddedTerms.foldl (SequenceFunction.fill v) ⟨0, 0, fun _ _ => 0, fun _ => 0⟩ := key M.nFrames le_rfl
  have hall : (List.range (M.setJoined v).nFrames).foldl (M.setJoined v).jacFrame
      ⟨0, 0, ((M.setJoined v).resizeBuffers b).e, ((M.setJoined v).resizeBuffers b).residual⟩ =
      M.paddedTerms.foldl (SequenceFunction.fill v) ⟨0, 0, fun _ _ => 0, fun _ => 0⟩ := by
    rw [hbuf.1, hbuf.2]; exact hk
  unfold getJacobian
  dsimp only
  rw [hall]
  refine ⟨rfl, ?_, rfl, rfl⟩
  rw [sizes_eq]
  rfl

end MultiposeFunction
end Momentum
