import Verif.Lemmas.Multipose2

/-!
# The system of the multipose solver
-/

namespace Momentum
open Finset
namespace MultiposeFunction
variable {M : MultiposeFunction}

/-- The error functions with their frames. -/
noncomputable def pairs (M : MultiposeFunction) : List (Nat × ErrorFunction) :=
  (List.range M.nFrames).flatMap fun f => (weighted (M.frameErrors f)).map fun F => (f, F)

/-- The call of the block solver for an error function. -/
noncomputable def call (M : MultiposeFunction) (v : Nat → ℝ) (T : Nat × ErrorFunction) : BlockCall :=
  let r := T.2.getJacobian ((M.setJoined v).frames T.1)
  let rows := padForSSE T.2.jacobianSize
  let e : Nat → Nat → ℝ := fun j t => if t < r.rows then r.e j t else 0
  ⟨T.1, ⟨rows, M.np, e, true, M.generic⟩, ⟨rows, M.np, e, true, M.universal⟩, rows,
    fun t => if t < r.rows then r.residual t else 0⟩

/-- The calls of the block solver. -/
noncomputable def calls (M : MultiposeFunction) (v : Nat → ℝ) : List BlockCall := M.pairs.map (M.call v)

theorem assemble_eq (tol : ℝ) (s : MultiposeSolver) :
    s.assemble tol = (blockRun tol s.fn.universal.length (Real.sqrt s.regularization) (s.fn.calls s.parameters)).map fun q =>
      (q, 0 + (s.fn.pairs.map fun T => (T.2.getJacobian ((s.fn.setJoined s.parameters).frames T.1)).error).sum) := by
  unfold MultiposeSolver.assemble
  show (List.range s.fn.nFrames).foldlM (fun p f => (weighted (s.fn.frameErrors f)).foldlM
    ((s.fn.setJoined s.parameters).solveTerm tol f) p) (BlockQr.start s.fn.universal.length (Real.sqrt s.regularization), 0) = _
  unfold blockRun calls
  rw [List.foldlM_map, ← SequenceFunction.foldlM_pair]
  unfold pairs
  have key : ∀ (l : List Nat) (p : BlockQr × ℝ),
      l.foldlM (fun p f => (weighted (s.fn.frameErrors f)).foldlM ((s.fn.setJoined s.parameters).solveTerm tol f) p) p =
      (l.flatMap fun f => (weighted (s.fn.frameErrors f)).map fun F => (f, F)).foldlM
        (fun (p : BlockQr × ℝ) (T : Nat × ErrorFunction) => do
          let s' ← p.1.add tol (s.fn.call s.parameters T).i (s.fn.call s.parameters T).Ai (s.fn.call s.parameters T).An
            (s.fn.call s.parameters T).bRows (s.fn.call s.parameters T).b
          some (s', p.2 + (T.2.getJacobian ((s.fn.setJoined s.parameters).frames T.1)).error)) p := by
    intro l
    induction l with
    | nil => intro p; rfl
    | cons f l ih =>
      intro p
      rw [List.foldlM_cons, List.flatMap_cons, List.foldlM_append]
      congr 1
      · rw [List.foldlM_map]
        rfl
      · funext p'
        exact ih p'
  exact key _ _

theorem mem_pairs {T : Nat × ErrorFunction} (hT : T ∈ M.pairs) : T.1 < M.nFrames ∧ T.2 ∈ M.frameErrors T.1 ∧ 0 < T.2.weight := by
  unfold pairs at hT
  obtain ⟨f, hf, hT⟩ := List.mem_flatMap.1 hT
  obtain ⟨F, hF, rfl⟩ := List.mem_map.1 hT
  exact ⟨List.mem_range.1 hf, weighted_mem hF⟩

theorem calls_distinct (h : M.Laid) (v : Nat → ℝ) : ∀ c ∈ M.calls v, c.Distinct := by
  intro c hc
  obtain ⟨T, -, rfl⟩ := List.mem_map.1 hc
  exact ⟨fun _ => h.sets.nodup.1, fun _ => h.sets.nodup.2⟩

theorem calls_defined (M : MultiposeFunction) (v : Nat → ℝ) (tol lambda : ℝ) :
    ∃ q, blockRun tol M.universal.length lambda (M.calls v) = some q := by
  apply C28_block_defined (size := fun _ => M.generic.length)
  intro c hc
  obtain ⟨T, -, rfl⟩ := List.mem_map.1 hc
  exact ⟨rfl, rfl, rfl, rfl⟩

/-- Blocks that were used have as many common columns as the solver. -/
theorem blockRun_nIn {tol : ℝ} {nCommon : Nat} {lambda : ℝ} {calls : List BlockCall} {q : BlockQr}
    (hrun : blockRun tol nCommon lambda calls = some q) :
    q.nCommon = nCommon ∧ ∀ i, (∃ c ∈ calls, c.i = i) → (q.blk i).nIn = nCommon := by
  suffices q.nCommon = nCommon ∧ ∀ i, ((∃ c ∈ calls, c.i = i) ∨ (q.blk i).n ≠ 0) → (q.blk i).nIn = nCommon from
    ⟨this.1, fun i hi => this.2 i (Or.inl hi)⟩
  induction calls using List.reverseRecOn generalizing q with
  | nil =>
    cases hrun
    refine ⟨rfl, fun i hi => ?_⟩
    rcases hi with ⟨c, hc, -⟩ | hi
    · cases hc
    · exact absurd rfl hi
  | append_singleton calls c ih =>
    rw [blockRun_snoc] at hrun
    obtain ⟨s0, h0, hadd⟩ := Option.bind_eq_some_iff.1 hrun
    obtain ⟨n1, n2⟩ := ih h0
    unfold BlockQr.add at hadd
    split at hadd
    · cases hadd
    split at hadd
    · cases hadd
    split at hadd
    · cases hadd
    obtain ⟨B, hB, hadd⟩ := Option.bind_eq_some_iff.1 hadd
    simp only [Option.some.injEq] at hadd
    subst hadd
    have hBn : B.nIn = nCommon := by
      unfold BlockQr.open at hB
      split_ifs at hB with g1 g2
      · rw [← Option.some.inj hB]; exact n1
      · rw [← Option.some.inj hB]; exact n2 _ (Or.inr g1)
    refine ⟨n1, fun i hi => ?_⟩
    show (Function.update s0.blk c.i _ i).nIn = _
    by_cases hic : i = c.i
    · rw [hic, Function.update_self]; exact hBn
    · rw [Function.update_of_ne hic]
      rcases hi with ⟨c', hc', e⟩ | hi
      · rcases List.mem_append.1 hc' with hc' | hc'
        · exact n2 i (Or.inl ⟨c', hc', e⟩)
        · rw [List.mem_singleton] at hc'
          subst hc'
          exact absurd e.symm hic
      · refine n2 i (Or.inr ?_)
        have hi : (Function.update s0.blk c.i _ i).n ≠ 0 := hi
        rwa [Function.update_of_ne hic] at hi

theorem foldl_max_le (calls : List BlockCall) (k n : Nat) (hk : k ≤ n) (h : ∀ c ∈ calls, c.i < n) :
    calls.foldl (fun k c => max k (c.i + 1)) k ≤ n := by
  induction calls generalizing k with
  | nil => exact hk
  | cons c l ih =>
    rw [List.foldl_cons]
    exact ih _ (max_le hk (h c (by simp))) fun d hd => h d (by simp [hd])

theorem foldl_max_ge' (calls : List BlockCall) (k : Nat) : k ≤ calls.foldl (fun k c => max k (c.i + 1)) k ∧
    ∀ c ∈ calls, c.i + 1 ≤ calls.foldl (fun k c => max k (c.i + 1)) k := by
  induction calls generalizing k with
  | nil => exact ⟨le_rfl, fun c hc => by cases hc⟩
  | cons d l ih =>
    rw [List.foldl_cons]
    obtain ⟨h1, h2⟩ := ih (max k (d.i + 1))
    refine ⟨le_trans (le_max_left _ _) h1, fun c hc => ?_⟩
    rcases List.mem_cons.1 hc with rfl | hc
    · exact le_trans (le_max_right _ _) h1
    · exact h2 c hc

/-- The shape of the solver after the calls, if every frame has a term. -/
theorem calls_shape (h : M.Laid) (v : Nat → ℝ) (hall : ∀ f < M.nFrames, ∃ F ∈ M.frameErrors f, 0 < F.weight) {lambda : ℝ}
    {q : BlockQr} (hrun : blockRun 0 M.universal.length lambda (M.calls v) = some q) :
    q.nBlocks = M.nFrames ∧ (∀ f < M.nFrames, q.size f = M.generic.length) ∧ q.total = M.generic.length * M.nFrames ∧
      q.off q.nBlocks = M.generic.length * M.nFrames ∧ q.nCommon = M.universal.length ∧ q.NoGap := by
  have hmem : ∀ f < M.nFrames, ∃ c ∈ M.calls v, c.i = f ∧ c.Ai.cols = M.generic.length := by
    intro f hf
    obtain ⟨F, hF, hw⟩ := hall f hf
    refine ⟨M.call v (f, F), List.mem_map.2 ⟨(f, F), ?_, rfl⟩, rfl, rfl⟩
    unfold pairs
    refine List.mem_flatMap.2 ⟨f, List.mem_range.2 hf, List.mem_map.2 ⟨F, ?_, rfl⟩⟩
    unfold weighted
    exact List.mem_filter.2 ⟨hF, by simpa using hw⟩
  have hlt : ∀ c ∈ M.calls v, c.i < M.nFrames ∧ c.Ai.cols = M.generic.length := by
    intro c hc
    obtain ⟨T, hT, rfl⟩ := List.mem_map.1 hc
    exact ⟨(mem_pairs hT).1, rfl⟩
  obtain ⟨s1, s2, s3⟩ := C28_block_sizes _ _ _ (calls_distinct h v) q hrun
  obtain ⟨i1, i2⟩ := blockRun_nIn hrun
  have hn : q.nBlocks = M.nFrames := by
    rw [s1]
    apply le_antisymm (foldl_max_le _ _ _ (Nat.zero_le _) fun c hc => (hlt c hc).1)
    by_contra hc
    push_neg at hc
    obtain ⟨c, hcm, hci, -⟩ := hmem _ hc
    have := (foldl_max_ge' (M.calls v) 0).2 c hcm
    omega
  have hsz : ∀ f < M.nFrames, q.size f = M.generic.length := by
    intro f hf
    obtain ⟨c, hcm, hci, hcc⟩ := hmem f hf
    rcases s2 c hcm with h0 | h0
    · rw [hcc] at h0
      by_contra hne
      obtain ⟨c', hc', e1, e2⟩ := s3 f (by rw [h0] at hne; exact hne)
      rw [(hlt c' hc').2] at e2
      exact hne e2.symm
    · rw [hci, hcc] at h0; exact h0.symm
  have htot : q.total = M.generic.length * M.nFrames := by
    unfold BlockQr.total
    rw [hn, sum_congr rfl fun f hf => hsz f (mem_range.1 hf), sum_const, card_range, smul_eq_mul, Nat.mul_comm]
  refine ⟨hn, hsz, htot, htot, i1, fun i hi => ?_⟩
  rw [hn] at hi
  obtain ⟨c, hcm, hci, -⟩ := hmem i hi
  rw [i2 i ⟨c, hcm, hci⟩, i1]

/-- The rows of a call over all unknowns. -/
theorem call_rows (h : M.Laid) (v : Nat → ℝ) {size : Nat → Nat} {T : Nat × ErrorFunction} (hT : T.1 < M.nFrames)
    (hsz : ∀ f < M.nFrames, size f = M.generic.length) (t j : Nat)
    (hj : j < M.generic.length * M.nFrames + M.universal.length) :
    ((M.call v T).toRows size (M.generic.length * M.nFrames)).a t j =
      (((M.asSequence.term (T.1, T.2.toSeq)).padded).getJacobian v).e j t := by
  obtain ⟨t1, t2, t3, t4⟩ := term_jacobian M v T.1 T.2 (congrArg SequenceFunction.frames (setJoined_asSequence h v))
  have hoff : ∑ l ∈ range T.1, size l = M.generic.length * T.1 := by
    rw [sum_congr rfl fun f hf => hsz f (by have := mem_range.1 hf; omega), sum_const, card_range, smul_eq_mul, Nat.mul_comm]
  show (if ∑ l ∈ range T.1, size l ≤ j ∧ j < ∑ l ∈ range T.1, size l + M.generic.length then
      (if t < _ then (T.2.getJacobian ((M.setJoined v).frames T.1)).e (M.generic.getD (j - ∑ l ∈ range T.1, size l) 0) t else 0)
    else if M.generic.length * M.nFrames ≤ j then
      (if t < _ then (T.2.getJacobian ((M.setJoined v).frames T.1)).e (M.universal.getD (j - M.generic.length * M.nFrames) 0) t
        else 0) else 0) =
    if t < ((M.asSequence.term (T.1, T.2.toSeq)).getJacobian v).rows then
      ((M.asSequence.term (T.1, T.2.toSeq)).getJacobian v).e j t else 0
  rw [hoff, t2, t4]
  have hc := SequenceFunction.sum_coord h.sets j T.1 hT fun i => (T.2.getJacobian ((M.setJoined v).frames T.1)).e i t
  have hc : ∑ i ∈ range M.np, (T.2.getJacobian ((M.setJoined v).frames T.1)).e i t * M.asSequence.coord j T.1 i = if _ then _ else _ :=
    hc
  rw [hc]
  show _ = if _ then (if M.generic.length * T.1 ≤ j ∧ j < M.generic.length * T.1 + M.generic.length then
    (T.2.getJacobian ((M.setJoined v).frames T.1)).e (M.generic.getD (j - M.generic.length * T.1) 0) t
    else if M.generic.length * M.nFrames ≤ j ∧ j < M.generic.length * M.nFrames + M.universal.length then
      (T.2.getJacobian ((M.setJoined v).frames T.1)).e (M.universal.getD (j - M.generic.length * M.nFrames) 0) t else 0) else 0
  by_cases hrow : t < (T.2.getJacobian ((M.setJoined v).frames T.1)).rows
  · simp only [if_pos hrow]
    by_cases h1 : M.generic.length * T.1 ≤ j ∧ j < M.generic.length * T.1 + M.generic.length
    · rw [if_pos h1, if_pos h1]
    · rw [if_neg h1, if_neg h1]
      by_cases h2 : M.generic.length * M.nFrames ≤ j
      · rw [if_pos h2, if_pos ⟨h2, hj⟩]
      · rw [if_neg h2, if_neg fun hc => h2 hc.1]
  · simp only [if_neg hrow, ite_self]

theorem paddedTerms_pairs (M : MultiposeFunction) :
    M.paddedTerms = M.pairs.map fun T => (M.asSequence.term (T.1, T.2.toSeq)).padded := by
  unfold paddedTerms pairs termsAt
  rw [List.map_flatMap]
  congr 1
  funext f
  rw [List.map_map]
  rfl

/-- Sums over the rows of the calls are sums over the rows of the Jacobian. -/
theorem calls_sum (h : M.Laid) {v : Nat → ℝ} (hr : M.RowsFit v) {b : SequenceFunction.Buffers} (hb : M.Fresh b)
    {q : BlockQr} (htot : q.total = M.generic.length * M.nFrames) (hsz : ∀ f < M.nFrames, q.size f = M.generic.length)
    {φ : (Nat → ℝ) → ℝ → ℝ} (h0 : φ (fun _ => 0) 0 = 0) (hφ : SequenceFunction.LooksAt M.numParameters φ) :
    SequenceFunction.histSum φ (blockHistory q (M.calls v)) = ∑ t ∈ range (M.getJacobian v b).2.1,
      φ (fun j => (M.getJacobian v b).2.2.1.e j t) ((M.getJacobian v b).2.2.1.residual t) := by
  obtain ⟨-, j2, j3, j4⟩ := getJacobian_eq h hr hb
  have hclean := SequenceFunction.fills_clean v M.paddedTerms (s := ⟨0, 0, fun _ _ => 0, fun _ => 0⟩)
    fun t _ => ⟨fun _ => rfl, rfl⟩
  have hpos : (M.paddedTerms.foldl (SequenceFunction.fill v) ⟨0, 0, fun _ _ => 0, fun _ => 0⟩).position =
      (M.paddedTerms.map ErrorFunction.jacobianSize).sum := by
    rw [SequenceFunction.fills_position, paddedTerms_eq, List.map_map, List.map_map]
    show 0 + _ = _
    rw [zero_add]; rfl
  show _ = SequenceFunction.rowSum φ (M.getJacobian v b).2.1 (M.getJacobian v b).2.2.1.e (M.getJacobian v b).2.2.1.residual
  rw [j2, j3, j4, SequenceFunction.rowSum_extend h0 hclean (by rw [hpos]; exact SequenceFunction.pad_ge _),
    SequenceFunction.rowSum_fills]
  have hz : SequenceFunction.rowSum φ (⟨0, 0, fun _ _ => 0, fun _ => 0⟩ : SequenceFunction.Fill).position
    (fun _ _ => 0) (fun _ => 0) = 0 := rfl
  rw [hz, zero_add, paddedTerms_pairs, List.map_map]
  unfold SequenceFunction.histSum blockHistory calls
  rw [List.map_map, List.map_map]
  congr 1
  apply List.map_congr_left
  intro T hT
  obtain ⟨m1, m2, m3⟩ := mem_pairs hT
  obtain ⟨-, t2, t3, -⟩ := term_jacobian M v T.1 T.2 (congrArg SequenceFunction.frames (setJoined_asSequence h v))
  have hfit := hr T.1 m1 T.2 m2 m3
  set J := ((M.asSequence.term (T.1, T.2.toSeq)).padded).getJacobian v with hJ
  show ∑ t ∈ range (padForSSE T.2.jacobianSize), φ (((M.call v T).toRows q.size q.total).a t) _ =
    ∑ t ∈ range T.2.jacobianSize, φ (fun j => J.e j t) (J.residual t)
  rw [← sum_subset (range_subset_range.2 (SequenceFunction.pad_ge T.2.jacobianSize))]
  · apply sum_congr rfl
    intro t _
    rw [hφ _ (fun j => J.e j t) _ fun j hj => by rw [htot]; exact call_rows h v m1 hsz t j hj]
    congr 1
    show (if t < (T.2.getJacobian ((M.setJoined v).frames T.1)).rows then
      (T.2.getJacobian ((M.setJoined v).frames T.1)).residual t else 0) =
      if t < ((M.asSequence.term (T.1, T.2.toSeq)).getJacobian v).rows then
        ((M.asSequence.term (T.1, T.2.toSeq)).getJacobian v).residual t else 0
    rw [t2, t3]
  · intro t _ ht
    have ht : T.2.jacobianSize ≤ t := by simpa using ht
    rw [hφ _ (fun j => J.e j t) _ fun j hj => by rw [htot]; exact call_rows h v m1 hsz t j hj]
    have e1 : (fun j => J.e j t) = fun _ => 0 := by
      funext j
      show (if t < ((M.asSequence.term (T.1, T.2.toSeq)).getJacobian v).rows then _ else 0) = 0
      rw [t2, if_neg (by omega)]
    have e2 : (((M.call v T).toRows q.size q.total).b) t = 0 := by
      show (if t < (T.2.getJacobian ((M.setJoined v).frames T.1)).rows then _ else 0) = 0
      rw [if_neg (by omega)]
    rw [e1, e2, h0]

theorem calls_error (h : M.Laid) {v : Nat → ℝ} (hr : M.RowsFit v) {b : SequenceFunction.Buffers} (hb : M.Fresh b) :
    0 + (M.pairs.map fun T => (T.2.getJacobian ((M.setJoined v).frames T.1)).error).sum = (M.getJacobian v b).1 := by
  obtain ⟨j1, -⟩ := getJacobian_eq h hr hb
  rw [j1, SequenceFunction.fills_error, paddedTerms_pairs, List.map_map]
  show 0 + _ = 0 + _
  congr 2
  apply List.map_congr_left
  intro T _
  exact (term_jacobian M v T.1 T.2 (congrArg SequenceFunction.frames (setJoined_asSequence h v))).1.symm

end MultiposeFunction
end Momentum
