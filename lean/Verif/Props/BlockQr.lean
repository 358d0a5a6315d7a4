import Verif.Lemmas.BlockQr
import Verif.Props.BandedQr

/-!
# C28 (block solver)
-/

namespace Momentum
open Finset

/-- One call of `add`. -/
structure BlockCall where
  i : Nat
  Ai : ColMat
  An : ColMat
  bRows : Nat
  b : Nat → ℝ

/-- A new solver that is then given the calls in order. -/
noncomputable def blockRun (tol : ℝ) (nCommon : Nat) (lambda : ℝ) (calls : List BlockCall) : Option BlockQr :=
  calls.foldlM (fun s c => s.add tol c.i c.Ai c.An c.bRows c.b) (BlockQr.start nCommon lambda)

/-- The equations of a call written out over all the unknowns: the blocks one after the other, block `l` having
`size l` unknowns, then the common ones from number `N` on. -/
def BlockCall.toRows (size : Nat → Nat) (N : Nat) (c : BlockCall) : Rows :=
  ⟨c.Ai.rows, fun t j =>
    if ∑ l ∈ range c.i, size l ≤ j ∧ j < ∑ l ∈ range c.i, size l + c.Ai.cols then
      c.Ai.entry t (j - ∑ l ∈ range c.i, size l)
    else if N ≤ j then c.An.entry t (j - N) else 0, c.b⟩

/-- The number of unknowns of each block of a solver. -/
def BlockQr.size (s : BlockQr) (i : Nat) : Nat := (s.blk i).n

/-- The number of unknowns of all blocks together. -/
def BlockQr.total (s : BlockQr) : Nat := ∑ l ∈ range s.nBlocks, s.size l

/-- The equations of a history. -/
def blockHistory (s : BlockQr) (calls : List BlockCall) : List Rows := calls.map (BlockCall.toRows s.size s.total)

/-- No column selected twice. -/
def BlockCall.Distinct (c : BlockCall) : Prop := c.Ai.DistinctColumns ∧ c.An.DistinctColumns

/-! ### The invariant, with the unknowns still numbered by block -/

/-- The residual of a call. -/
def BlockCall.residual (c : BlockCall) (nCommon : Nat) (x : Nat → Nat → ℝ) (z : Nat → ℝ) : ℝ :=
  ∑ t ∈ range c.Ai.rows, (∑ j ∈ range c.Ai.cols, c.Ai.entry t j * x c.i j +
    ∑ k ∈ range nCommon, c.An.entry t k * z k - c.b t) ^ 2

/-- The residual of the factor. -/
noncomputable def BlockQr.residual (s : BlockQr) (x : Nat → Nat → ℝ) (z : Nat → ℝ) : ℝ :=
  ∑ i ∈ range s.nBlocks, blockResidual (s.blk i).n s.nCommon (s.blk i).Rii (s.blk i).Rin (s.blk i).y (x i) z +
    factorResidual s.nCommon s.Rnn s.yn z

/-- The objective. -/
noncomputable def BlockQr.objective (s : BlockQr) (calls : List BlockCall) (x : Nat → Nat → ℝ) (z : Nat → ℝ) : ℝ :=
  s.lambda ^ 2 * (∑ i ∈ range s.nBlocks, ∑ j ∈ range (s.blk i).n, x i j ^ 2 + ∑ c ∈ range s.nCommon, z c ^ 2) +
    (calls.map fun c => c.residual s.nCommon x z).sum

/-- The state of the solver after some calls. -/
structure BlockInv (s : BlockQr) (calls : List BlockCall) : Prop where
  fresh : ∀ i, s.nBlocks ≤ i → s.blk i = Blk.empty
  inCols : ∀ i, (s.blk i).n ≠ 0 → (s.blk i).nIn = s.nCommon
  sizes : ∀ c ∈ calls, c.i < s.nBlocks ∧ (c.Ai.cols = 0 ∨ c.Ai.cols = (s.blk c.i).n)
  used : ∀ i, (s.blk i).n ≠ 0 → ∃ c ∈ calls, c.i = i ∧ c.Ai.cols = (s.blk i).n
  blocks : s.nBlocks = calls.foldl (fun k c => max k (c.i + 1)) 0
  upper : ∀ i r j, j < r → (s.blk i).Rii r j = 0
  upperN : ∀ r j, j < r → s.Rnn r j = 0
  functional : ∃ c, 0 ≤ c ∧ ∀ x z, s.residual x z + c = s.objective calls x z

theorem sum_blocks_update {s : BlockQr} {i : Nat} (f g : Nat → ℝ) (hf : ∀ l, s.nBlocks ≤ l → f l = 0)
    (hother : ∀ l, l ≠ i → g l = f l) :
    ∑ l ∈ range (max s.nBlocks (i + 1)), g l = ∑ l ∈ range s.nBlocks, f l + (g i - f i) := by
  have e1 : ∑ l ∈ range s.nBlocks, f l = ∑ l ∈ range (max s.nBlocks (i + 1)), f l := by
    apply sum_subset
    · intro l; simp only [mem_range]; omega
    · intro l _ hl; exact hf l (by rw [mem_range] at hl; omega)
  have hi : i ∈ range (max s.nBlocks (i + 1)) := mem_range.2 (by omega)
  rw [e1, ← add_sum_erase _ _ hi, ← add_sum_erase _ f hi,
    sum_congr rfl fun l hl => hother l (ne_of_mem_erase hl)]
  ring

theorem block_add_inv {s s' : BlockQr} {calls : List BlockCall} (h : BlockInv s calls) {c : BlockCall} (hd : c.Distinct)
    (hadd : s.add 0 c.i c.Ai c.An c.bRows c.b = some s') :
    s'.nCommon = s.nCommon ∧ s'.lambda = s.lambda ∧ BlockInv s' (calls ++ [c]) := by
  unfold BlockQr.add at hadd
  by_cases g1 : c.Ai.rows = c.bRows
  swap
  · rw [if_pos g1] at hadd; cases hadd
  rw [if_neg (not_not.2 g1)] at hadd
  by_cases g2 : c.An.rows = c.bRows
  swap
  · rw [if_pos g2] at hadd; cases hadd
  rw [if_neg (not_not.2 g2)] at hadd
  by_cases g3 : c.An.cols = s.nCommon
  swap
  · rw [if_pos g3] at hadd; cases hadd
  rw [if_neg (not_not.2 g3)] at hadd
  obtain ⟨B, hB, hadd⟩ := Option.bind_eq_some_iff.1 hadd
  -- what the opened block is
  obtain ⟨k1, k2, k3, k4⟩ : B.n = c.Ai.cols ∧ B.nIn = s.nCommon ∧ (∀ r j, j < r → B.Rii r j = 0) ∧
      ((s.blk c.i).n = 0 ∧ (∀ x z, blockResidual B.n s.nCommon B.Rii B.Rin B.y x z =
          s.lambda ^ 2 * ∑ j ∈ range c.Ai.cols, x j ^ 2) ∨
        (s.blk c.i).n ≠ 0 ∧ B = s.blk c.i) := by
    unfold BlockQr.open at hB
    by_cases h0 : (s.blk c.i).n = 0
    · rw [if_pos h0] at hB
      cases hB
      refine ⟨rfl, rfl, fun r j hj => if_neg (by omega), Or.inl ⟨h0, fun x z => ?_⟩⟩
      unfold blockResidual
      rw [mul_sum]
      apply sum_congr rfl
      intro r hr
      rw [sum_eq_single r]
      · simp; ring
      · intro j _ hj; dsimp only; rw [if_neg (Ne.symm hj), zero_mul]
      · intro hn; exact absurd (mem_Ico.2 ⟨le_rfl, mem_range.1 hr⟩) hn
    · rw [if_neg h0] at hB
      by_cases h1 : (s.blk c.i).n = c.Ai.cols
      · rw [if_pos h1] at hB
        cases hB
        exact ⟨h1, h.inCols _ h0, h.upper _, Or.inr ⟨h0, rfl⟩⟩
      · rw [if_neg h1] at hB; cases hB
  obtain ⟨w, e, a1, a2⟩ := blockLoop_inv (nCommon := s.nCommon) (k := c.Ai.cols) (m := c.Ai.rows) (idxI := c.Ai.idx)
    (idxC := c.An.idx) (ColMat.idx_inj hd.1) (by rw [← g3]; exact ColMat.idx_inj hd.2)
    ⟨B.Rii, B.Rin, B.y, c.Ai.e, c.An.e, c.b⟩
  obtain ⟨u, eu, b1, b2, b3⟩ := qrLoop_inv (n := s.nCommon) (m := c.An.rows) (idx := c.An.idx)
    (by rw [← g3]; exact ColMat.idx_inj hd.2) ⟨s.Rnn, s.yn, w.An, w.b⟩
  simp only [e, eu, Option.some.injEq] at hadd
  subst hadd
  have hne : ∀ l, l ≠ c.i → Function.update s.blk c.i { B with Rii := w.Rii, Rin := w.Rin, y := w.y } l = s.blk l :=
    fun l hl => Function.update_of_ne hl _ _
  have hsum : ∀ (f : Blk → Nat → ℝ), (∀ l, f Blk.empty l = 0) →
      ∑ l ∈ range (max s.nBlocks (c.i + 1)),
        f (Function.update s.blk c.i { B with Rii := w.Rii, Rin := w.Rin, y := w.y } l) l =
      ∑ l ∈ range s.nBlocks, f (s.blk l) l +
        (f { B with Rii := w.Rii, Rin := w.Rin, y := w.y } c.i - f (s.blk c.i) c.i) := by
    intro f hf
    rw [sum_blocks_update (i := c.i) (fun l => f (s.blk l) l)
      (fun l => f (Function.update s.blk c.i { B with Rii := w.Rii, Rin := w.Rin, y := w.y } l) l)
      (fun l hl => by rw [h.fresh l hl]; exact hf l) (fun l hl => by rw [hne l hl]), Function.update_self]
  refine ⟨rfl, rfl, ?_, ?_, ?_, ?_, ?_, ?_, ?_, ?_⟩
  · intro l hl
    dsimp only at hl ⊢
    rw [hne l (by omega)]
    exact h.fresh l (by omega)
  · intro l hl
    dsimp only at hl ⊢
    by_cases hlc : l = c.i
    · rw [hlc, Function.update_self]; exact k2
    · rw [hne l hlc] at hl ⊢; exact h.inCols l hl
  · intro c' hc'
    dsimp only
    rcases List.mem_append.1 hc' with hc' | hc'
    · obtain ⟨q1, q2⟩ := h.sizes c' hc'
      refine ⟨by omega, ?_⟩
      rcases q2 with q2 | q2
      · exact Or.inl q2
      · by_cases hcc : c'.i = c.i
        · rw [hcc, Function.update_self]
          dsimp only
          rw [hcc] at q2
          rcases k4 with ⟨k, -⟩ | ⟨-, k⟩
          · left; rw [q2, k]
          · right; rw [k]; exact q2
        · rw [hne _ hcc]; exact Or.inr q2
    · rw [List.mem_singleton] at hc'
      subst hc'
      refine ⟨by omega, Or.inr ?_⟩
      rw [Function.update_self]; exact k1.symm
  · intro l hl
    dsimp only at hl ⊢
    by_cases hlc : l = c.i
    · exact ⟨c, by simp, hlc.symm, by rw [hlc, Function.update_self]; exact k1.symm⟩
    · rw [hne l hlc] at hl ⊢
      obtain ⟨c', hc', h1, h2⟩ := h.used l hl
      exact ⟨c', by simp [hc'], h1, h2⟩
  · rw [List.foldl_append, ← h.blocks]; rfl
  · intro l r j hj
    dsimp only
    by_cases hlc : l = c.i
    · rw [hlc, Function.update_self]
      exact (a1 r j hj).trans (k3 r j hj)
    · rw [hne l hlc]; exact h.upper l r j hj
  · intro r j hj
    exact (b1 r j hj).trans (h.upperN r j hj)
  · obtain ⟨c0, hc0, hfun⟩ := h.functional
    refine ⟨c0 + ∑ t ∈ range c.An.rows, u.b t ^ 2, add_nonneg hc0 (sum_nonneg fun t _ => sq_nonneg _), fun x z => ?_⟩
    have h1 := hfun x z
    have h2 := a2 (x c.i) z
    have h3 := b3 z
    dsimp only at h2 h3
    have r1 := hsum (fun B l => blockResidual B.n s.nCommon B.Rii B.Rin B.y (x l) z) (fun l => by simp [blockResidual, Blk.empty])
    have r2 := hsum (fun B l => ∑ j ∈ range B.n, x l j ^ 2) (fun l => by simp [Blk.empty])
    unfold BlockQr.residual BlockQr.objective at h1 ⊢
    dsimp only at r1 r2 ⊢
    rw [r1, r2]
    simp only [List.map_append, List.map_cons, List.map_nil, List.sum_append, List.sum_cons, List.sum_nil, add_zero]
    have hres : c.residual s.nCommon x z = ∑ t ∈ range c.Ai.rows, (∑ j ∈ range c.Ai.cols, c.Ai.e (c.Ai.idx j) t * x c.i j +
      ∑ k ∈ range s.nCommon, c.An.e (c.An.idx k) t * z k - c.b t) ^ 2 := rfl
    have hrows : c.An.rows = c.Ai.rows := g2.trans g1.symm
    rw [hres]
    rw [hrows] at h3 ⊢
    rcases k4 with ⟨k, hk⟩ | ⟨-, k⟩
    · have z1 : blockResidual (s.blk c.i).n s.nCommon (s.blk c.i).Rii (s.blk c.i).Rin (s.blk c.i).y (x c.i) z = 0 := by
        rw [k]; simp [blockResidual]
      have z2 : ∑ j ∈ range (s.blk c.i).n, x c.i j ^ 2 = 0 := by rw [k]; simp
      have z3 := hk (x c.i) z
      rw [k1] at z3
      rw [z1, z2, k1]
      linarith
    · subst k
      rw [k1]
      linarith

theorem blockRun_snoc {tol : ℝ} {nCommon : Nat} {lambda : ℝ} {calls : List BlockCall} {c : BlockCall} :
    blockRun tol nCommon lambda (calls ++ [c]) =
      (blockRun tol nCommon lambda calls).bind fun s => s.add tol c.i c.Ai c.An c.bRows c.b := by
  unfold blockRun
  rw [List.foldlM_append]
  simp [Option.bind_eq_bind]

theorem blockRun_inv {nCommon : Nat} {lambda : ℝ} {calls : List BlockCall} (hd : ∀ c ∈ calls, c.Distinct) {s : BlockQr}
    (hrun : blockRun 0 nCommon lambda calls = some s) : s.nCommon = nCommon ∧ s.lambda = lambda ∧ BlockInv s calls := by
  induction calls using List.reverseRecOn generalizing s with
  | nil =>
    cases hrun
    refine ⟨rfl, rfl, ?_, ?_, ?_, ?_, rfl, ?_, ?_, 0, le_rfl, fun x z => ?_⟩
    · intro i _; rfl
    · intro i h; exact absurd rfl h
    · simp
    · intro i h; exact absurd rfl h
    · intro i r j _; rfl
    · intro r j hj; exact if_neg (by omega)
    · have := diag_residual (n := nCommon) (lambda := lambda) (D := fun r c => if r = c then lambda else 0) (y := fun _ => 0)
        (fun _ _ => rfl) (fun _ _ _ _ => rfl) z
      simp only [objective, List.map_nil, List.sum_nil, add_zero] at this
      simp only [BlockQr.residual, BlockQr.objective, BlockQr.start, range_zero, sum_empty, zero_add, List.map_nil,
        List.sum_nil, add_zero]
      exact this
  | append_singleton calls c ih =>
    rw [blockRun_snoc] at hrun
    obtain ⟨s0, h0, hadd⟩ := Option.bind_eq_some_iff.1 hrun
    obtain ⟨n1, n2, hinv⟩ := ih (fun c hc => hd c (by simp [hc])) h0
    obtain ⟨m1, m2, h⟩ := block_add_inv hinv (hd c (by simp)) hadd
    exact ⟨m1.trans n1, m2.trans n2, h⟩

/-! ### Numbering the unknowns consecutively -/

theorem off_succ (s : BlockQr) (i : Nat) : s.off (i + 1) = s.off i + (s.blk i).n := sum_range_succ _ _

theorem off_mono (s : BlockQr) {i k : Nat} (h : i ≤ k) : s.off i ≤ s.off k :=
  sum_le_sum_of_subset fun l hl => mem_range.2 (lt_of_lt_of_le (mem_range.1 hl) h)

theorem off_add_le (s : BlockQr) {i k : Nat} (h : i < k) : s.off i + (s.blk i).n ≤ s.off k := by
  rw [← off_succ]; exact off_mono s h

theorem sum_off (s : BlockQr) (f : Nat → ℝ) (k : Nat) :
    ∑ r ∈ range (s.off k), f r = ∑ i ∈ range k, ∑ r ∈ range (s.blk i).n, f (s.off i + r) := by
  induction k with
  | zero => simp [BlockQr.off]
  | succ k ih => rw [off_succ, sum_range_add, ih, sum_range_succ]

theorem exists_off (s : BlockQr) {k r : Nat} (h : r < s.off k) : ∃ i < k, ∃ q < (s.blk i).n, r = s.off i + q := by
  induction k with
  | zero => simp [BlockQr.off] at h
  | succ k ih =>
    rw [off_succ] at h
    by_cases hr : r < s.off k
    · obtain ⟨i, hi, q, hq, e⟩ := ih hr
      exact ⟨i, by omega, q, hq, e⟩
    · exact ⟨k, by omega, r - s.off k, by omega, by omega⟩

/-- A place in block `i` is in no other block. -/
theorem sum_place (s : BlockQr) {i q : Nat} (hi : i < s.nBlocks) (hq : q < (s.blk i).n) (f : Nat → ℝ) :
    ∑ l ∈ range s.nBlocks, (if s.off l ≤ s.off i + q ∧ s.off i + q < s.off l + (s.blk l).n then f l else 0) = f i := by
  rw [sum_eq_single i]
  · rw [if_pos (by omega)]
  · intro l _ hl
    apply if_neg
    rcases Nat.lt_or_gt_of_ne hl with h | h
    · have := off_add_le s h; omega
    · have := off_add_le s h; omega
  · intro h; exact absurd (mem_range.2 hi) h

theorem sum_place_common (s : BlockQr) {j : Nat} (hj : s.off s.nBlocks ≤ j) (f : Nat → ℝ) :
    ∑ l ∈ range s.nBlocks, (if s.off l ≤ j ∧ j < s.off l + (s.blk l).n then f l else 0) = 0 := by
  apply sum_eq_zero
  intro l hl
  have := off_add_le s (mem_range.1 hl)
  exact if_neg (by omega)

theorem rDense_block (s : BlockQr) {i q : Nat} (hi : i < s.nBlocks) (hq : q < (s.blk i).n) (c : Nat) :
    s.rDense (s.off i + q) c = if s.off i ≤ c ∧ c < s.off i + (s.blk i).n then (s.blk i).Rii q (c - s.off i)
      else if s.off s.nBlocks ≤ c then (s.blk i).Rin q (c - s.off s.nBlocks) else 0 := by
  have := off_add_le s hi
  unfold BlockQr.rDense
  rw [sum_place s hi hq fun l => if s.off l ≤ c ∧ c < s.off l + (s.blk l).n
    then (s.blk l).Rii (s.off i + q - s.off l) (c - s.off l)
    else if s.off s.nBlocks ≤ c then (s.blk l).Rin (s.off i + q - s.off l) (c - s.off s.nBlocks) else 0,
    if_neg (c := s.off s.nBlocks ≤ s.off i + q ∧ s.off s.nBlocks ≤ c) (by omega), add_zero, Nat.add_sub_cancel_left]

theorem rDense_common (s : BlockQr) (r c : Nat) : s.rDense (s.off s.nBlocks + r) c =
    if s.off s.nBlocks ≤ c then s.Rnn r (c - s.off s.nBlocks) else 0 := by
  unfold BlockQr.rDense
  rw [sum_place_common s (by omega) fun l => if s.off l ≤ c ∧ c < s.off l + (s.blk l).n
    then (s.blk l).Rii (s.off s.nBlocks + r - s.off l) (c - s.off l)
    else if s.off s.nBlocks ≤ c then (s.blk l).Rin (s.off s.nBlocks + r - s.off l) (c - s.off s.nBlocks) else 0,
    zero_add, Nat.add_sub_cancel_left]
  by_cases h : s.off s.nBlocks ≤ c
  · rw [if_pos ⟨by omega, h⟩, if_pos h]
  · rw [if_neg (by omega), if_neg h]

theorem yDense_block (s : BlockQr) {i q : Nat} (hi : i < s.nBlocks) (hq : q < (s.blk i).n) :
    s.yDense (s.off i + q) = (s.blk i).y q := by
  have := off_add_le s hi
  unfold BlockQr.yDense
  rw [sum_place s hi hq fun l => (s.blk l).y (s.off i + q - s.off l), if_neg (by omega), add_zero, Nat.add_sub_cancel_left]

theorem yDense_common (s : BlockQr) (r : Nat) : s.yDense (s.off s.nBlocks + r) = s.yn r := by
  unfold BlockQr.yDense
  rw [sum_place_common s (by omega) fun l => (s.blk l).y (s.off s.nBlocks + r - s.off l), zero_add, if_pos (by omega),
    Nat.add_sub_cancel_left]

theorem xDense_block (s : BlockQr) {i q : Nat} (hi : i < s.nBlocks) (hq : q < (s.blk i).n) :
    s.xDense (s.off i + q) = s.xI i q := by
  have := off_add_le s hi
  unfold BlockQr.xDense
  rw [sum_place s hi hq fun l => s.xI l (s.off i + q - s.off l), if_neg (by omega), add_zero, Nat.add_sub_cancel_left]

theorem xDense_common (s : BlockQr) (r : Nat) : s.xDense (s.off s.nBlocks + r) = s.xN r := by
  unfold BlockQr.xDense
  rw [sum_place_common s (by omega) fun l => s.xI l (s.off s.nBlocks + r - s.off l), zero_add, if_pos (by omega),
    Nat.add_sub_cancel_left]

/-- A row of the factor that belongs to a block. -/
theorem block_row (s : BlockQr) {i q : Nat} (hi : i < s.nBlocks) (hq : q < (s.blk i).n) (X : Nat → ℝ) :
    ∑ j ∈ Ico (s.off i + q) (s.off s.nBlocks + s.nCommon), s.rDense (s.off i + q) j * X j =
      ∑ j ∈ Ico q (s.blk i).n, (s.blk i).Rii q j * X (s.off i + j) +
      ∑ c ∈ range s.nCommon, (s.blk i).Rin q c * X (s.off s.nBlocks + c) := by
  have hle := off_add_le s hi
  rw [← sum_Ico_consecutive _ (show s.off i + q ≤ s.off s.nBlocks by omega) (by omega),
    ← sum_Ico_consecutive _ (show s.off i + q ≤ s.off i + (s.blk i).n by omega) hle]
  have z : ∑ j ∈ Ico (s.off i + (s.blk i).n) (s.off s.nBlocks), s.rDense (s.off i + q) j * X j = 0 := by
    apply sum_eq_zero
    intro j hj
    rw [mem_Ico] at hj
    rw [rDense_block s hi hq, if_neg (by omega), if_neg (by omega), zero_mul]
  rw [z, add_zero]
  congr 1
  · rw [add_comm (s.off i) q, add_comm (s.off i) (s.blk i).n, ← sum_Ico_add' _ q (s.blk i).n (s.off i)]
    apply sum_congr rfl
    intro j hj
    rw [mem_Ico] at hj
    rw [add_comm q (s.off i), rDense_block s hi hq, if_pos (by omega), Nat.add_sub_cancel, add_comm j (s.off i)]
  · rw [sum_Ico_eq_sum_range, Nat.add_sub_cancel_left]
    apply sum_congr rfl
    intro c _
    rw [rDense_block s hi hq, if_neg (by omega), if_pos (by omega), Nat.add_sub_cancel_left]

/-- A row of the factor that belongs to the common unknowns. -/
theorem common_row (s : BlockQr) (r : Nat) (X : Nat → ℝ) :
    ∑ j ∈ Ico (s.off s.nBlocks + r) (s.off s.nBlocks + s.nCommon), s.rDense (s.off s.nBlocks + r) j * X j =
      ∑ j ∈ Ico r s.nCommon, s.Rnn r j * X (s.off s.nBlocks + j) := by
  rw [add_comm _ r, add_comm _ s.nCommon, ← sum_Ico_add' _ r s.nCommon (s.off s.nBlocks)]
  apply sum_congr rfl
  intro j _
  rw [add_comm r, rDense_common, if_pos (by omega), Nat.add_sub_cancel, add_comm j]

theorem dense_residual (s : BlockQr) (X : Nat → ℝ) :
    factorResidual (s.off s.nBlocks + s.nCommon) s.rDense s.yDense X =
      s.residual (fun i j => X (s.off i + j)) fun c => X (s.off s.nBlocks + c) := by
  unfold factorResidual BlockQr.residual
  rw [sum_range_add, sum_off]
  congr 1
  · apply sum_congr rfl
    intro i hi
    unfold blockResidual
    apply sum_congr rfl
    intro q hq
    rw [block_row s (mem_range.1 hi) (mem_range.1 hq), yDense_block s (mem_range.1 hi) (mem_range.1 hq)]
  · apply sum_congr rfl
    intro r _
    rw [common_row, yDense_common]

theorem dense_objective {s : BlockQr} {calls : List BlockCall} (h : BlockInv s calls) (X : Nat → ℝ) :
    objective (s.off s.nBlocks + s.nCommon) s.lambda (blockHistory s calls) X =
      s.objective calls (fun i j => X (s.off i + j)) fun c => X (s.off s.nBlocks + c) := by
  unfold objective BlockQr.objective blockHistory
  rw [sum_range_add, sum_off, List.map_map]
  congr 2
  apply List.map_congr_left
  intro c hc
  unfold Rows.residual BlockCall.residual BlockCall.toRows
  dsimp only [Function.comp]
  obtain ⟨h1, h2⟩ := h.sizes c hc
  have hoff : ∑ l ∈ range c.i, s.size l = s.off c.i := rfl
  have htot : s.total = s.off s.nBlocks := rfl
  have hle := off_add_le s h1
  apply sum_congr rfl
  intro t _
  rw [hoff, htot]
  congr 2
  rw [sum_range_add]
  congr 1
  · have e : ∀ f : Nat → ℝ, ∑ j ∈ range (s.off s.nBlocks), (if s.off c.i ≤ j ∧ j < s.off c.i + c.Ai.cols then f (j - s.off c.i) * X j else 0)
        = ∑ j ∈ range c.Ai.cols, f j * X (s.off c.i + j) := by
      intro f
      rw [← sum_filter]
      have : (range (s.off s.nBlocks)).filter (fun j => s.off c.i ≤ j ∧ j < s.off c.i + c.Ai.cols) =
          Ico (s.off c.i) (s.off c.i + c.Ai.cols) := by
        ext j
        simp only [mem_filter, mem_range, mem_Ico]
        omega
      rw [this, sum_Ico_eq_sum_range, Nat.add_sub_cancel_left]
      exact sum_congr rfl fun j _ => by rw [Nat.add_sub_cancel_left]
    rw [← e]
    apply sum_congr rfl
    intro j hj
    rw [mem_range] at hj
    by_cases hb : s.off c.i ≤ j ∧ j < s.off c.i + c.Ai.cols
    · rw [if_pos hb, if_pos hb]
    · rw [if_neg hb, if_neg hb, if_neg (by omega), zero_mul]
  · apply sum_congr rfl
    intro k _
    rw [if_neg (by omega), if_pos (by omega), Nat.add_sub_cancel_left]

theorem block_represents {s : BlockQr} {calls : List BlockCall} (h : BlockInv s calls) :
    Represents (s.total + s.nCommon) s.lambda (blockHistory s calls) s.rDense s.yDense := by
  have htot : s.total = s.off s.nBlocks := rfl
  rw [htot]
  constructor
  · intro r j hj hr
    by_cases hb : r < s.off s.nBlocks
    · obtain ⟨i, hi, q, hq, rfl⟩ := exists_off s hb
      rw [rDense_block s hi hq]
      split
      · exact h.upper i _ _ (by omega)
      · exact if_neg (by omega)
    · obtain ⟨q, rfl⟩ := Nat.exists_eq_add_of_le (not_lt.1 hb)
      rw [rDense_common]
      split
      · exact h.upperN _ _ (by omega)
      · rfl
  · obtain ⟨c, hc, hf⟩ := h.functional
    exact ⟨c, hc, fun X => by rw [dense_residual, dense_objective h, hf]⟩

theorem block_solves {s : BlockQr} (hdiag : ∀ r < s.total + s.nCommon, s.rDense r r ≠ 0) :
    ∀ r < s.total + s.nCommon, ∑ j ∈ Ico r (s.total + s.nCommon), s.rDense r j * s.xDense j = s.yDense r := by
  have htot : s.total = s.off s.nBlocks := rfl
  rw [htot] at hdiag ⊢
  intro r hr
  have hn : ∀ r < s.nCommon, ∑ j ∈ Ico r s.nCommon, s.Rnn r j * s.xN j = s.yn r :=
    backSub_spec _ _ _ (fun r hr => by
      have := hdiag (s.off s.nBlocks + r) (by omega)
      rw [rDense_common, if_pos (by omega), Nat.add_sub_cancel_left] at this
      exact this)
  by_cases hb : r < s.off s.nBlocks
  · obtain ⟨i, hi, q, hq, rfl⟩ := exists_off s hb
    have hle := off_add_le s hi
    rw [block_row s hi hq, yDense_block s hi hq]
    have hs := backSub_spec (s.blk i).n (s.blk i).Rii
      (fun r => (s.blk i).y r - ∑ c ∈ range s.nCommon, (s.blk i).Rin r c * s.xN c) (fun r hr => by
      have := hdiag (s.off i + r) (by omega)
      rw [rDense_block s hi hr, if_pos (by omega), Nat.add_sub_cancel_left] at this
      exact this) q hq
    have e1 : ∑ j ∈ Ico q (s.blk i).n, (s.blk i).Rii q j * s.xDense (s.off i + j) =
        (s.blk i).y q - ∑ c ∈ range s.nCommon, (s.blk i).Rin q c * s.xN c := by
      refine Eq.trans (sum_congr rfl fun j hj => ?_) hs
      rw [xDense_block s hi (mem_Ico.1 hj).2]
      rfl
    rw [e1]
    simp only [xDense_common]
    ring
  · obtain ⟨q, rfl⟩ := Nat.exists_eq_add_of_le (not_lt.1 hb)
    rw [common_row, yDense_common]
    simp only [xDense_common]
    exact hn q (by omega)

theorem block_atTimesB (s : BlockQr) {j : Nat} (hj : j < s.total + s.nCommon) :
    s.atTimesB j = ∑ r ∈ range (s.total + s.nCommon), s.rDense r j * s.yDense r := by
  have htot : s.total = s.off s.nBlocks := rfl
  rw [htot] at hj ⊢
  rw [sum_range_add, sum_off]
  by_cases hb : j < s.off s.nBlocks
  · obtain ⟨i, hi, q, hq, rfl⟩ := exists_off s hb
    have hle := off_add_le s hi
    unfold BlockQr.atTimesB
    rw [sum_place s hi hq fun l => ∑ r ∈ range (s.blk l).n, (s.blk l).Rii r (s.off i + q - s.off l) * (s.blk l).y r,
      if_neg (by omega), add_zero, sum_eq_zero (s := range s.nCommon), add_zero, sum_eq_single (s := range s.nBlocks) i]
    · apply sum_congr rfl
      intro r hr
      rw [rDense_block s hi (mem_range.1 hr), yDense_block s hi (mem_range.1 hr), if_pos (by omega)]
    · intro l hl hne
      apply sum_eq_zero
      intro r hr
      rw [rDense_block s (mem_range.1 hl) (mem_range.1 hr), if_neg, if_neg (by omega), zero_mul]
      rcases Nat.lt_or_gt_of_ne hne with h | h
      · have := off_add_le s h; omega
      · have := off_add_le s h; omega
    · intro h; exact absurd (mem_range.2 hi) h
    · intro c _
      rw [rDense_common, if_neg (by omega), zero_mul]
  · obtain ⟨q, rfl⟩ := Nat.exists_eq_add_of_le (not_lt.1 hb)
    unfold BlockQr.atTimesB
    rw [sum_place_common s (by omega) fun l => ∑ r ∈ range (s.blk l).n,
      (s.blk l).Rii r (s.off s.nBlocks + q - s.off l) * (s.blk l).y r, zero_add, if_pos (by omega), Nat.add_sub_cancel_left]
    unfold BlockQr.atTimesBN
    rw [add_comm]
    congr 1
    · apply sum_congr rfl
      intro i hi
      have hle := off_add_le s (mem_range.1 hi)
      apply sum_congr rfl
      intro r hr
      rw [rDense_block s (mem_range.1 hi) (mem_range.1 hr), yDense_block s (mem_range.1 hi) (mem_range.1 hr),
        if_neg (by omega), if_pos (by omega), Nat.add_sub_cancel_left]
    · apply sum_congr rfl
      intro r _
      rw [rDense_common, yDense_common, if_pos (by omega), Nat.add_sub_cancel_left]

/-! ### The property -/

/-- The size of every block is the column count of the calls made for it, and the blocks reach up to the largest index
used. -/
theorem C28_block_sizes (nCommon : Nat) (lambda : ℝ) (calls : List BlockCall) (hd : ∀ c ∈ calls, c.Distinct) (s : BlockQr)
    (hrun : blockRun 0 nCommon lambda calls = some s) :
    s.nBlocks = calls.foldl (fun k c => max k (c.i + 1)) 0 ∧
    (∀ c ∈ calls, c.Ai.cols = 0 ∨ c.Ai.cols = s.size c.i) ∧
    (∀ i, s.size i ≠ 0 → ∃ c ∈ calls, c.i = i ∧ c.Ai.cols = s.size i) := by
  obtain ⟨-, -, h⟩ := blockRun_inv hd hrun
  exact ⟨h.blocks, fun c hc => (h.sizes c hc).2, h.used⟩

/-- **C28 (block), partial.**  If the history was accepted and skipping columns by the absolute tolerance made no
difference, the factor is upper triangular and has the normal equations of the history, and `At_times_b_dense` reports the
right-hand side.  Missing: histories with a column of tiny entries, for which the claim is false
(`C28_block_tolerance_counterexample`). -/
theorem C28_block_partial (tol : ℝ) (nCommon : Nat) (lambda : ℝ) (calls : List BlockCall) (hd : ∀ c ∈ calls, c.Distinct)
    (s : BlockQr) (hrun : blockRun tol nCommon lambda calls = some s)
    (htol : blockRun tol nCommon lambda calls = blockRun 0 nCommon lambda calls) :
    (∀ r j, j < r → r < s.total + nCommon → s.rDense r j = 0) ∧
    (∀ j < s.total + nCommon, ∀ k < s.total + nCommon,
      ∑ r ∈ range (s.total + nCommon), s.rDense r j * s.rDense r k = normalMatrix lambda (blockHistory s calls) j k) ∧
    (∀ j < s.total + nCommon,
      ∑ r ∈ range (s.total + nCommon), s.rDense r j * s.yDense r = normalRhs (blockHistory s calls) j) ∧
    ∀ j < s.total + nCommon, s.atTimesB j = normalRhs (blockHistory s calls) j := by
  obtain ⟨rfl, rfl, h⟩ := blockRun_inv hd (htol ▸ hrun)
  have hrep := block_represents h
  exact ⟨hrep.upper, hrep.normal.1, hrep.normal.2, fun j hj => by rw [block_atTimesB s hj]; exact hrep.normal.2 j hj⟩

/-- **C28 (block), partial.**  Under the same proviso, for a problem of full rank `x_dense` is the only minimiser, and its
pieces are `x_i` and `x_n`. -/
theorem C28_block_minimiser_partial (tol : ℝ) (nCommon : Nat) (lambda : ℝ) (calls : List BlockCall)
    (hd : ∀ c ∈ calls, c.Distinct) (s : BlockQr) (hrun : blockRun tol nCommon lambda calls = some s)
    (htol : blockRun tol nCommon lambda calls = blockRun 0 nCommon lambda calls)
    (hf : FullRank (s.total + nCommon) lambda (blockHistory s calls)) :
    (∀ z, objective (s.total + nCommon) lambda (blockHistory s calls) s.xDense ≤
        objective (s.total + nCommon) lambda (blockHistory s calls) z ∧
      (objective (s.total + nCommon) lambda (blockHistory s calls) z ≤
        objective (s.total + nCommon) lambda (blockHistory s calls) s.xDense → ∀ j < s.total + nCommon, z j = s.xDense j)) ∧
    (∀ i < s.nBlocks, ∀ q < s.size i, s.xI i q = s.xDense (∑ l ∈ range i, s.size l + q)) ∧
    (∀ c < nCommon, s.xN c = s.xDense (s.total + c)) := by
  obtain ⟨rfl, rfl, h⟩ := blockRun_inv hd (htol ▸ hrun)
  have hrep := block_represents h
  exact ⟨hrep.minimiser hf (block_solves (hrep.diagonal.2 hf)), fun i hi q hq => (xDense_block s hi hq).symm,
    fun c _ => (xDense_common s c).symm⟩

/-- **C28 (block), partial.**  The block solver gives what the dense solver gives when fed the same equations, written
out over all the unknowns, in any order. -/
theorem C28_block_dense_partial (tol : ℝ) (nCommon : Nat) (lambda : ℝ) (calls : List BlockCall)
    (hd : ∀ c ∈ calls, c.Distinct) (s : BlockQr) (hrun : blockRun tol nCommon lambda calls = some s)
    (htol : blockRun tol nCommon lambda calls = blockRun 0 nCommon lambda calls)
    (hf : FullRank (s.total + nCommon) lambda (blockHistory s calls)) (hist : List Rows)
    (hp : hist.Perm (blockHistory s calls)) :
    ∃ d, denseRun (s.total + nCommon) lambda (hist.map (denseCall (s.total + nCommon))) = some d ∧
      ∀ j < s.total + nCommon, s.xDense j = d.result j :=
  dense_of_minimiser hp hf fun z => ((C28_block_minimiser_partial tol nCommon lambda calls hd s hrun htol hf).1 z).1

/-- A reset block solver behaves as a new one. -/
theorem C28_block_reset (tol : ℝ) (nCommon : Nat) (lambda : ℝ) (calls : List BlockCall) (s : BlockQr)
    (hrun : blockRun tol nCommon lambda calls = some s) : s.reset = BlockQr.start nCommon lambda := by
  have : s.nCommon = nCommon ∧ s.lambda = lambda := by
    induction calls using List.reverseRecOn generalizing s with
    | nil => cases hrun; exact ⟨rfl, rfl⟩
    | append_singleton calls c ih =>
      rw [blockRun_snoc] at hrun
      obtain ⟨s0, h0, hadd⟩ := Option.bind_eq_some_iff.1 hrun
      obtain ⟨n1, n2⟩ := ih s0 h0
      unfold BlockQr.add at hadd
      split at hadd
      · cases hadd
      split at hadd
      · cases hadd
      split at hadd
      · cases hadd
      obtain ⟨B, -, hadd⟩ := Option.bind_eq_some_iff.1 hadd
      simp only [Option.some.injEq] at hadd
      subst hadd
      exact ⟨n1, n2⟩
  unfold BlockQr.reset BlockQr.start
  rw [this.1, this.2]

/-! ### Where it fails -/

/-- One equation `tol · x = 1` on a single block of one unknown. -/
def exBlockTiny (tol : ℝ) : BlockCall :=
  ⟨0, ⟨1, 1, fun _ _ => tol, false, []⟩, ⟨1, 0, fun _ _ => 0, false, []⟩, 1, fun _ => 1⟩

/-- **C28 (block) fails for small entries.**  Whatever the positive tolerance, the equation `tol · x = 1` with
regularisation `tol` is dropped: the solver returns `0`, although `1 / (2 tol)` is strictly better. -/
theorem C28_block_tolerance_counterexample (tol : ℝ) (ht : 0 < tol) :
    (exBlockTiny tol).Distinct ∧
    ∃ s, blockRun tol 0 tol [exBlockTiny tol] = some s ∧ s.total = 1 ∧ s.xDense 0 = 0 ∧
      FullRank 1 tol (blockHistory s [exBlockTiny tol]) ∧
      objective 1 tol (blockHistory s [exBlockTiny tol]) (fun _ => 1 / (2 * tol)) <
        objective 1 tol (blockHistory s [exBlockTiny tol]) s.xDense := by
  refine ⟨by simp [exBlockTiny, BlockCall.Distinct, ColMat.DistinctColumns], ?_⟩
  have hrun : blockRun tol 0 tol [exBlockTiny tol] = some
      { nCommon := 0, lambda := tol, nBlocks := 1
        blk := Function.update (fun _ => Blk.empty) 0
          ⟨1, 0, fun r c => if r = c then tol else 0, fun _ _ => 0, fun _ => 0⟩
        Rnn := fun r c => if r = c then tol else 0, yn := fun _ => 0 } := by
    simp [blockRun, exBlockTiny, BlockQr.add, BlockQr.open, BlockQr.start, ColMat.cols, ColMat.idx, Blk.empty, blockPivot,
      abs_of_pos ht]
  refine ⟨_, hrun, by simp [BlockQr.total, BlockQr.size], ?_, C27_regularised _ _ ht.ne' _, ?_⟩
  · simp [BlockQr.xDense, BlockQr.off, BlockQr.xI, backSub]
  · simp [objective, blockHistory, exBlockTiny, BlockCall.toRows, Rows.residual, ColMat.cols, ColMat.entry, ColMat.idx,
      BlockQr.xDense, BlockQr.off, BlockQr.xI, BlockQr.total, BlockQr.size, backSub]
    field_simp
    norm_num

/-- One equation `x₀ + x₁ = 1` between a block of one unknown and one common unknown. -/
def exBlockPair (i : Nat) : BlockCall :=
  ⟨i, ⟨1, 1, fun _ _ => 1, false, []⟩, ⟨1, 1, fun _ _ => 1, false, []⟩, 1, fun _ => 1⟩

theorem exBlockPair_run (tol : ℝ) (h0 : 0 ≤ tol) (ht : tol < 1) (nCommon : Nat) (lambda : ℝ) (i : Nat) :
    blockRun tol nCommon lambda [exBlockPair i] = blockRun 0 nCommon lambda [exBlockPair i] := by
  have h1 : ¬ (1 : ℝ) ≤ tol := not_le.2 ht
  have h2 : ¬ (1 : ℝ) ≤ 0 := by norm_num
  simp [blockRun, exBlockPair, BlockQr.add, BlockQr.open, BlockQr.start, ColMat.cols, ColMat.idx, Blk.empty, blockPivot,
    h1, h2]

/-- **C28 (block): `At_times_b_i` is wrong.**  Where its two summands have the same size it adds the term of the common
unknowns to that of the block: for the single equation `x₀ + x₁ = 1` the right-hand side of the normal equations is `1`
at the block's unknown, and it returns something else.  (Where the sizes differ the sum is not defined.) -/
theorem C28_block_atTimesBI_counterexample (tol : ℝ) (h0 : 0 ≤ tol) (ht : tol < 1) :
    ∃ s v, blockRun tol 1 1 [exBlockPair 0] = some s ∧ s.total = 1 ∧ s.atTimesBI 0 = some v ∧
      normalRhs (blockHistory s [exBlockPair 0]) 0 = 1 ∧ v 0 ≠ 1 := by
  obtain ⟨s, hs⟩ : ∃ s, blockRun 0 1 1 [exBlockPair 0] = some s := by
    simp [blockRun, exBlockPair, BlockQr.add, BlockQr.open, BlockQr.start, ColMat.cols, Blk.empty]
  have hd : ∀ c ∈ [exBlockPair 0], c.Distinct := by
    simp [exBlockPair, BlockCall.Distinct, ColMat.DistinctColumns]
  obtain ⟨n1, n2, h⟩ := blockRun_inv hd hs
  have hb : s.nBlocks = 1 := h.blocks
  have hn : (s.blk 0).n = 1 := by
    have := (h.sizes (exBlockPair 0) (by simp)).2
    simpa [exBlockPair, ColMat.cols, eq_comm] using this
  have hin : (s.blk 0).nIn = 1 := by rw [h.inCols 0 (by omega), n1]
  have htot : s.total = 1 := by simp [BlockQr.total, BlockQr.size, hb, hn]
  have hrep := block_represents h
  rw [htot, n1, n2] at hrep
  have q0 := hrep.normal.2 0 (by norm_num)
  have q1 := hrep.normal.1 0 (by norm_num) 1 (by norm_num)
  have u := hrep.upper 1 0 (by norm_num) (by norm_num)
  have hoff : s.off 0 = 0 := rfl
  have hoff1 : s.off 1 = 1 := by simp [BlockQr.off, hn]
  have d00 := rDense_block s (i := 0) (q := 0) (by omega) (by omega) 0
  have d01 := rDense_block s (i := 0) (q := 0) (by omega) (by omega) 1
  have y0 := yDense_block s (i := 0) (q := 0) (by omega) (by omega)
  rw [hb, hoff, hoff1, hn] at d00 d01
  rw [hoff] at y0
  simp at d00 d01 y0
  have hrhs : normalRhs (blockHistory s [exBlockPair 0]) 0 = 1 := by
    simp [normalRhs, blockHistory, exBlockPair, BlockCall.toRows, ColMat.cols, ColMat.entry, ColMat.idx]
  simp only [sum_range_succ, range_zero, sum_empty, zero_add, Nat.reduceAdd, u, zero_mul, add_zero, hrhs, d00, d01, y0] at q0 q1
  have hm : normalMatrix 1 (blockHistory s [exBlockPair 0]) 0 1 = 1 := by
    simp [normalMatrix, blockHistory, exBlockPair, BlockCall.toRows, ColMat.cols, ColMat.entry, ColMat.idx, htot]
  rw [hm] at q1
  refine ⟨s, _, by rw [exBlockPair_run tol h0 ht]; exact hs, htot, by unfold BlockQr.atTimesBI; rw [if_pos (by omega)], hrhs, ?_⟩
  simp only [hn, range_one, sum_singleton]
  intro h
  rw [q0] at h
  have : (s.blk 0).Rin 0 0 * (s.blk 0).y 0 = 0 := by linarith
  rcases mul_eq_zero.1 this with e | e
  · rw [e, mul_zero] at q1; norm_num at q1
  · rw [e, mul_zero] at q0; norm_num at q0

/-- **C28 (block): a skipped index.**  If block 1 is used and block 0 is not, the entry of block 0 has no common columns,
and the size check in `R_dense` and the products in `x_dense` fail. -/
theorem C28_block_gap_counterexample (tol : ℝ) :
    ∃ s, blockRun tol 1 1 [exBlockPair 1] = some s ∧ ¬ s.NoGap := by
  refine ⟨_, by
    simp only [blockRun, exBlockPair, BlockQr.add, BlockQr.open, BlockQr.start, ColMat.cols, Blk.empty, List.foldlM_cons,
      List.foldlM_nil, ne_eq, not_true_eq_false, if_false, Bool.false_eq_true, if_true]
    rfl, ?_⟩
  intro h
  have := h 0 (by simp)
  simp [Function.update] at this

/-- If no block index is skipped, the size checks of `R_dense`, `x_dense` and `At_times_b_dense` pass. -/
theorem C28_block_no_gap (nCommon : Nat) (lambda : ℝ) (calls : List BlockCall) (hd : ∀ c ∈ calls, c.Distinct) (s : BlockQr)
    (hrun : blockRun 0 nCommon lambda calls = some s)
    (hall : ∀ i < s.nBlocks, ∃ c ∈ calls, c.i = i ∧ c.Ai.cols ≠ 0) : s.NoGap := by
  obtain ⟨-, -, h⟩ := blockRun_inv hd hrun
  intro i hi
  obtain ⟨c, hc, rfl, h0⟩ := hall i hi
  exact h.inCols _ fun e => h0 (((h.sizes c hc).2.resolve_left h0).trans e)

/-- A history is accepted when the shapes agree: same number of rows everywhere, `nCommon` common columns, and the same
number of columns in all calls for a block. -/
theorem C28_block_defined (tol : ℝ) (nCommon : Nat) (lambda : ℝ) (calls : List BlockCall) (size : Nat → Nat)
    (hshape : ∀ c ∈ calls, c.Ai.rows = c.bRows ∧ c.An.rows = c.bRows ∧ c.An.cols = nCommon ∧ c.Ai.cols = size c.i) :
    ∃ s, blockRun tol nCommon lambda calls = some s := by
  suffices ∃ s, blockRun tol nCommon lambda calls = some s ∧ s.nCommon = nCommon ∧
      ∀ i, (s.blk i).n = 0 ∨ (s.blk i).n = size i by
    obtain ⟨s, h, -⟩ := this
    exact ⟨s, h⟩
  induction calls using List.reverseRecOn with
  | nil => exact ⟨_, rfl, rfl, fun i => Or.inl rfl⟩
  | append_singleton calls c ih =>
    obtain ⟨s, h, hn, hb⟩ := ih fun c hc => hshape c (by simp [hc])
    obtain ⟨g1, g2, g3, g4⟩ := hshape c (by simp)
    obtain ⟨B, hB, hBn⟩ : ∃ B, s.open c.i c.Ai.cols = some B ∧ B.n = size c.i := by
      unfold BlockQr.open
      by_cases h0 : (s.blk c.i).n = 0
      · rw [if_pos h0]; exact ⟨_, rfl, g4⟩
      · rw [if_neg h0, if_pos (((hb c.i).resolve_left h0).trans g4.symm)]
        exact ⟨_, rfl, (hb c.i).resolve_left h0⟩
    rw [blockRun_snoc, h, Option.bind_some]
    unfold BlockQr.add
    rw [if_neg (not_not.2 g1), if_neg (not_not.2 g2), if_neg (by rw [hn]; exact not_not.2 g3), hB]
    refine ⟨_, rfl, hn, fun i => ?_⟩
    dsimp only
    by_cases hi : i = c.i
    · rw [hi, Function.update_self]; exact Or.inr hBn
    · rw [Function.update_of_ne hi]; exact hb i

/-! ### A concrete history -/

/-- Two blocks of one unknown each, one common unknown, three calls. -/
def exBlockCalls : List BlockCall := [exBlockPair 0, exBlockPair 1, exBlockPair 0]

example : (∀ c ∈ exBlockCalls, c.Distinct) ∧ (∃ s, blockRun 0 1 (1 / 2) exBlockCalls = some s) ∧
    ∀ s, FullRank (s.total + 1) (1 / 2) (blockHistory s exBlockCalls) := by
  refine ⟨?_, ?_, fun s => C27_regularised _ _ (by norm_num) _⟩
  · simp [exBlockCalls, exBlockPair, BlockCall.Distinct, ColMat.DistinctColumns]
  · apply C28_block_defined (size := fun _ => 1)
    simp [exBlockCalls, exBlockPair, ColMat.cols]

/-- With the tolerance of double precision, and with one block and one common unknown. -/
example : blockRun (1 / 10 ^ 12) 1 (1 / 2) [exBlockPair 0] = blockRun 0 1 (1 / 2) [exBlockPair 0] :=
  exBlockPair_run _ (by norm_num) (by norm_num) _ _ _

end Momentum
