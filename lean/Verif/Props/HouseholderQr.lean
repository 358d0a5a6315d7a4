import Verif.Lemmas.QrRepresents

/-!
# C26, C27: the online QR solver
-/

namespace Momentum
open Finset

theorem qrPivot_inv {n m : Nat} {idx : Nat → Nat} (hidx : ∀ j < n, ∀ k < n, idx j = idx k → j = k)
    (w : QrWork) {i : Nat} (hi : i < n) :
    (∀ r j, j < r → (qrPivot n m idx w i).R r j = w.R r j) ∧
    (∀ r, w.R r r ≠ 0 → (qrPivot n m idx w i).R r r ≠ 0) ∧
    ∀ x : Nat → ℝ,
      factorResidual n (qrPivot n m idx w i).R (qrPivot n m idx w i).y x +
        ∑ t ∈ range m, (∑ j ∈ Ico (i + 1) n, (qrPivot n m idx w i).A (idx j) t * x j -
          (qrPivot n m idx w i).b t) ^ 2 =
      factorResidual n w.R w.y x + ∑ t ∈ range m, (∑ j ∈ Ico i n, w.A (idx j) t * x j - w.b t) ^ 2 := by
  have hother : ∀ j ∈ Ico (i + 1) n, idx j ≠ idx i := by
    intro j hj h
    have hj := mem_Ico.1 hj
    have := hidx j hj.2 i hi h
    omega
  by_cases hs : ∑ t ∈ range m, w.A (idx i) t * w.A (idx i) t = 0
  · have he : qrPivot n m idx w i = { w with A := Function.update w.A (idx i) (w.A (idx i)) } := by
      unfold qrPivot
      simp only [householderVec_zero hs]
      simp
    rw [he, Function.update_eq_self]
    refine ⟨fun _ _ _ => rfl, fun _ h => h, fun x => ?_⟩
    congr 1
    apply sum_congr rfl
    intro t ht
    rw [sum_eq_sum_Ico_succ_bot hi, sumsq_zero hs t (mem_range.1 ht)]
    ring
  · obtain ⟨beta, mu, v, hv⟩ : ∃ beta mu v, householderVec m (w.R i i) (w.A (idx i)) = (beta, mu, v) := ⟨_, _, _, rfl⟩
    obtain ⟨h1, h2, h3, h4, h5, h6⟩ := householderVec_spec hs hv
    have hnd : (List.range' (i + 1) (n - (i + 1))).Nodup := List.nodup_range'
    have hmem : ∀ j, j ∈ List.range' (i + 1) (n - (i + 1)) ↔ j ∈ Ico (i + 1) n := by
      intro j; rw [List.mem_range'_1, mem_Ico]; omega
    obtain ⟨r1, r2, r3⟩ := reflectCols_spec m beta v idx (List.range' (i + 1) (n - (i + 1))) hnd
      (by
        intro j hj k hk
        exact hidx j (mem_Ico.1 ((hmem j).1 hj)).2 k (mem_Ico.1 ((hmem k).1 hk)).2)
      (Function.update (w.R i) i mu) (Function.update w.A (idx i) v)
    generalize hp : reflectCols m beta v idx (List.range' (i + 1) (n - (i + 1)))
      (Function.update (w.R i) i mu) (Function.update w.A (idx i) v) = p at r1 r2 r3
    have hpi : p.2 (idx i) = v := by
      rw [r3 (idx i) fun j hj => hother j ((hmem j).1 hj), Function.update_self]
    have he : qrPivot n m idx w i =
        { R := Function.update w.R i p.1
          y := Function.update w.y i (w.y i - hdot m v (w.y i) w.b * beta)
          A := p.2
          b := fun t => w.b t - hdot m v (w.y i) w.b * beta * v t } := by
      unfold qrPivot
      simp only [hv, if_neg h1, Function.update_self, hp, hpi, applyHouseholder_eq]
    have hrow : ∀ j ∈ Ico i n, p.1 j = w.R i j - hdot m v (w.R i j) (w.A (idx j)) * beta := by
      intro j hj
      by_cases hji : j = i
      · subst hji
        rw [r2 _ (by rw [hmem, mem_Ico]; omega), Function.update_self, h5]
      · have hj' : j ∈ Ico (i + 1) n := by have := mem_Ico.1 hj; rw [mem_Ico]; omega
        rw [(r1 j ((hmem j).2 hj')).1, Function.update_of_ne hji, Function.update_of_ne (hother j hj')]
    have hcol : ∀ j ∈ Ico (i + 1) n, ∀ t, p.2 (idx j) t =
        w.A (idx j) t - hdot m v (w.R i j) (w.A (idx j)) * beta * v t := by
      intro j hj t
      have hji : j ≠ i := by have := mem_Ico.1 hj; omega
      rw [(r1 j ((hmem j).2 hj)).2, Function.update_of_ne hji, Function.update_of_ne (hother j hj)]
    rw [he]
    refine ⟨?_, ?_, ?_⟩
    · intro r j hjr
      simp only
      by_cases hr : r = i
      · subst hr
        rw [Function.update_self, r2 j (by rw [hmem, mem_Ico]; omega), Function.update_of_ne (by omega)]
      · rw [Function.update_of_ne hr]
    · intro r hr
      simp only
      by_cases hri : r = i
      · subst hri
        rw [Function.update_self, hrow _ (by rw [mem_Ico]; omega), h5]
        exact h3.ne'
      · rwa [Function.update_of_ne hri]
    · intro x
      have hmi : i ∈ range n := mem_range.2 hi
      unfold factorResidual
      rw [← add_sum_erase _ _ hmi, ← add_sum_erase (range n) (fun r => (∑ j ∈ Ico r n, w.R r j * x j - w.y r) ^ 2) hmi]
      have hrest : ∀ r ∈ (range n).erase i,
          (∑ j ∈ Ico r n, Function.update w.R i p.1 r j * x j -
            Function.update w.y i (w.y i - hdot m v (w.y i) w.b * beta) r) ^ 2 =
          (∑ j ∈ Ico r n, w.R r j * x j - w.y r) ^ 2 := by
        intro r hr
        rw [Function.update_of_ne (ne_of_mem_erase hr), Function.update_of_ne (ne_of_mem_erase hr)]
      rw [sum_congr rfl hrest]
      simp only [Function.update_self]
      have e1 : ∑ j ∈ Ico i n, p.1 j * x j =
          ∑ j ∈ Ico i n, (w.R i j - hdot m v (w.R i j) (w.A (idx j)) * beta) * x j :=
        sum_congr rfl fun j hj => by rw [hrow j hj]
      have e2 : ∀ t, ∑ j ∈ Ico (i + 1) n, p.2 (idx j) t * x j =
          ∑ j ∈ Ico i n, (w.A (idx j) t - hdot m v (w.R i j) (w.A (idx j)) * beta * v t) * x j := by
        intro t
        rw [sum_eq_sum_Ico_succ_bot hi, h6 t, zero_mul, zero_add]
        exact sum_congr rfl fun j hj => by rw [hcol j hj t]
      simp only [e1, e2]
      have := reflect_residual h2 (Ico i n) (fun j => w.R i j) x (fun j => w.A (idx j)) (w.y i) w.b
      linarith

/-- The whole column loop. -/
theorem qrLoop_inv {n m : Nat} {idx : Nat → Nat} (hidx : ∀ j < n, ∀ k < n, idx j = idx k → j = k) (w : QrWork) :
    ∃ w', (List.range n).foldl (qrPivot n m idx) w = w' ∧
      (∀ r j, j < r → w'.R r j = w.R r j) ∧ (∀ r, w.R r r ≠ 0 → w'.R r r ≠ 0) ∧
      ∀ x : Nat → ℝ, factorResidual n w'.R w'.y x + ∑ t ∈ range m, w'.b t ^ 2 =
        factorResidual n w.R w.y x + ∑ t ∈ range m, (∑ j ∈ range n, w.A (idx j) t * x j - w.b t) ^ 2 := by
  have key : ∀ k ≤ n, ∃ w', (List.range k).foldl (qrPivot n m idx) w = w' ∧
      (∀ r j, j < r → w'.R r j = w.R r j) ∧ (∀ r, w.R r r ≠ 0 → w'.R r r ≠ 0) ∧
      ∀ x : Nat → ℝ, factorResidual n w'.R w'.y x +
          ∑ t ∈ range m, (∑ j ∈ Ico k n, w'.A (idx j) t * x j - w'.b t) ^ 2 =
        factorResidual n w.R w.y x + ∑ t ∈ range m, (∑ j ∈ range n, w.A (idx j) t * x j - w.b t) ^ 2 := by
    intro k
    induction k with
    | zero =>
      intro _
      refine ⟨w, rfl, fun _ _ _ => rfl, fun _ h => h, fun x => by rw [range_eq_Ico, range_eq_Ico]⟩
    | succ k ih =>
      intro hk
      obtain ⟨w', e, a1, a2, a3⟩ := ih (by omega)
      obtain ⟨b1, b2, b3⟩ := qrPivot_inv hidx w' (m := m) (i := k) (by omega)
      refine ⟨qrPivot n m idx w' k, ?_, fun r j h => by rw [b1 r j h, a1 r j h], fun r h => b2 r (a2 r h), fun x => ?_⟩
      · rw [List.range_succ, List.foldl_append, e]; rfl
      · rw [b3 x, a3 x]
  obtain ⟨w', e, a1, a2, a3⟩ := key n le_rfl
  refine ⟨w', e, a1, a2, fun x => ?_⟩
  rw [← a3 x]
  simp

/-- The equations a column-indexed matrix and a right-hand side stand for. -/
def ColMat.toRows (A : ColMat) (b : Nat → ℝ) : Rows := ⟨A.rows, A.entry, b⟩

/-- The check that the constructor of a column-indexed matrix makes in debug builds. -/
def ColMat.DistinctColumns (A : ColMat) : Prop := A.useIndices = true → A.columnIndices.Nodup

theorem ColMat.idx_inj {A : ColMat} (h : A.DistinctColumns) :
    ∀ j < A.cols, ∀ k < A.cols, A.idx j = A.idx k → j = k := by
  intro j hj k hk hjk
  unfold ColMat.cols at hj hk
  unfold ColMat.idx at hjk
  by_cases hu : A.useIndices = true
  · simp only [hu, if_true] at hj hk hjk
    rw [List.getD_eq_getElem?_getD, List.getD_eq_getElem?_getD, List.getElem?_eq_getElem hj,
      List.getElem?_eq_getElem hk, Option.getD_some, Option.getD_some] at hjk
    exact (List.Nodup.getElem_inj_iff (h hu)).1 hjk
  · simpa [hu] using hjk

theorem add_inv {s s' : DenseQr} {A : ColMat} {bRows : Nat} {b : Nat → ℝ} (hA : A.DistinctColumns)
    (h : s.add A bRows b = some s') :
    s'.n = s.n ∧ (∀ r j, j < r → s'.R r j = s.R r j) ∧ (∀ r, s.R r r ≠ 0 → s'.R r r ≠ 0) ∧
    ∃ c, 0 ≤ c ∧ ∀ x : Nat → ℝ, factorResidual s.n s'.R s'.y x + c =
      factorResidual s.n s.R s.y x + (A.toRows b).residual s.n x := by
  unfold DenseQr.add at h
  by_cases h1 : A.rows = bRows
  · by_cases h2 : A.cols = s.n
    · rw [if_neg (by simpa using h1), if_neg (by simpa using h2)] at h
      obtain ⟨w', e, a1, a2, a3⟩ := qrLoop_inv (n := s.n) (m := A.rows) (idx := A.idx)
        (by rw [← h2]; exact ColMat.idx_inj hA) ⟨s.R, s.y, A.e, b⟩
      simp only [e, Option.some.injEq] at h
      subst h
      exact ⟨rfl, a1, a2, _, sum_nonneg fun t _ => sq_nonneg (w'.b t), a3⟩
    · rw [if_neg (by simpa using h1), if_pos h2] at h; cases h
  · rw [if_pos h1] at h; cases h

/-- One call of `add`. -/
structure AddCall where
  A : ColMat
  bRows : Nat
  b : Nat → ℝ

/-- A solver built for `n` unknowns with regularisation `lambda` and then given the blocks in order. -/
noncomputable def denseRun (n : Nat) (lambda : ℝ) (calls : List AddCall) : Option DenseQr :=
  calls.foldlM (fun s c => s.add c.A c.bRows c.b) (DenseQr.start n lambda)

/-- The equations of a history. -/
def history (calls : List AddCall) : List Rows := calls.map fun c => c.A.toRows c.b

theorem start_residual (n : Nat) (lambda : ℝ) (x : Nat → ℝ) :
    factorResidual n (DenseQr.start n lambda).R (DenseQr.start n lambda).y x = objective n lambda [] x := by
  unfold factorResidual objective DenseQr.start
  simp only [List.map_nil, List.sum_nil, add_zero, sub_zero, mul_sum]
  apply sum_congr rfl
  intro r hr
  have : ∑ j ∈ Ico r n, (if lambda ≠ 0 ∧ r = j then lambda else 0) * x j = lambda * x r := by
    rw [sum_eq_single r]
    · by_cases h : lambda = 0 <;> simp [h]
    · intro j _ hj
      rw [if_neg fun h => hj h.2.symm, zero_mul]
    · intro h
      exact absurd (mem_Ico.2 ⟨le_rfl, mem_range.1 hr⟩) h
  rw [this]; ring

/-- The functional invariant of the solver. -/
theorem denseRun_inv {n : Nat} {lambda : ℝ} {calls : List AddCall} (hd : ∀ c ∈ calls, c.A.DistinctColumns)
    {s : DenseQr} (h : denseRun n lambda calls = some s) :
    s.n = n ∧ (∀ r j, j < r → s.R r j = 0) ∧ (lambda ≠ 0 → ∀ r, s.R r r ≠ 0) ∧
    ∃ c, 0 ≤ c ∧ ∀ x, factorResidual n s.R s.y x + c = objective n lambda (history calls) x := by
  induction calls using List.reverseRecOn generalizing s with
  | nil =>
    simp only [denseRun, List.foldlM_nil, Option.pure_def, Option.some.injEq] at h
    subst h
    refine ⟨rfl, fun r j hj => ?_, fun hl r => ?_, 0, le_rfl, fun x => ?_⟩
    · exact if_neg fun hc => by omega
    · show (if lambda ≠ 0 ∧ r = r then lambda else 0) ≠ 0
      rw [if_pos ⟨hl, rfl⟩]; exact hl
    · rw [add_zero]; exact start_residual n lambda x
  | append_singleton calls a ih =>
    unfold denseRun at h
    rw [List.foldlM_append] at h
    obtain ⟨s0, h0, h1⟩ := Option.bind_eq_some_iff.1 h
    obtain ⟨i1, i2, i3, c0, i4, i5⟩ := ih (fun c hc => hd c (by simp [hc])) h0
    have h1' : s0.add a.A a.bRows a.b = some s := by simpa using h1
    obtain ⟨a1, a2, a3, c1, a4, a5⟩ := add_inv (hd a (by simp)) h1'
    refine ⟨by rw [a1, i1], fun r j hj => by rw [a2 r j hj, i2 r j hj], fun hl r => a3 r (i3 hl r), c0 + c1,
      by positivity, fun x => ?_⟩
    have e1 := a5 x
    have e2 := i5 x
    rw [i1] at e1
    have : objective n lambda (history (calls ++ [a])) x =
        objective n lambda (history calls) x + (a.A.toRows a.b).residual n x := by
      simp [objective, history]; ring
    rw [this]
    linarith

theorem denseRun_represents {n : Nat} {lambda : ℝ} {calls : List AddCall} (hd : ∀ c ∈ calls, c.A.DistinctColumns)
    {s : DenseQr} (h : denseRun n lambda calls = some s) : Represents n lambda (history calls) s.R s.y := by
  obtain ⟨-, h2, -, h4⟩ := denseRun_inv hd h
  exact ⟨fun r j hj _ => h2 r j hj, h4⟩

/-- **C26** adding succeeds exactly when the sizes fit. -/
theorem C26_defined (n : Nat) (lambda : ℝ) (calls : List AddCall) (hd : ∀ c ∈ calls, c.A.DistinctColumns) :
    (∃ s, denseRun n lambda calls = some s) ↔ ∀ c ∈ calls, c.A.rows = c.bRows ∧ c.A.cols = n := by
  induction calls using List.reverseRecOn with
  | nil => simp [denseRun]
  | append_singleton calls a ih =>
    have ih := ih fun c hc => hd c (by simp [hc])
    constructor
    · rintro ⟨s, h⟩
      unfold denseRun at h
      rw [List.foldlM_append] at h
      obtain ⟨s0, h0, h1⟩ := Option.bind_eq_some_iff.1 h
      have h1' : s0.add a.A a.bRows a.b = some s := by simpa using h1
      obtain ⟨i1, -⟩ := denseRun_inv (fun c hc => hd c (by simp [hc])) h0
      intro c hc
      rcases List.mem_append.1 hc with hc | hc
      · exact ih.1 ⟨s0, h0⟩ c hc
      · rw [List.mem_singleton] at hc
        subst hc
        unfold DenseQr.add at h1'
        by_cases g1 : c.A.rows = c.bRows
        · by_cases g2 : c.A.cols = s0.n
          · exact ⟨g1, g2.trans i1⟩
          · rw [if_neg (by simpa using g1), if_pos g2] at h1'; cases h1'
        · rw [if_pos g1] at h1'; cases h1'
    · intro hc
      obtain ⟨s0, h0⟩ := ih.2 fun c h => hc c (by simp [h])
      obtain ⟨i1, -⟩ := denseRun_inv (fun c hc => hd c (by simp [hc])) h0
      obtain ⟨g1, g2⟩ := hc a (by simp)
      unfold denseRun at h0 ⊢
      rw [List.foldlM_append, h0]
      simp only [Option.bind_eq_bind, Option.bind_some, List.foldlM_cons, List.foldlM_nil]
      unfold DenseQr.add
      rw [if_neg (by simpa using g1), if_neg (by rw [i1]; simpa using g2)]
      exact ⟨_, rfl⟩

/-- **C26.**  After any sequence of `add` calls the factor is upper triangular, `Rᵀ R = λ² I + ∑ A_iᵀ A_i`,
`Rᵀ y = ∑ A_iᵀ b_i`, and the latter is what `At_times_b` reports. -/
theorem C26_factor (n : Nat) (lambda : ℝ) (calls : List AddCall) (hd : ∀ c ∈ calls, c.A.DistinctColumns)
    (s : DenseQr) (h : denseRun n lambda calls = some s) :
    s.n = n ∧ (∀ r j, j < r → s.R r j = 0) ∧
    (∀ j < n, ∀ k < n, ∑ r ∈ range n, s.R r j * s.R r k = normalMatrix lambda (history calls) j k) ∧
    (∀ j < n, ∑ r ∈ range n, s.R r j * s.y r = normalRhs (history calls) j) ∧
    ∀ j < n, s.atTimesB j = normalRhs (history calls) j := by
  have hr := denseRun_represents hd h
  obtain ⟨h1, h2, -⟩ := denseRun_inv hd h
  refine ⟨h1, h2, hr.normal.1, hr.normal.2, fun j hj => ?_⟩
  unfold DenseQr.atTimesB
  rw [h1]
  exact hr.normal.2 j hj

/-- The factor has a nonzero diagonal exactly when the problem has full rank. -/
theorem C27_diagonal (n : Nat) (lambda : ℝ) (calls : List AddCall) (hd : ∀ c ∈ calls, c.A.DistinctColumns)
    (s : DenseQr) (h : denseRun n lambda calls = some s) :
    (∀ i < n, s.R i i ≠ 0) ↔ FullRank n lambda (history calls) :=
  (denseRun_represents hd h).diagonal

/-- A nonzero regularisation gives full rank. -/
theorem C27_regularised (n : Nat) (lambda : ℝ) (hl : lambda ≠ 0) (hist : List Rows) : FullRank n lambda hist :=
  fun _ h1 _ j hj => (mul_eq_zero.1 (h1 j hj)).resolve_left hl

/-- **C27.**  For a problem of full rank the result minimises `λ² |x|² + ∑ |A_i x - b_i|²`, and no other vector
does. -/
theorem C27_minimiser (n : Nat) (lambda : ℝ) (calls : List AddCall) (hd : ∀ c ∈ calls, c.A.DistinctColumns)
    (s : DenseQr) (h : denseRun n lambda calls = some s) (hf : FullRank n lambda (history calls)) (x : Nat → ℝ) :
    objective n lambda (history calls) s.result ≤ objective n lambda (history calls) x ∧
    (objective n lambda (history calls) x ≤ objective n lambda (history calls) s.result →
      ∀ j < n, x j = s.result j) := by
  have hdiag := (C27_diagonal n lambda calls hd s h).2 hf
  refine (denseRun_represents hd h).minimiser hf ?_ x
  unfold DenseQr.result
  rw [(denseRun_inv hd h).1]
  exact backSub_spec n s.R s.y hdiag

/-- **C27** the order in which the blocks were added does not matter. -/
theorem C27_order (n : Nat) (lambda : ℝ) (calls calls' : List AddCall) (hp : calls.Perm calls')
    (hd : ∀ c ∈ calls, c.A.DistinctColumns) (s s' : DenseQr)
    (h : denseRun n lambda calls = some s) (h' : denseRun n lambda calls' = some s')
    (hf : FullRank n lambda (history calls)) : ∀ j < n, s'.result j = s.result j := by
  have hperm : (history calls).Perm (history calls') := hp.map _
  have hobj : ∀ x, objective n lambda (history calls') x = objective n lambda (history calls) x := by
    intro x
    unfold objective
    rw [((hperm.map fun r => r.residual n x).sum_eq)]
  have hf' : FullRank n lambda (history calls') := fun x h1 h2 =>
    hf x h1 fun r hr => h2 r (hperm.mem_iff.1 hr)
  have hd' : ∀ c ∈ calls', c.A.DistinctColumns := fun c hc => hd c (hp.mem_iff.2 hc)
  apply (C27_minimiser n lambda calls hd s h hf s'.result).2
  rw [← hobj, ← hobj]
  exact (C27_minimiser n lambda calls' hd' s' h' hf' s.result).1

/-- `reset()` forgets the regularisation the solver was built with: it leaves the solver of `λ = 0`. -/
theorem C26_reset_forgets_lambda (n : Nat) (lambda : ℝ) (calls : List AddCall) (s : DenseQr)
    (hd : ∀ c ∈ calls, c.A.DistinctColumns) (h : denseRun n lambda calls = some s) :
    s.reset = DenseQr.start n 0 ∧ (0 < n → lambda ≠ 0 → s.reset ≠ DenseQr.start n lambda) := by
  obtain ⟨h1, -⟩ := denseRun_inv hd h
  refine ⟨by rw [DenseQr.reset, h1], fun hn hl he => ?_⟩
  rw [DenseQr.reset, h1] at he
  have := congrArg (fun s : DenseQr => s.R 0 0) he
  simp [DenseQr.start, hl] at this
  exact hl this.symm

/-- `transpose_times` with column indices multiplies by the wrong columns: here the matrix has columns `(1)` and
`(2)`, only the second is selected, and `Aᵀ b` is computed from the first. -/
theorem C26_transpose_times_wrong_column :
    ∃ (A : ColMat) (b : Nat → ℝ), A.DistinctColumns ∧ (∀ c ∈ A.columnIndices, c < A.matCols) ∧ 0 < A.cols ∧
      A.transposeTimes b 0 ≠ ∑ t ∈ range A.rows, A.entry t 0 * b t := by
  refine ⟨⟨1, 2, fun j _ => (j : ℝ) + 1, true, [1]⟩, fun _ => 1, fun _ => by simp, by simp, by simp [ColMat.cols], ?_⟩
  simp [ColMat.transposeTimes, ColMat.entry, ColMat.idx]

/-- Without column indices it is right. -/
theorem C26_transpose_times (A : ColMat) (b : Nat → ℝ) (h : A.useIndices = false) (j : Nat) :
    A.transposeTimes b j = ∑ t ∈ range A.rows, A.entry t j * b t := by
  simp [ColMat.transposeTimes, ColMat.entry, ColMat.idx, h]

/-- A concrete history: two blocks for two unknowns, the second with its columns swapped. -/
def exCalls : List AddCall :=
  [⟨⟨2, 2, fun j t => if j = t then 1 else 0, false, []⟩, 2, fun t => t⟩,
   ⟨⟨1, 3, fun j _ => j, true, [2, 0]⟩, 1, fun _ => 5⟩]

example : (∀ c ∈ exCalls, c.A.DistinctColumns) ∧ ∃ s, denseRun 2 (1/2) exCalls = some s ∧
    FullRank 2 (1/2) (history exCalls) := by
  have hd : ∀ c ∈ exCalls, c.A.DistinctColumns := by
    intro c hc
    simp only [exCalls, List.mem_cons, List.not_mem_nil, or_false] at hc
    rcases hc with rfl | rfl <;> simp [ColMat.DistinctColumns]
  obtain ⟨s, hs⟩ := (C26_defined 2 (1/2) exCalls hd).2 (by
    intro c hc
    simp only [exCalls, List.mem_cons, List.not_mem_nil, or_false] at hc
    rcases hc with rfl | rfl <;> simp [ColMat.cols])
  exact ⟨hd, s, hs, C27_regularised _ _ (by norm_num) _⟩

end Momentum
