import Verif.Props.SkeletonFunction

/-!
# C56: the trust region solver never makes the error worse
-/

namespace Momentum
open Finset

/-- A block `y I` with right-hand side zero. -/
noncomputable def diagCall (m : Nat) (dl : ℝ) : AddCall :=
  ⟨⟨m, m, fun j t => if j = t then Real.sqrt dl else 0, false, []⟩, m, fun _ => 0⟩

theorem diagCall_distinct (m : Nat) (dl : ℝ) : (diagCall m dl).A.DistinctColumns := by
  intro h; cases h

theorem normalMatrix_append (lambda : ℝ) (h h' : List Rows) (j k : Nat) :
    normalMatrix lambda (h ++ h') j k =
      normalMatrix lambda h j k + (h'.map fun r => ∑ t ∈ range r.m, r.a t j * r.a t k).sum := by
  unfold normalMatrix
  rw [List.map_append, List.sum_append]; ring

theorem diag_matrix {m : Nat} (L : List ℝ) (hL : ∀ d ∈ L, 0 < d) {j k : Nat} (hj : j < m) :
    ((history (L.map (diagCall m))).map fun r => ∑ t ∈ range r.m, r.a t j * r.a t k).sum =
      if j = k then L.sum else 0 := by
  induction L with
  | nil => simp [history]
  | cons d L ih =>
    have hd := hL d (by simp)
    have ih := ih fun d hd => hL d (by simp [hd])
    simp only [history, List.map_cons, List.sum_cons] at ih ⊢
    rw [ih]
    have e : ∑ t ∈ range ((diagCall m d).A.toRows (diagCall m d).b).m,
        ((diagCall m d).A.toRows (diagCall m d).b).a t j * ((diagCall m d).A.toRows (diagCall m d).b).a t k =
        ∑ t ∈ range m, (if j = t then Real.sqrt d else 0) * (if k = t then Real.sqrt d else 0) := rfl
    rw [e, sum_eq_single j]
    · by_cases h : j = k
      · subst h
        simp only [if_true]
        rw [Real.mul_self_sqrt hd.le]
      · rw [if_neg h, if_neg (Ne.symm h), if_neg h, mul_zero, add_zero]
    · intro t _ ht
      rw [if_neg (Ne.symm ht), zero_mul]
    · intro h; exact absurd (mem_range.2 hj) h

theorem diag_rhs {m : Nat} (B : List AddCall) (L : List ℝ) (j : Nat) :
    normalRhs (history (B ++ L.map (diagCall m))) j = normalRhs (history B) j := by
  unfold normalRhs history
  rw [List.map_append, List.map_append, List.sum_append]
  have : (((L.map (diagCall m)).map fun c => c.A.toRows c.b).map fun r => ∑ t ∈ range r.m, r.a t j * r.b t).sum = 0 := by
    apply List.sum_eq_zero
    intro x hx
    simp only [List.mem_map] at hx
    obtain ⟨r, ⟨c, ⟨d, -, rfl⟩, rfl⟩, rfl⟩ := hx
    apply sum_eq_zero
    intro t _
    exact mul_zero _
  rw [this, add_zero]

theorem gram_form {n : Nat} {R : Nat → Nat → ℝ} {N : Nat → Nat → ℝ}
    (h : ∀ j < n, ∀ k < n, ∑ r ∈ range n, R r j * R r k = N j k) (x : Nat → ℝ) :
    ∑ r ∈ range n, (∑ j ∈ range n, R r j * x j) * (∑ j ∈ range n, R r j * x j) =
      ∑ j ∈ range n, x j * ∑ k ∈ range n, N j k * x k := by
  have e1 : ∀ r, (∑ j ∈ range n, R r j * x j) * (∑ j ∈ range n, R r j * x j) =
      ∑ j ∈ range n, ∑ k ∈ range n, x j * (R r j * R r k * x k) := by
    intro r
    rw [sum_mul_sum]
    exact sum_congr rfl fun j _ => sum_congr rfl fun k _ => by ring
  simp only [e1]
  rw [sum_comm]
  apply sum_congr rfl
  intro j hj
  rw [sum_comm, mul_sum]
  apply sum_congr rfl
  intro k hk
  rw [← mul_sum, ← sum_mul, h j (mem_range.1 hj) k (mem_range.1 hk)]

/-- The QR solver during the trust region loop: the error functions' rows, and rows `√d I`. -/
def TrustInv (m : Nat) (lambda : ℝ) (B : List AddCall) (q : DenseQr) : Prop :=
  ∃ L : List ℝ, (∀ d ∈ L, 0 < d) ∧ denseRun m lambda (B ++ L.map (diagCall m)) = some q

theorem TrustInv.addLambda {m : Nat} {lambda : ℝ} {B : List AddCall} (hB : ∀ c ∈ B, c.A.DistinctColumns) {q : DenseQr}
    (h : TrustInv m lambda B q) {dl : ℝ} (hd : 0 < dl) :
    ∃ q', addLambda q dl = some q' ∧ TrustInv m lambda B q' := by
  obtain ⟨L, hL, hq⟩ := h
  have hdist : ∀ c ∈ B ++ L.map (diagCall m), c.A.DistinctColumns := by
    intro c hc
    rcases List.mem_append.1 hc with hc | hc
    · exact hB c hc
    · obtain ⟨d, -, rfl⟩ := List.mem_map.1 hc; exact diagCall_distinct m d
  have hn := (denseRun_inv hdist hq).1
  have he : Momentum.addLambda q dl = q.add (diagCall m dl).A (diagCall m dl).bRows (diagCall m dl).b := by
    unfold Momentum.addLambda diagCall; rw [hn]
  have hs : ∃ q', q.add (diagCall m dl).A (diagCall m dl).bRows (diagCall m dl).b = some q' := by
    unfold DenseQr.add
    rw [if_neg (by simp [diagCall]), if_neg (by rw [hn]; simp [diagCall, ColMat.cols])]
    exact ⟨_, rfl⟩
  obtain ⟨q', hq'⟩ := hs
  refine ⟨q', by rw [he, hq'], L ++ [dl], ?_, ?_⟩
  · intro d hd'
    rcases List.mem_append.1 hd' with h | h
    · exact hL d h
    · rw [List.mem_singleton.1 h]; exact hd
  · rw [List.map_append, ← List.append_assoc]
    unfold denseRun at hq ⊢
    rw [List.foldlM_append, hq]
    simpa using hq'

theorem shrinkStep_inv {m : Nat} {lambda : ℝ} {B : List AddCall} (hB : ∀ c ∈ B, c.A.DistinctColumns)
    (gradient : Nat → ℝ) (radius : ℝ) (k : Nat) : ∀ q, TrustInv m lambda B q →
      ∃ q', shrinkStep gradient radius k q = some q' ∧ TrustInv m lambda B q' := by
  induction k with
  | zero => intro q h; exact ⟨q, rfl, h⟩
  | succ k ih =>
    intro q h
    rw [shrinkStep]
    split
    · exact ⟨q, rfl, h⟩
    · split
      · exact ⟨q, rfl, h⟩
      · rename_i dl _
        split
        · exact ⟨q, rfl, h⟩
        · rename_i hdl
          obtain ⟨q1, h1, h2⟩ := h.addLambda hB (not_le.1 hdl)
          obtain ⟨q2, h3, h4⟩ := ih q1 h2
          exact ⟨q2, by rw [h1, Option.bind_eq_bind, Option.bind_some, h3], h4⟩

/-- The quadratic model predicts a decrease for every step the loop proposes. -/
theorem model_decrease {m : Nat} {lambda : ℝ} (hl : lambda ≠ 0) {B : List AddCall}
    (hB : ∀ c ∈ B, c.A.DistinctColumns) {q0 q : DenseQr} (h0 : denseRun m lambda B = some q0)
    (h : TrustInv m lambda B q) (hg : ∃ i < m, q0.atTimesB i ≠ 0) (error : ℝ) :
    quadraticModel m error (fun i => 2 * q0.atTimesB i) q0.R q.result < error := by
  obtain ⟨L, hL, hq⟩ := h
  have hdist : ∀ c ∈ B ++ L.map (diagCall m), c.A.DistinctColumns := by
    intro c hc
    rcases List.mem_append.1 hc with hc | hc
    · exact hB c hc
    · obtain ⟨d, -, rfl⟩ := List.mem_map.1 hc; exact diagCall_distinct m d
  obtain ⟨a1, a2, a3, a4, a5⟩ := C26_factor m lambda B hB q0 h0
  obtain ⟨b1, b2, b3, b4, b5⟩ := C26_factor m lambda _ hdist q hq
  have hdiag0 : ∀ i < m, q0.R i i ≠ 0 :=
    (C27_diagonal m lambda B hB q0 h0).2 (C27_regularised m lambda hl _)
  have hdiag : ∀ i < m, q.R i i ≠ 0 :=
    (C27_diagonal m lambda _ hdist q hq).2 (C27_regularised m lambda hl _)
  have hres := backSub_spec m q.R q.y hdiag
  have hresult : backSub m q.R q.y = q.result := by unfold DenseQr.result; rw [b1]
  rw [hresult] at hres
  generalize q.result = x at hres ⊢
  -- the normal equations
  have hnorm : ∀ j < m, ∑ k ∈ range m, normalMatrix lambda (history (B ++ L.map (diagCall m))) j k * x k =
      q0.atTimesB j := by
    intro j hj
    have : ∑ k ∈ range m, normalMatrix lambda (history (B ++ L.map (diagCall m))) j k * x k =
        ∑ r ∈ range m, q.R r j * ∑ k ∈ range m, q.R r k * x k := by
      simp only [mul_sum]
      rw [sum_comm]
      apply sum_congr rfl
      intro k hk
      rw [← b3 j hj k (mem_range.1 hk), sum_mul]
      exact sum_congr rfl fun r _ => by ring
    rw [this, a5 j hj, ← diag_rhs (m := m) B L j, ← b4 j hj]
    apply sum_congr rfl
    intro r hr
    rw [full_row' (mem_range.1 hr) (fun r j hj _ => b2 r j hj), hres r (mem_range.1 hr)]
  have hN : ∀ j < m, ∀ k, normalMatrix lambda (history (B ++ L.map (diagCall m))) j k =
      normalMatrix lambda (history B) j k + if j = k then L.sum else 0 := by
    intro j hj k
    have : history (B ++ L.map (diagCall m)) = history B ++ history (L.map (diagCall m)) := by
      unfold history; rw [List.map_append]
    rw [this, normalMatrix_append, diag_matrix L hL hj]
  have hLsum : 0 ≤ L.sum := List.sum_nonneg fun d hd => (hL d hd).le
  -- `|R0 x|²`
  have hR0 : ∑ i ∈ range m, (∑ j ∈ Ico i m, q0.R i j * x j) * (∑ j ∈ Ico i m, q0.R i j * x j) =
      ∑ j ∈ range m, x j * ∑ k ∈ range m, normalMatrix lambda (history B) j k * x k := by
    rw [← gram_form a3 x]
    apply sum_congr rfl
    intro r hr
    rw [full_row' (mem_range.1 hr) (fun r j hj _ => a2 r j hj)]
  have hgx : ∑ i ∈ range m, 2 * q0.atTimesB i * x i =
      2 * ∑ i ∈ range m, (∑ j ∈ Ico i m, q0.R i j * x j) * (∑ j ∈ Ico i m, q0.R i j * x j) +
        2 * (L.sum * ∑ i ∈ range m, x i * x i) := by
    rw [hR0, mul_sum, mul_sum, mul_sum, ← sum_add_distrib]
    apply sum_congr rfl
    intro i hi
    have hi' := mem_range.1 hi
    rw [← hnorm i hi']
    have : ∑ k ∈ range m, normalMatrix lambda (history (B ++ L.map (diagCall m))) i k * x k =
        ∑ k ∈ range m, normalMatrix lambda (history B) i k * x k + L.sum * x i := by
      rw [sum_congr rfl fun k _ => by rw [hN i hi' k, add_mul], sum_add_distrib]
      congr 1
      rw [sum_eq_single i]
      · rw [if_pos rfl]
      · intro k _ hk; rw [if_neg (Ne.symm hk), zero_mul]
      · intro h; exact absurd hi h
    rw [this]; ring
  -- the step is not zero
  have hpos : 0 < ∑ i ∈ range m, (∑ j ∈ Ico i m, q0.R i j * x j) * (∑ j ∈ Ico i m, q0.R i j * x j) := by
    rcases (sum_nonneg (s := range m) fun i _ => mul_self_nonneg (∑ j ∈ Ico i m, q0.R i j * x j)).lt_or_eq with h | h
    · exact h
    · exfalso
      have hz := (sum_eq_zero_iff_of_nonneg fun i _ => mul_self_nonneg (∑ j ∈ Ico i m, q0.R i j * x j)).1 h.symm
      have hx : ∀ i < m, x i = (fun _ => 0 : Nat → ℝ) i := upper_unique hdiag0 fun i hi => by
        rw [mul_self_eq_zero.1 (hz i (mem_range.2 hi))]; simp
      obtain ⟨i, hi, hne⟩ := hg
      apply hne
      rw [← hnorm i hi]
      apply sum_eq_zero
      intro k hk
      rw [hx k (mem_range.1 hk), mul_zero]
  have hxx : 0 ≤ ∑ i ∈ range m, x i * x i := sum_nonneg fun i _ => mul_self_nonneg _
  have := mul_nonneg hLsum hxx
  unfold quadraticModel
  linarith

theorem trustLoop_spec {m : Nat} {lambda : ℝ} (hl : lambda ≠ 0) {B : List AddCall}
    (hB : ∀ c ∈ B, c.A.DistinctColumns) {q0 : DenseQr} (h0 : denseRun m lambda B = some q0)
    (getError : (Nat → ℝ) → ℝ) (enabled : List Nat) {error : ℝ} (he : 0 ≤ error) (p : Nat → ℝ) (k : Nat) :
    ∀ s : TrustState, s.parameters = p → TrustInv m lambda B s.qr → 0 < s.radius →
      ∃ s', trustLoop getError enabled error (fun i => 2 * q0.atTimesB i) q0.R k s = some s' ∧
        0 < s'.radius ∧
        (s'.parameters = p ∨ getError s'.parameters < error ∧
          ∃ dir, s'.parameters = fun i => p i - scatter enabled dir (fun _ => 0) i) := by
  induction k with
  | zero => intro s hs _ hr; exact ⟨s, rfl, hr, Or.inl hs⟩
  | succ k ih =>
    intro s hs hq hr
    rw [trustLoop]
    have hqn : ∀ q, TrustInv m lambda B q → q.n = m := by
      rintro q ⟨L, -, hL⟩
      refine (denseRun_inv ?_ hL).1
      intro c hc
      rcases List.mem_append.1 hc with hc | hc
      · exact hB c hc
      · obtain ⟨d, -, rfl⟩ := List.mem_map.1 hc; exact diagCall_distinct m d
    split
    · exact ⟨s, rfl, hr, Or.inl hs⟩
    · rename_i hbig
      have hg : ∃ i < m, q0.atTimesB i ≠ 0 := by
        by_contra hno
        push Not at hno
        apply hbig
        rw [hqn s.qr hq, sum_eq_zero fun i hi => by rw [hno i (mem_range.1 hi), mul_zero, mul_zero]]
        have : 0 < fltEps := by unfold fltEps; positivity
        positivity
      obtain ⟨q, h1, h2⟩ := shrinkStep_inv hB (fun i => 2 * q0.atTimesB i) s.radius 3 s.qr hq
      rw [h1, Option.bind_eq_bind, Option.bind_some]
      have hmodel := model_decrease hl hB h0 h2 hg error
      rw [hqn q h2]
      have hrad : ∀ rho : ℝ, 0 < (if rho < 1 / 4 then (1 / 4) * s.radius
          else if rho > 3 / 4 then min (2 * s.radius) maxTrustRegionRadius else s.radius) := by
        intro rho
        split
        · linarith
        · split
          · exact lt_min (by linarith) (by unfold maxTrustRegionRadius; norm_num)
          · exact hr
      dsimp only
      split
      · rename_i hrho
        refine ⟨_, rfl, hrad _, Or.inr ⟨?_, q.result, by rw [hs]⟩⟩
        have hd : 0 < error - quadraticModel m error (fun i => 2 * q0.atTimesB i) q0.R q.result := by linarith
        have := (div_pos_iff_of_pos_right hd).1 hrho
        dsimp only
        linarith
      · exact ih ⟨s.parameters, _, q⟩ hs h2 (hrad _)

/-- **C56.**  An iteration of the trust region solver either leaves the parameters alone or makes the error strictly
smaller; it never fails, reports the error it started from, keeps its radius positive and moves no disabled parameter. -/
theorem C56_decrease (fs : List ErrorFunction) (hf : RowsFit fs) (n : Nat) (ps : Nat → Bool) (radius : ℝ) (hr : 0 < radius)
    (p : Nat → ℝ) (hE : ∀ f ∈ fs, f.getError p = (f.getJacobian p).error) (hn : 0 ≤ skeletonError fs p) :
    ∃ p' r' e, trustIteration fs n ps radius p = some (p', r', e) ∧ e = skeletonError fs p ∧ 0 < r' ∧
      (p' = p ∨ skeletonError fs p' < skeletonError fs p) ∧ ∀ i, ps i = false → p' i = p i := by
  obtain ⟨q, h1, h2⟩ := absorb_run fs n ps ((1 / 10) ^ 10) p
  have herr : ((weighted fs).map fun f => (f.getJacobian p).error).sum = skeletonError fs p := by
    rw [C55_error fs hf p hE]
    exact (stack_spec (weighted fs) p (rowsFit_weighted hf)).2.1.symm
  rw [herr] at h2
  have hd := absorbCalls_distinct n ps p (weighted fs)
  obtain ⟨s', h3, h4, h5⟩ := trustLoop_spec (lambda := (1 / 10) ^ 10) (by norm_num) (fun c hc => (hd c hc).1) h1
    (skeletonError fs) (enabledList n ps) hn p 10 ⟨p, radius, q⟩ rfl ⟨[], by simp, by simpa using h1⟩ hr
  refine ⟨s'.parameters, s'.radius, skeletonError fs p, ?_, rfl, h4, ?_, fun i hi => ?_⟩
  · unfold trustIteration
    simp only [h2, Option.bind_eq_bind, Option.bind_some, h3]
    rfl
  · rcases h5 with h5 | h5
    · exact Or.inl h5
    · exact Or.inr h5.1
  · rcases h5 with h5 | ⟨-, dir, h5⟩
    · rw [h5]
    · rw [h5]
      have : i ∉ enabledList n ps := fun h => by
        have := (mem_enabledList.1 h).2
        rw [hi] at this; cases this
      simp only [(scatter_spec (enabledList_nodup n ps) dir _).2 i this, sub_zero]

/-- The iteration as `solve` sees it. -/
noncomputable def trustDoIteration (fs : List ErrorFunction) (n : Nat) (ps : Nat → Bool) (s : (Nat → ℝ) × ℝ) :
    ((Nat → ℝ) × ℝ) × ℝ :=
  match trustIteration fs n ps s.2 s.1 with
  | some (p, r, e) => ((p, r), e)
  | none => (s, 0)

/-- **C56** for a whole `solve`: the parameters handed back have no larger error than the ones handed in. -/
theorem C56_solve (fs : List ErrorFunction) (hf : RowsFit fs) (n : Nat) (ps : Nat → Bool) (o : SolverOptions)
    (radius : ℝ) (hr : 0 < radius) (p : Nat → ℝ) (hE : ∀ f ∈ fs, ∀ p, f.getError p = (f.getJacobian p).error)
    (hn : ∀ p, 0 ≤ skeletonError fs p) :
    skeletonError fs (solve o (trustDoIteration fs n ps) (p, radius)).inner.1 ≤ skeletonError fs p ∧
    ∀ i, ps i = false → (solve o (trustDoIteration fs n ps) (p, radius)).inner.1 i = p i := by
  have key : ∀ k, 0 < (stateAfter (trustDoIteration fs n ps) (p, radius) k).2 ∧
      skeletonError fs (stateAfter (trustDoIteration fs n ps) (p, radius) k).1 ≤ skeletonError fs p ∧
      ∀ i, ps i = false → (stateAfter (trustDoIteration fs n ps) (p, radius) k).1 i = p i := by
    intro k
    induction k with
    | zero => exact ⟨hr, le_rfl, fun _ _ => rfl⟩
    | succ k ih =>
      rw [stateAfter_succ]
      generalize stateAfter (trustDoIteration fs n ps) (p, radius) k = s at *
      obtain ⟨i1, i2, i3⟩ := ih
      obtain ⟨p', r', e, h1, -, h2, h3, h4⟩ := C56_decrease fs hf n ps s.2 i1 s.1 (fun f hf => hE f hf s.1) (hn s.1)
      unfold trustDoIteration
      rw [h1]
      dsimp only
      refine ⟨h2, ?_, fun i hi => by rw [h4 i hi, i3 i hi]⟩
      rcases h3 with h3 | h3
      · rw [h3]; exact i2
      · exact h3.le.trans i2
  obtain ⟨k, -, -, h3, -⟩ := C32_iterations o (trustDoIteration fs n ps) (p, radius)
  rw [h3]
  exact ⟨(key k).2.1, (key k).2.2⟩

/-- A problem with three parameters and two error functions, `(x₀ - 1)²` and `(x₀² + 2 x₁)² + (x₁ - 3)²`; the third
parameter has no influence. -/
noncomputable def exFunctions : List ErrorFunction :=
  [{ weight := 1
     jacobianSize := 1
     getError := fun p => (p 0 - 1) ^ 2
     getGradient := fun p => ((p 0 - 1) ^ 2, fun i => if i = 0 then 2 * (p 0 - 1) else 0)
     getJacobian := fun p => ⟨(p 0 - 1) ^ 2, 1, fun j _ => if j = 0 then 1 else 0, fun _ => p 0 - 1⟩ },
   { weight := 2
     jacobianSize := 3
     getError := fun p => (p 0 ^ 2 + 2 * p 1) ^ 2 + (p 1 - 3) ^ 2
     getGradient := fun p => ((p 0 ^ 2 + 2 * p 1) ^ 2 + (p 1 - 3) ^ 2, fun i =>
       if i = 0 then 4 * p 0 * (p 0 ^ 2 + 2 * p 1) else if i = 1 then 4 * (p 0 ^ 2 + 2 * p 1) + 2 * (p 1 - 3) else 0)
     getJacobian := fun p => ⟨(p 0 ^ 2 + 2 * p 1) ^ 2 + (p 1 - 3) ^ 2, 2,
       fun j t => if j = 0 then (if t = 0 then 2 * p 0 else 0) else if j = 1 then (if t = 0 then 2 else 1) else 0,
       fun t => if t = 0 then p 0 ^ 2 + 2 * p 1 else p 1 - 3⟩ }]

example : RowsFit exFunctions ∧ NoDerivative exFunctions 3 (fun i => decide (i < 2)) ∧
    (∀ f ∈ exFunctions, ∀ p, f.getError p = (f.getJacobian p).error) ∧ ∀ p, 0 ≤ skeletonError exFunctions p := by
  refine ⟨?_, ?_, ?_, fun p => ?_⟩
  · intro f hf p
    simp only [exFunctions, List.mem_cons, List.not_mem_nil, or_false] at hf
    rcases hf with rfl | rfl <;> simp
  · intro f hf p j hj hps t ht
    have : j = 2 := by simp at hps; omega
    subst this
    simp only [exFunctions, List.mem_cons, List.not_mem_nil, or_false] at hf
    rcases hf with rfl | rfl <;> simp
  · intro f hf p
    simp only [exFunctions, List.mem_cons, List.not_mem_nil, or_false] at hf
    rcases hf with rfl | rfl <;> rfl
  · unfold skeletonError weighted exFunctions
    rw [List.filter_cons_of_pos (by norm_num), List.filter_cons_of_pos (by norm_num), List.filter_nil]
    simp only [List.foldl_cons, List.foldl_nil]
    positivity

/-- A history for C33 and C34: options are set, parameter 1 is disabled, a solve was done; `exSquare` reports one error. -/
example : Nonempty Llt ∧
    enabledAfter [.setEnabled (fun i => decide (i = 5)), .setOptions ⟨2, 5, 1⟩ (1 / 20) true,
      .setEnabled (fun i => decide (i = 0)), .solve fun _ => 4] 1 = false ∧
    (∀ s p, (exSquare.getError s p).1 = p 0 ^ 2) ∧ (∀ s p, (exSquare.getJacobian s p).1.error = p 0 ^ 2) ∧
    RespectsEnabled exSquare () 2 (fun i => decide (i = 0)) (fun _ => 4) := by
  refine ⟨Llt.nonempty, rfl, fun _ _ => rfl, fun _ _ => rfl, by decide, ?_, ?_⟩
  · intro j hj hps
    simp at hps
    subst hps
    exact Nat.one_pos
  · intro j hj hps
    have hj : j < 1 := hj
    simp at hps
    omega

end Momentum
