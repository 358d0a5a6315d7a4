import Verif.Lemmas.PosePrior
import Verif.Props.Covariance
import Mathlib.Analysis.Calculus.Deriv.Mul
import Mathlib.Analysis.Calculus.Deriv.Add

/-!
# C60: the mixture model and the pose prior error function
-/

namespace Momentum
open Finset

/-! ### The mixture model -/

theorem backSub_mulVec {d : Nat} {R : Nat → Nat → ℝ} (hup : ∀ r j, j < r → r < d → R r j = 0) (hd : ∀ i < d, R i i ≠ 0)
    (y : Nat → ℝ) : (funMat d R).mulVec (funVec d (backSub d R y)) = funVec d y := by
  ext i
  have := backSub_spec d R y hd i i.2
  rw [← full_row' i.2 hup, ← Fin.sum_univ_eq_sum_range (fun j => R i j * backSub d R y j)] at this
  exact this

/-- One mode of `set`. -/
theorem Mppca.mode_eq {d k : Nat} (W : Matrix (Fin k) (Fin d) ℝ) {s : ℝ} (hs : 0 < s) :
    ∃ cov, Covariance.make s k d (matFun W) = some cov ∧ 0 < (covarianceMatrix s W).det ∧
      cov.logDeterminant = some (Real.log (covarianceMatrix s W).det) ∧
      (funMat d fun i j => backSub d cov.qr.R (fun i => backSub d cov.qr.R (fun j => if j = i then 1 else 0) j) i) =
        (covarianceMatrix s W)⁻¹ ∧
      (funMat d fun i => backSub d cov.qr.R (fun j => if j = i then 1 else 0)).transpose *
        (funMat d fun i => backSub d cov.qr.R (fun j => if j = i then 1 else 0)) = (covarianceMatrix s W)⁻¹ := by
  obtain ⟨cov, hc, n1, n2, n3, n4, hup, hR, hpos, hne⟩ := covariance_make s W
  obtain ⟨cov', hc', hdet, hlog, -⟩ := C29_logDeterminant_partial s hs W
  rw [hc] at hc'
  cases hc'
  have hdiag := hne hs.ne'
  set Rm := funMat d cov.qr.R with hRm
  set Lt : Nat → Nat → ℝ := fun i => backSub d cov.qr.R (fun j => if j = i then 1 else 0) with hLt
  have h1 : Rm * (funMat d Lt).transpose = 1 := by
    ext a b
    have := congrFun (backSub_mulVec hup hdiag (fun j => if j = b then 1 else 0)) a
    rw [Matrix.mul_apply]
    simp only [Matrix.mulVec, dotProduct] at this
    rw [show (∑ j, Rm a j * (funMat d Lt).transpose j b) =
      ∑ j, funMat d cov.qr.R a j * funVec d (backSub d cov.qr.R fun j => if j = (b : Nat) then 1 else 0) j from rfl, this]
    simp only [funVec, Matrix.one_apply]
    by_cases h : a = b
    · simp [h]
    · rw [if_neg h, if_neg (fun e => h (Fin.ext e))]
  have h2 : Rm * (funMat d fun i j => backSub d cov.qr.R (fun i => Lt i j) i) = funMat d Lt := by
    ext a b
    have := congrFun (backSub_mulVec hup hdiag (fun i => Lt i b)) a
    rw [Matrix.mul_apply]
    exact this
  have h3 : (funMat d Lt).transpose = Rm⁻¹ := (Matrix.inv_eq_right_inv h1).symm
  have hu : IsUnit Rm.det := by
    have := congrArg Matrix.det h1
    rw [Matrix.det_mul, Matrix.det_one] at this
    exact IsUnit.of_mul_eq_one _ this
  have h4 : (funMat d fun i j => backSub d cov.qr.R (fun i => Lt i j) i) = Rm⁻¹ * funMat d Lt := by
    rw [← h2, ← Matrix.mul_assoc, Matrix.nonsing_inv_mul _ hu, Matrix.one_mul]
  have h5 : Rm⁻¹ * funMat d Lt = (covarianceMatrix s W)⁻¹ := by
    rw [← hR, Matrix.mul_inv_rev, ← Matrix.transpose_nonsing_inv, ← h3, Matrix.transpose_transpose]
  exact ⟨cov, hc, hdet, hlog, by rw [h4, h5], by rw [h3, h5]⟩

theorem Mppca.set_fold {d : Nat} (pi : Nat → ℝ) (k : Nat → Nat)
    (W : (c : Nat) → Matrix (Fin (k c)) (Fin d) ℝ) (sigma2 : Nat → ℝ) (p : Nat) (hs : ∀ c < p, 0 < sigma2 c) (m0 : Mppca) :
    ∃ m, (List.range p).foldlM (fun (m : Mppca) c => do
      let cov ← Covariance.make (Real.sqrt (sigma2 c)) (k c) d (matFun (W c))
      let Ltmp : Nat → Nat → ℝ := fun i => backSub d cov.qr.R (fun j => if j = i then 1 else 0)
      let logDet ← cov.logDeterminant
      some { m with
        Cinv := Function.update m.Cinv c fun i j => backSub d cov.qr.R (fun i => Ltmp i j) i
        L := Function.update m.L c Ltmp
        Rpre := Function.update m.Rpre c
          (Real.log (pi c) - 0.5 * logDet - 0.5 * (d : ℝ) * Real.log (2 * Real.pi)) }) m0 = some m ∧
      m.d = m0.d ∧ m.p = m0.p ∧ m.mu = m0.mu ∧ ∀ c < p,
        funMat d (m.Cinv c) = (covarianceMatrix (Real.sqrt (sigma2 c)) (W c))⁻¹ ∧
        (funMat d (m.L c)).transpose * funMat d (m.L c) = (covarianceMatrix (Real.sqrt (sigma2 c)) (W c))⁻¹ ∧
        m.Rpre c = Real.log (pi c) - 0.5 * Real.log (covarianceMatrix (Real.sqrt (sigma2 c)) (W c)).det -
          0.5 * (d : ℝ) * Real.log (2 * Real.pi) := by
  induction p with
  | zero => exact ⟨m0, rfl, rfl, rfl, rfl, fun c hc => absurd hc (by omega)⟩
  | succ n ih =>
    obtain ⟨m, e, a1, a2, a3, h⟩ := ih (fun c hc => hs c (by omega))
    obtain ⟨cov, hc, -, hl, k1, k2⟩ := Mppca.mode_eq (W n) (Real.sqrt_pos.2 (hs n (by omega)))
    rw [List.range_succ, List.foldlM_append, e]
    simp only [Option.bind_eq_bind, Option.bind_some, List.foldlM_cons, List.foldlM_nil, hc, hl]
    refine ⟨_, rfl, a1, a2, a3, fun c hcn => ?_⟩
    by_cases h' : c = n
    · subst h'
      simp only [Function.update_self]
      exact ⟨k1, k2, trivial⟩
    · simp only [Function.update_of_ne h']
      exact h c (by omega)

/-- **C60** (mixture): with positive variances, `set` yields a model whose `Cinv` is the inverse of the covariance
`σ² I + WᵀW` of each mode, whose `L` is a factor of it, and whose score is the logarithm of the weighted density: the
exponential of the score of mode `c` is `π_c` times the Gaussian density of that mode. -/
theorem C60_density {d : Nat} (p : Nat) (pi : Nat → ℝ) (mmu : Nat → Nat → ℝ) (k : Nat → Nat)
    (W : (c : Nat) → Matrix (Fin (k c)) (Fin d) ℝ) (sigma2 : Nat → ℝ) (hs : ∀ c < p, 0 < sigma2 c) :
    ∃ m, Mppca.set d p pi mmu k (fun c => matFun (W c)) sigma2 = some m ∧ m.d = d ∧ m.p = p ∧ m.mu = mmu ∧
      m.names.length = d ∧ ∀ c < p,
        funMat d (m.Cinv c) = (sigma2 c • (1 : Matrix (Fin d) (Fin d) ℝ) + (W c).transpose * W c)⁻¹ ∧
        (funMat d (m.L c)).transpose * funMat d (m.L c) = funMat d (m.Cinv c) ∧
        (0 < pi c → ∀ x : Nat → ℝ, Real.exp (m.score c x) = pi c * gaussianDensity (funVec d (mmu c))
          (sigma2 c • (1 : Matrix (Fin d) (Fin d) ℝ) + (W c).transpose * W c) (funVec d x)) := by
  obtain ⟨m, e, a1, a2, a3, h⟩ := Mppca.set_fold pi k W sigma2 p hs
    ⟨d, p, [], mmu, fun _ _ _ => 0, fun _ _ _ => 0, fun _ => 0⟩
  refine ⟨{ m with names := List.replicate d "" }, ?_, a1, a2, a3, by simp, fun c hc => ?_⟩
  · unfold Mppca.set
    rw [e]; rfl
  · obtain ⟨h1, h2, h3⟩ := h c hc
    have hcov : covarianceMatrix (Real.sqrt (sigma2 c)) (W c) =
        sigma2 c • (1 : Matrix (Fin d) (Fin d) ℝ) + (W c).transpose * W c := by
      unfold covarianceMatrix; rw [Real.sq_sqrt (hs c hc).le]
    obtain ⟨-, -, hdet, -⟩ := Mppca.mode_eq (W c) (Real.sqrt_pos.2 (hs c hc))
    rw [hcov] at h1 h2 h3 hdet
    refine ⟨h1, by rw [h1]; exact h2, fun hpi x => ?_⟩
    have hdist : ({ m with names := List.replicate d "" } : Mppca).dist c x =
        1 / 2 * dotProduct (funVec d x - funVec d (mmu c)) (((sigma2 c • (1 : Matrix (Fin d) (Fin d) ℝ) +
          (W c).transpose * W c)⁻¹).mulVec (funVec d x - funVec d (mmu c))) := by
      rw [← h1]
      unfold Mppca.dist
      simp only [a1, a3, dotProduct, Matrix.mulVec, funMat, Matrix.of_apply, funVec, Pi.sub_apply]
      congr 1
      rw [← Fin.sum_univ_eq_sum_range (fun a => ∑ b ∈ range d, (x a - mmu c a) * m.Cinv c a b * (x b - mmu c b))]
      refine sum_congr rfl fun a _ => ?_
      rw [← Fin.sum_univ_eq_sum_range (fun b => (x a - mmu c a) * m.Cinv c a b * (x b - mmu c b)), mul_sum]
      exact sum_congr rfl fun b _ => by ring
    have h2pi : (0 : ℝ) < 2 * Real.pi := by have := Real.pi_pos; positivity
    unfold Mppca.score gaussianDensity
    rw [hdist, Real.exp_sub]
    simp only
    rw [h3, show (Real.log (pi c) - 0.5 * Real.log (sigma2 c • (1 : Matrix (Fin d) (Fin d) ℝ) + (W c).transpose * W c).det -
        0.5 * (d : ℝ) * Real.log (2 * Real.pi)) = Real.log (pi c) -
        Real.log (Real.sqrt ((2 * Real.pi) ^ d *
          (sigma2 c • (1 : Matrix (Fin d) (Fin d) ℝ) + (W c).transpose * W c).det)) by
      rw [Real.log_sqrt (by positivity), Real.log_mul (by positivity) hdet.ne', Real.log_pow]; ring]
    rw [Real.exp_sub, Real.exp_log hpi, Real.exp_log (Real.sqrt_pos.2 (by positivity)), neg_mul, Real.exp_neg]
    field_simp

/-- **C60** (mixture, continued): with a name per dimension such a model meets the hypotheses of the theorems below. -/
theorem C60_set_valid {d : Nat} (p : Nat) (pi : Nat → ℝ) (mmu : Nat → Nat → ℝ) (k : Nat → Nat)
    (W : (c : Nat) → Matrix (Fin (k c)) (Fin d) ℝ) (sigma2 : Nat → ℝ) (hs : ∀ c < p, 0 < sigma2 c)
    {ns : List String} (hns : ns.length = d) {m : Mppca}
    (hm : Mppca.set d p pi mmu k (fun c => matFun (W c)) sigma2 = some m) : { m with names := ns }.Valid := by
  obtain ⟨m', h, h1, h2, h3, h4, h5⟩ := C60_density p pi mmu k W sigma2 hs
  rw [hm] at h
  cases h
  refine ⟨by simp only; rw [hns, h1], fun c hc a ha b hb => ?_, fun c hc a ha b hb => ?_⟩
  · simp only [h1, h2] at hc ha hb
    obtain ⟨k1, k2, -⟩ := h5 c hc
    have : (funMat d (m.Cinv c)).transpose = funMat d (m.Cinv c) := by
      rw [← k2, Matrix.transpose_mul, Matrix.transpose_transpose]
    have := congrFun (congrFun this ⟨b, hb⟩) ⟨a, ha⟩
    exact this
  · simp only [h1, h2] at hc ha hb ⊢
    obtain ⟨k1, k2, -⟩ := h5 c hc
    have := congrFun (congrFun k2 ⟨a, ha⟩) ⟨b, hb⟩
    rw [Matrix.mul_apply] at this
    simp only [Matrix.transpose_apply, funMat, Matrix.of_apply] at this
    rw [← this, Fin.sum_univ_eq_sum_range (fun r => m.L c r a * m.L c r b)]

/-! ### The error function -/

namespace PosePrior

section
variable {names : List String} (hn : names.Nodup) {M : ℝ} {m : Mppca} {E : PosePrior}
  (hE : make names names.length M (some m) = some E) (hm : m.names.length = m.d) (w : ℝ) (p : Nat → ℝ)

include hn hE hm

/-- The mode that is found. -/
theorem found (hM : ∃ c < m.p, -M < m.score c (m.view names p)) : ∃ b, ∃ c < m.p,
    { E with weight := w }.getBestFitMode (paramVec names.length p) = some b ∧
      b.idx = some c ∧ b.dist = m.dist c (m.view names p) ∧ (∀ a < m.d, b.diff a = m.view names p a - m.mu c a) ∧
      (∀ c' < m.p, m.score c' (m.view names p) ≤ m.score c (m.view names p)) ∧
      ∀ c' < c, m.score c' (m.view names p) < m.score c (m.view names p) := by
  obtain ⟨E', e, h1, h2, h3, h4, h5, h6, h7, h8, h9⟩ := make_maps hn M m
  rw [hE] at e
  cases e
  obtain ⟨b, hb, h⟩ := bestFit (E := { E with weight := w }) h2 h4 h5 h6 hm p
  simp only [h2] at hb
  rcases h with ⟨h, -⟩ | ⟨c, hc, k1, k2, k3, -, k5, k6⟩
  · obtain ⟨c, hc, hlt⟩ := hM
    exact absurd (h c hc) (not_le.2 hlt)
  · exact ⟨b, c, hc, hb, k1, k2, k3, k5, k6⟩

theorem getError_eq {b : Best} (hb : { E with weight := w }.getBestFitMode (paramVec names.length p) = some b) :
    { E with weight := w }.toErrorFunction.getError p = b.dist * kPosePriorWeight * w := by
  obtain ⟨E', e, h1, h2, h3, h4, h5, h6, h7, h8, h9⟩ := make_maps hn M m
  rw [hE] at e
  cases e
  simp only [h2] at hb
  simp only [toErrorFunction, h2, getError, logProbability]
  rw [if_neg (by rw [h7, StateError.paramVec_length]; simp), hb]
  simp

theorem getGradient_eq {b : Best} {c : Nat} (hc : b.idx = some c)
    (hb : { E with weight := w }.getBestFitMode (paramVec names.length p) = some b) :
    ({ E with weight := w }.toErrorFunction.getGradient p).1 = b.dist * kPosePriorWeight * w ∧
    ∀ i, ({ E with weight := w }.toErrorFunction.getGradient p).2 i = ∑ a ∈ range m.d, if pidx m names a = some i then
      (∑ a' ∈ range m.d, b.diff a' * m.Cinv c a' a) * kPosePriorWeight * w else 0 := by
  obtain ⟨E', e, h1, h2, h3, h4, h5, h6, h7, h8, h9⟩ := make_maps hn M m
  rw [hE] at e
  cases e
  simp only [h2, h5] at hb
  simp only [toErrorFunction, h2, getGradient, h5]
  rw [if_neg (by rw [h7, StateError.paramVec_length]; simp), hb]
  simp only [Option.bind_eq_bind, Option.bind_some, hc]
  obtain ⟨g, e1, e2⟩ := foldlM_track ({ E with weight := w }.gradStep m c b.diff)
    (fun (i : Nat) g => g i) (fun i a => if pidx m names a = some i then
      (∑ a' ∈ range m.d, b.diff a' * m.Cinv c a' a) * kPosePriorWeight * w else 0) (List.range m.d) (by
      intro a ha g
      have ha := List.mem_range.1 ha
      have hp : E.ppMap[a]? = some (pidx m names a) := by rw [h6]; simp [hm, ha]
      simp only [gradStep, hp]
      cases h : pidx m names a with
      | none => exact ⟨g, rfl, fun i => by simp⟩
      | some j =>
        refine ⟨_, rfl, fun i => ?_⟩
        by_cases hij : j = i
        · subst hij; simp
        · rw [Function.update_of_ne (Ne.symm hij), if_neg (by simpa using hij), add_zero]) (fun _ => 0)
  simp only [h2, h5] at e1
  rw [e1]
  refine ⟨rfl, fun i => ?_⟩
  simp only [Option.bind_some, Option.getD_some]
  rw [e2 i, zero_add, ← List.sum_toFinset _ List.nodup_range, List.toFinset_range]

theorem getJacobian_eq {b : Best} {c : Nat} (hc : b.idx = some c)
    (hb : { E with weight := w }.getBestFitMode (paramVec names.length p) = some b) :
    ({ E with weight := w }.toErrorFunction.getJacobian p).error = b.dist * kPosePriorWeight * w ∧
    ({ E with weight := w }.toErrorFunction.getJacobian p).rows = m.d ∧
    ∀ t < m.d, ({ E with weight := w }.toErrorFunction.getJacobian p).residual t =
        (∑ a ∈ range m.d, m.L c t a * Real.sqrt (0.5 * kPosePriorWeight * w) * b.diff a) ∧
      ∀ i, ({ E with weight := w }.toErrorFunction.getJacobian p).e i t = match E.invMap[i]? with
        | some (some a) => m.L c t a * Real.sqrt (0.5 * kPosePriorWeight * w)
        | _ => 0 := by
  obtain ⟨E', e, h1, h2, h3, h4, h5, h6, h7, h8, h9⟩ := make_maps hn M m
  rw [hE] at e
  cases e
  simp only [h2, h5] at hb
  simp only [toErrorFunction, h2, getJacobian, h5]
  rw [if_neg (by rw [h7, StateError.paramVec_length]; simp), hb]
  simp only [Option.bind_eq_bind, Option.bind_some, hc]
  have key : ∀ n ≤ E.invMap.length, ∃ J', (List.range n).foldlM ({ E with weight := w }.jacStep m.d fun r i => m.L c r i *
        Real.sqrt (0.5 * kPosePriorWeight * w))
        (fun i t => if t < m.d then 0 else 0) = some J' ∧
      ∀ t < m.d, ∀ i, J' i t = if i < n then (match E.invMap[i]? with
        | some (some a) => m.L c t a * Real.sqrt (0.5 * kPosePriorWeight * w)
        | _ => 0) else 0 := by
    intro n
    induction n with
    | zero => intro _; exact ⟨_, rfl, fun t ht i => by simp⟩
    | succ n ih =>
      intro hlt
      obtain ⟨J', e, hJ⟩ := ih (by omega)
      rw [List.range_succ, List.foldlM_append, e]
      simp only [Option.bind_eq_bind, Option.bind_some, List.foldlM_cons, List.foldlM_nil]
      have hg : E.invMap[n]? = some (E.invMap[n]'(by omega)) := List.getElem?_eq_getElem _
      simp only [jacStep, hg]
      cases hv : E.invMap[n]'(by omega) with
      | none =>
        refine ⟨J', rfl, fun t ht i => ?_⟩
        rw [hJ t ht i]
        by_cases hi : i = n
        · subst hi; simp [hg, hv]
        · simp only [show (i < n + 1) ↔ i < n by omega]
      | some a =>
        refine ⟨_, rfl, fun t ht i => ?_⟩
        by_cases hi : i = n
        · subst hi; simp [hg, hv, ht]
        · rw [Function.update_of_ne hi, hJ t ht i]
          simp only [show (i < n + 1) ↔ i < n by omega]
  obtain ⟨J', e1, e2⟩ := key _ le_rfl
  simp only [h2, h5] at e1
  rw [e1]
  refine ⟨rfl, rfl, fun t ht => ⟨by simp [ht], fun i => ?_⟩⟩
  simp only [Option.bind_some, Option.getD_some]
  rw [e2 t ht i]
  split
  · rfl
  · rename_i hi
    rw [List.getElem?_eq_none (by omega)]

end

/-! ### Derivatives -/

theorem view_update (m : Mppca) (names : List String) (p : Nat → ℝ) (i : Nat) (u : ℝ) (a : Nat) :
    m.view names (Function.update p i u) a = if pidx m names a = some i then u else m.view names p a := by
  rw [view_pidx, view_pidx]
  cases h : pidx m names a with
  | none => simp
  | some j =>
    simp only [Option.some.injEq]
    by_cases hj : j = i
    · subst hj; simp
    · rw [Function.update_of_ne hj, if_neg hj]

theorem view_deriv (m : Mppca) (names : List String) (p : Nat → ℝ) (i a : Nat) :
    HasDerivAt (fun u => m.view names (Function.update p i u) a) (if pidx m names a = some i then 1 else 0) (p i) := by
  simp only [view_update]
  split
  · exact hasDerivAt_id _
  · exact hasDerivAt_const _ _

theorem dist_deriv {m : Mppca} (hv : m.Valid) (names : List String) (p : Nat → ℝ) (i : Nat) {c : Nat} (hc : c < m.p) :
    HasDerivAt (fun u => m.dist c (m.view names (Function.update p i u)))
      (∑ a ∈ range m.d, if pidx m names a = some i then
        ∑ a' ∈ range m.d, (m.view names p a' - m.mu c a') * m.Cinv c a' a else 0) (p i) := by
  unfold Mppca.dist
  have h : ∀ a b, HasDerivAt (fun u => (m.view names (Function.update p i u) a - m.mu c a) * m.Cinv c a b *
      (m.view names (Function.update p i u) b - m.mu c b))
      ((if pidx m names a = some i then 1 else 0) * m.Cinv c a b * (m.view names p b - m.mu c b) +
        (m.view names p a - m.mu c a) * m.Cinv c a b * (if pidx m names b = some i then 1 else 0)) (p i) := by
    intro a b
    have := (((view_deriv m names p i a).sub_const (m.mu c a)).mul_const (m.Cinv c a b)).mul
      ((view_deriv m names p i b).sub_const (m.mu c b))
    simp only [Function.update_eq_self] at this
    exact this
  refine ((HasDerivAt.fun_sum fun a _ => HasDerivAt.fun_sum fun b _ => h a b).const_mul (1 / 2 : ℝ)).congr_deriv ?_
  simp only [sum_add_distrib]
  have e1 : ∑ a ∈ range m.d, ∑ b ∈ range m.d, (if pidx m names a = some i then (1 : ℝ) else 0) * m.Cinv c a b *
      (m.view names p b - m.mu c b) = ∑ a ∈ range m.d, if pidx m names a = some i then
        ∑ a' ∈ range m.d, (m.view names p a' - m.mu c a') * m.Cinv c a' a else 0 := by
    refine sum_congr rfl fun a ha => ?_
    split
    · refine sum_congr rfl fun b hb => ?_
      rw [hv.symm c hc a (mem_range.1 ha) b (mem_range.1 hb)]; ring
    · simp
  have e2 : ∑ a ∈ range m.d, ∑ b ∈ range m.d, (m.view names p a - m.mu c a) * m.Cinv c a b *
      (if pidx m names b = some i then (1 : ℝ) else 0) = ∑ a ∈ range m.d, if pidx m names a = some i then
        ∑ a' ∈ range m.d, (m.view names p a' - m.mu c a') * m.Cinv c a' a else 0 := by
    rw [sum_comm]
    refine sum_congr rfl fun a ha => ?_
    split
    · exact sum_congr rfl fun b hb => by ring
    · simp
  rw [e1, e2]; ring

theorem score_cont {m : Mppca} (hv : m.Valid) (names : List String) (p : Nat → ℝ) (i : Nat) {c : Nat} (hc : c < m.p) :
    ContinuousAt (fun u => m.score c (m.view names (Function.update p i u))) (p i) :=
  continuousAt_const.sub (dist_deriv hv names p i hc).continuousAt

/-- A strict best mode stays the best nearby. -/
theorem best_near {m : Mppca} (hv : m.Valid) (names : List String) (p : Nat → ℝ) (i : Nat) {c : Nat}
    (hb : m.UniqueBest c (m.view names p)) :
    ∀ᶠ u in nhds (p i), m.UniqueBest c (m.view names (Function.update p i u)) := by
  have : ∀ n ≤ m.p, ∀ᶠ u in nhds (p i), ∀ c' < n, c' ≠ c →
      m.score c' (m.view names (Function.update p i u)) < m.score c (m.view names (Function.update p i u)) := by
    intro n
    induction n with
    | zero => intro _; exact Filter.Eventually.of_forall fun u c' h => absurd h (by omega)
    | succ n ih =>
      intro hn
      by_cases hcn : n = c
      · filter_upwards [ih (by omega)] with u hu c' hc' hne
        exact hu c' (by omega) hne
      · have h1 := (score_cont hv names p i (c := n) (by omega)).eventually_lt (score_cont hv names p i hb.1) (by
          simp only [Function.update_eq_self]; exact hb.2 n (by omega) hcn)
        filter_upwards [ih (by omega), h1] with u hu hlt c' hc' hne
        rcases Nat.lt_succ_iff_lt_or_eq.1 hc' with h | rfl
        · exact hu c' h hne
        · exact hlt
  filter_upwards [this m.p le_rfl] with u hu using ⟨hb.1, hu⟩

section
variable {names : List String} (hn : names.Nodup) {M : ℝ} {m : Mppca} {E : PosePrior}
  (hE : make names names.length M (some m) = some E) (hm : m.names.length = m.d) (w : ℝ) (p : Nat → ℝ)

include hn hE hm

theorem found_unique {c : Nat} (hb : m.UniqueBest c (m.view names p)) (hM : -M < m.score c (m.view names p)) : ∃ b,
    { E with weight := w }.getBestFitMode (paramVec names.length p) = some b ∧
      b.idx = some c ∧ b.dist = m.dist c (m.view names p) ∧ ∀ a < m.d, b.diff a = m.view names p a - m.mu c a := by
  obtain ⟨b, c', hc', h1, h2, h3, h4, h5, h6⟩ := found hn hE hm w p ⟨c, hb.1, hM⟩
  have : c' = c := by
    by_contra h
    exact absurd (hb.2 c' hc' h) (not_lt.2 (h5 c hb.1))
  subst this
  exact ⟨b, h1, h2, h3, h4⟩

end

end PosePrior

/-- **C60** (error): the error is half the squared Mahalanobis distance, times the weights, between the parameters the prior
knows by name and the mean of a likeliest mode; among equally likely modes the first one counts. -/
theorem C60_error {names : List String} (hn : names.Nodup) {M : ℝ} {m : Mppca} {E : PosePrior}
    (hE : PosePrior.make names names.length M (some m) = some E) (hv : m.Valid) (w : ℝ) (p : Nat → ℝ)
    (hM : ∃ c < m.p, -M < m.score c (m.view names p)) :
    ∃ c < m.p, (∀ c' < m.p, m.score c' (m.view names p) ≤ m.score c (m.view names p)) ∧
      (∀ c' < c, m.score c' (m.view names p) < m.score c (m.view names p)) ∧
      { E with weight := w }.toErrorFunction.getError p = 1 / 1000 * w * m.dist c (m.view names p) := by
  obtain ⟨b, c, hc, h1, h2, h3, h4, h5, h6⟩ := PosePrior.found hn hE hv.names w p hM
  refine ⟨c, hc, h5, h6, ?_⟩
  rw [PosePrior.getError_eq hn hE hv.names w p h1, h3]
  unfold kPosePriorWeight
  ring

/-- **C60** (gradient): where one mode is likelier than the others, the gradient is the derivative of the error. -/
theorem C60_gradient {names : List String} (hn : names.Nodup) {M : ℝ} {m : Mppca} {E : PosePrior}
    (hE : PosePrior.make names names.length M (some m) = some E) (hv : m.Valid) (w : ℝ) (p : Nat → ℝ) {c : Nat}
    (hb : m.UniqueBest c (m.view names p)) (hM : -M < m.score c (m.view names p)) (i : Nat) :
    { E with weight := w }.toErrorFunction.GradientIsDerivative p i := by
  obtain ⟨b, h1, h2, h3, h4⟩ := PosePrior.found_unique hn hE hv.names w p hb hM
  obtain ⟨g1, g2⟩ := PosePrior.getGradient_eq hn hE hv.names w p h2 h1
  refine ⟨by rw [g1, PosePrior.getError_eq hn hE hv.names w p h1], ?_⟩
  have hd := ((PosePrior.dist_deriv hv names p i hb.1).mul_const kPosePriorWeight).mul_const w
  have hnear : ∀ᶠ u in nhds (p i), { E with weight := w }.toErrorFunction.getError (Function.update p i u) =
      m.dist c (m.view names (Function.update p i u)) * kPosePriorWeight * w := by
    have hM' := (PosePrior.score_cont hv names p i hb.1).eventually_const_lt (u := -M) (by
      simp only [Function.update_eq_self]; exact hM)
    filter_upwards [PosePrior.best_near hv names p i hb, hM'] with u hu hMu
    obtain ⟨b', k1, -, k3, -⟩ := PosePrior.found_unique hn hE hv.names w _ hu hMu
    rw [PosePrior.getError_eq hn hE hv.names w _ k1, k3]
  refine (hd.congr_of_eventuallyEq hnear).congr_deriv ?_
  rw [g2 i, sum_mul, sum_mul]
  refine sum_congr rfl fun a ha => ?_
  split
  · congr 2
    exact sum_congr rfl fun a' ha' => by rw [h4 a' (mem_range.1 ha')]
  · ring

/-- **C60** (Jacobian): where one mode is likelier than the others, the error is the squared length of the residual and the
Jacobian is the derivative of the residual, if the names of the prior are distinct. -/
theorem C60_jacobian {names : List String} (hn : names.Nodup) {M : ℝ} {m : Mppca} {E : PosePrior}
    (hE : PosePrior.make names names.length M (some m) = some E) (hv : m.Valid) (hdist : m.names.Nodup) {w : ℝ}
    (hw : 0 ≤ w) (p : Nat → ℝ) {c : Nat} (hb : m.UniqueBest c (m.view names p))
    (hM : -M < m.score c (m.view names p)) (i : Nat) :
    { E with weight := w }.toErrorFunction.JacobianIsDerivativeNear p i ∧
      ({ E with weight := w }.toErrorFunction.getJacobian p).rows = m.d := by
  obtain ⟨b, h1, h2, h3, h4⟩ := PosePrior.found_unique hn hE hv.names w p hb hM
  obtain ⟨j1, j2, j3⟩ := PosePrior.getJacobian_eq hn hE hv.names w p h2 h1
  have hM' := (PosePrior.score_cont hv names p i hb.1).eventually_const_lt (u := -M) (by
    simp only [Function.update_eq_self]; exact hM)
  have hnear := (PosePrior.best_near hv names p i hb).and hM'
  have hk : (0 : ℝ) ≤ 0.5 * kPosePriorWeight * w := by unfold kPosePriorWeight; positivity
  have hsq : ∀ q : Nat → ℝ, m.UniqueBest c (m.view names q) → -M < m.score c (m.view names q) →
      ({ E with weight := w }.toErrorFunction.getJacobian q).rows = m.d ∧
      { E with weight := w }.toErrorFunction.getError q = ∑ t ∈ range m.d,
        ({ E with weight := w }.toErrorFunction.getJacobian q).residual t ^ 2 := by
    intro q hbq hMq
    obtain ⟨b', k1, k2, k3, k4⟩ := PosePrior.found_unique hn hE hv.names w q hbq hMq
    obtain ⟨l1, l2, l3⟩ := PosePrior.getJacobian_eq hn hE hv.names w q k2 k1
    refine ⟨l2, ?_⟩
    rw [PosePrior.getError_eq hn hE hv.names w q k1, k3]
    have e1 : ∀ t ∈ range m.d, ({ E with weight := w }.toErrorFunction.getJacobian q).residual t ^ 2 =
        0.5 * kPosePriorWeight * w * ∑ a ∈ range m.d, ∑ a' ∈ range m.d, (m.view names q a - m.mu c a) *
          (m.L c t a * m.L c t a') * (m.view names q a' - m.mu c a') := by
      intro t ht
      rw [(l3 t (mem_range.1 ht)).1]
      have : ∑ a ∈ range m.d, m.L c t a * Real.sqrt (0.5 * kPosePriorWeight * w) * b'.diff a =
          Real.sqrt (0.5 * kPosePriorWeight * w) * ∑ a ∈ range m.d, m.L c t a * (m.view names q a - m.mu c a) := by
        rw [mul_sum]
        exact sum_congr rfl fun a ha => by rw [k4 a (mem_range.1 ha)]; ring
      rw [this, mul_pow, Real.sq_sqrt hk, sq, sum_mul_sum]
      congr 1
      exact sum_congr rfl fun a _ => sum_congr rfl fun a' _ => by ring
    rw [sum_congr rfl e1, ← mul_sum, sum_comm]
    unfold Mppca.dist
    have e2 : ∀ a ∈ range m.d, ∑ t ∈ range m.d, ∑ a' ∈ range m.d, (m.view names q a - m.mu c a) *
          (m.L c t a * m.L c t a') * (m.view names q a' - m.mu c a') =
        ∑ b ∈ range m.d, (m.view names q a - m.mu c a) * m.Cinv c a b * (m.view names q b - m.mu c b) := by
      intro a ha
      rw [sum_comm]
      refine sum_congr rfl fun b hb' => ?_
      rw [← sum_mul, ← mul_sum, hv.factor c hb.1 a (mem_range.1 ha) b (mem_range.1 hb')]
    rw [sum_congr rfl e2]
    norm_num
    ring
  refine ⟨⟨by rw [j1, PosePrior.getError_eq hn hE hv.names w p h1], ?_, ?_, ?_, fun t ht => ?_⟩, j2⟩
  · rw [j2]
    obtain ⟨E', e, -, -, -, -, h5, -⟩ := PosePrior.make_maps hn M m
    rw [hE] at e
    cases e
    simp [PosePrior.toErrorFunction, PosePrior.getJacobianSize, h5]
  · filter_upwards [hnear] with u hu
    rw [(hsq _ hu.1 hu.2).1, j2]
  · filter_upwards [hnear] with u hu
    rw [(hsq _ hu.1 hu.2).2, j2]
  · rw [j2] at ht
    have hd : HasDerivAt (fun u => ∑ a ∈ range m.d, m.L c t a * Real.sqrt (0.5 * kPosePriorWeight * w) *
        (m.view names (Function.update p i u) a - m.mu c a)) (∑ a ∈ range m.d, m.L c t a *
          Real.sqrt (0.5 * kPosePriorWeight * w) * (if PosePrior.pidx m names a = some i then 1 else 0)) (p i) :=
      HasDerivAt.fun_sum fun a _ => ((PosePrior.view_deriv m names p i a).sub_const _).const_mul _
    refine (hd.congr_of_eventuallyEq ?_).congr_deriv ?_
    · filter_upwards [hnear] with u hu
      obtain ⟨b', k1, k2, k3, k4⟩ := PosePrior.found_unique hn hE hv.names w _ hu.1 hu.2
      obtain ⟨l1, l2, l3⟩ := PosePrior.getJacobian_eq hn hE hv.names w _ k2 k1
      rw [(l3 t ht).1]
      exact sum_congr rfl fun a ha => by rw [k4 a (mem_range.1 ha)]
    · rw [(j3 t ht).2 i]
      obtain ⟨E', e, -, -, -, -, -, -, h7, h8, h9⟩ := PosePrior.make_maps hn M m
      rw [hE] at e
      cases e
      have huniq : ∀ a a', PosePrior.pidx m names a = some i → PosePrior.pidx m names a' = some i → a = a' := by
        intro a a' ha ha'
        have l1 := PosePrior.pidx_lt m ha
        have l2 := PosePrior.pidx_lt m ha'
        have e := ((PosePrior.pidx_spec m hn l1.1).1 ha).trans ((PosePrior.pidx_spec m hn l2.1).1 ha').symm
        exact (List.getElem?_inj l1.2 hdist).1 e
      have hnone : (∀ a, E.invMap[i]? ≠ some (some a)) → ∀ a, PosePrior.pidx m names a ≠ some i := by
        intro h a ha
        obtain ⟨a', h'⟩ := h9 i a ha
        exact h a' h'
      rcases hi : E.invMap[i]? with _ | _ | a
      · exact sum_eq_zero fun a _ => by rw [if_neg (hnone (by rw [hi]; simp) a), mul_zero]
      · exact sum_eq_zero fun a _ => by rw [if_neg (hnone (by rw [hi]; simp) a), mul_zero]
      · have ha := h8 i a hi
        have hlt := (PosePrior.pidx_lt m ha).2
        rw [hv.names] at hlt
        rw [sum_eq_single a]
        · rw [if_pos ha, mul_one]
        · intro a' _ hne
          rw [if_neg (fun h => hne (huniq a' a h ha)), mul_zero]
        · intro h; exact absurd (mem_range.2 hlt) h

/-- **C60** (mean shape): the parameters of the likeliest mode, in the order of the model; 0 for a parameter the prior does
not know. -/
theorem C60_mean_shape {names : List String} (hn : names.Nodup) {M : ℝ} {m : Mppca} {E : PosePrior}
    (hE : PosePrior.make names names.length M (some m) = some E) (hv : m.Valid) (p : Nat → ℝ)
    {c : Nat} (hb : m.UniqueBest c (m.view names p)) (hM : -M < m.score c (m.view names p)) :
    ∃ s, E.getMeanShape (paramVec names.length p) = some s ∧ s.length = names.length ∧
      ∀ j (h : j < names.length), (∀ a, m.names[a]? = some names[j] → (∀ a', m.names[a']? = some names[j] → a' = a) →
        s[j]? = some (m.mu c a)) ∧ (names[j] ∉ m.names → s[j]? = some 0) := by
  obtain ⟨b, h1, h2, h3, h4⟩ := PosePrior.found_unique hn hE hv.names E.weight p hb hM
  obtain ⟨E', e, -, -, -, -, h5, -, h7, h8, h9⟩ := PosePrior.make_maps hn M m
  rw [hE] at e
  cases e
  have hin : ∀ a, some a ∈ E.invMap → a < ((List.range m.d).map (m.mu c)).length := by
    intro a ha
    obtain ⟨j, hj⟩ := List.mem_iff_getElem?.1 ha
    have := (PosePrior.pidx_lt m (h8 j a hj)).2
    simpa [← hv.names] using this
  have hmean : E.getMeanShape (paramVec names.length p) = some (E.invMap.map fun o => match o with
      | none => 0
      | some j => ((List.range m.d).map (m.mu c)).getD j 0) := by
    unfold PosePrior.getMeanShape
    rw [show E.getBestFitMode (paramVec names.length p) = some b from h1]
    simp only [Option.bind_eq_bind, Option.bind_some, h5, h2]
    rw [PosePrior.mapParameters_eq _ _ hin]
    rfl
  refine ⟨_, hmean, ?_, fun j hj => ?_⟩
  · simp [h7]
  · have hget : E.invMap[j]? = some (E.invMap[j]'(by omega)) := List.getElem?_eq_getElem _
    have hnj : names[j]? = some names[j] := List.getElem?_eq_getElem hj
    refine ⟨fun a ha huniq => ?_, fun hnot => ?_⟩
    · obtain ⟨a', h'⟩ := h9 j a ((PosePrior.pidx_spec m hn hj).2 (by rw [ha, hnj]))
      have : a' = a := huniq a' (by rw [(PosePrior.pidx_spec m hn hj).1 (h8 j a' h'), hnj])
      subst this
      have hlt : a' < m.d := by rw [← hv.names]; exact (PosePrior.pidx_lt m (h8 j a' h')).2
      rw [List.getElem?_map, h']
      simp [List.getD_eq_getElem?_getD, hlt]
    · rw [List.getElem?_map, hget]
      cases ho : E.invMap[j]'(by omega) with
      | none => rfl
      | some a =>
        rw [ho] at hget
        have := (PosePrior.pidx_spec m hn hj).1 (h8 j a hget)
        rw [hnj] at this
        exact absurd (List.mem_iff_getElem?.2 ⟨a, this⟩) hnot

/-- **C60** (history): setting priors with one list of distinct names one after the other leaves the same error function as
constructing it with the last prior.  Missing: for priors with different names this is false, `C60_stale_map`. -/
theorem C60_history_partial {names : List String} (hn : names.Nodup) (M : ℝ) (m : Mppca) (hdist : m.names.Nodup)
    (ms : List Mppca) (hms : ∀ m' ∈ ms, m'.names = m.names) :
    ((m :: ms).tail.foldlM (fun (E : PosePrior) m' => E.setPosePrior (some m'))
      =<< PosePrior.make names names.length M (some m)) =
    PosePrior.make names names.length M (some ((m :: ms).getLast (by simp))) := by
  have key : ∀ m m' : Mppca, m.names.Nodup → m'.names = m.names → ∀ E,
      PosePrior.make names names.length M (some m) = some E →
      E.setPosePrior (some m') = PosePrior.make names names.length M (some m') := by
    intro m m' hd hname E hE
    obtain ⟨E1, e1, a1, a2, a3, a4, a5, a6, a7, a8, a9⟩ := PosePrior.make_maps hn M m
    rw [hE] at e1
    cases e1
    obtain ⟨E2, e2, b1, b2, b3, b4, b5, b6, b7, b8, b9⟩ := PosePrior.make_maps hn M m'
    rw [e2]
    have hpid : PosePrior.pidx m' names = PosePrior.pidx m names := by
      funext a; unfold PosePrior.pidx; rw [hname]
    have hmem : ∀ a j, (a, j) ∈ ((List.range m'.names.length).flatMap fun i =>
        (List.range names.length).map fun j => (i, j)) ↔ a < m'.names.length ∧ j < names.length := by
      intro a j; simp
    have hl1 : E.ppMap.length = m'.names.length := by rw [a6, hname]; simp
    obtain ⟨s', e, l1, l2, k1, k2⟩ := PosePrior.load_fold m'.names names
      ((List.range m'.names.length).flatMap fun i => (List.range names.length).map fun j => (i, j))
      (fun ij h => (hmem ij.1 ij.2).1 h) (PosePrior.resizeMap E.ppMap m'.names.length, PosePrior.resizeMap E.invMap names.length)
      (by simp [PosePrior.resizeMap, hl1]) (by simp [PosePrior.resizeMap, a7])
    have r1 : PosePrior.resizeMap E.ppMap m'.names.length = E.ppMap := by simp [PosePrior.resizeMap, ← hl1]
    have r2 : PosePrior.resizeMap E.invMap names.length = E.invMap := by simp [PosePrior.resizeMap, ← a7]
    rw [r1, r2] at k1 k2
    have huniq : ∀ a a' i, PosePrior.pidx m names a = some i → PosePrior.pidx m names a' = some i → a = a' := by
      intro a a' i ha ha'
      have l1 := PosePrior.pidx_lt m ha
      have l2 := PosePrior.pidx_lt m ha'
      have e := ((PosePrior.pidx_spec m hn l1.1).1 ha).trans ((PosePrior.pidx_spec m hn l2.1).1 ha').symm
      exact (List.getElem?_inj l1.2 hd).1 e
    have h1 : s'.1 = E2.ppMap := by
      rw [b6, hpid]
      apply List.ext_getElem?
      intro a
      by_cases ha : a < m'.names.length
      · rcases k1 a with ⟨j, q1, q2, q3⟩ | ⟨q1, q2⟩
        · rw [q3]
          have := (PosePrior.pidx_spec m' hn ((hmem a j).1 q1).2).2 q2
          rw [hpid] at this
          simp [ha, this]
        · rw [q2, a6, hname]
      · rw [List.getElem?_eq_none (by rw [l1]; omega), List.getElem?_eq_none (by simpa using ha)]
    have h2 : s'.2 = E2.invMap := by
      apply List.ext_getElem?
      intro j
      by_cases hj : j < names.length
      · have g2 : E2.invMap[j]? = some (E2.invMap[j]'(by omega)) := List.getElem?_eq_getElem _
        rcases k2 j with ⟨a, q1, q2, q3⟩ | ⟨q1, q2⟩
        · have hp := (PosePrior.pidx_spec m' hn hj).2 q2
          obtain ⟨a', ha'⟩ := b9 j a hp
          have := b8 j a' ha'
          rw [hpid] at this hp
          rw [q3, ha', huniq a a' j hp this]
        · rw [q2]
          have g1 : E.invMap[j]? = some (E.invMap[j]'(by omega)) := List.getElem?_eq_getElem _
          have n : ∀ a, PosePrior.pidx m names a ≠ some j := by
            intro a ha
            have lt := PosePrior.pidx_lt m ha
            rw [← hpid] at ha
            rw [← hname] at lt
            exact q1 a ((hmem a j).2 ⟨lt.2, hj⟩) ((PosePrior.pidx_spec m' hn hj).1 ha)
          cases v1 : E.invMap[j]'(by omega) with
          | some a => rw [v1] at g1; exact absurd (a8 j a g1) (n a)
          | none =>
            cases v2 : E2.invMap[j]'(by omega) with
            | some a => rw [v2] at g2; exact absurd (hpid ▸ b8 j a g2) (n a)
            | none => rw [g1, g2, v1, v2]
      · rw [List.getElem?_eq_none (by rw [l2]; omega), List.getElem?_eq_none (by omega)]
    have : E2 = ⟨names, names.length, 1, M, s'.1, s'.2, some m'⟩ := by
      cases E2
      simp only at b1 b2 b3 b4 b5 h1 h2
      rw [b1, b2, b3, b4, b5, h1, h2]
    rw [this]
    unfold PosePrior.setPosePrior PosePrior.loadInternal
    simp only [Option.bind_eq_bind, Option.bind_some, a1, a2, a3, a4]
    rw [e]
    rfl
  have step : ∀ (ms : List Mppca) (m : Mppca), m.names.Nodup → (∀ m' ∈ ms, m'.names = m.names) → ∀ E,
      PosePrior.make names names.length M (some m) = some E →
      ms.foldlM (fun (E : PosePrior) m' => E.setPosePrior (some m')) E =
        PosePrior.make names names.length M (some ((m :: ms).getLast (by simp))) := by
    intro ms
    induction ms with
    | nil => intro m hd _ E hE; simp only [List.foldlM_nil, List.getLast_singleton]; exact hE.symm
    | cons m' ms ih =>
      intro m hd hms E hE
      rw [List.foldlM_cons, key m m' hd (hms m' (by simp)) E hE]
      obtain ⟨E', e', -⟩ := PosePrior.make_maps hn M m'
      rw [e', List.getLast_cons (by simp)]
      have hm' := hms m' (by simp)
      exact ih m' (by rw [hm']; exact hd) (fun m'' h => by rw [hms m'' (by simp [h]), hm']) E' e'
  obtain ⟨E, e, -⟩ := PosePrior.make_maps hn M m
  rw [e]
  exact step ms m hdist hms E e

/-! ### Examples and findings -/

/-- Two modes of unit variance at 0 and 4 for one parameter; the second mode is likelier by the factor `exp r`. -/
noncomputable def exPrior (ns : List String) (r : ℝ) : Mppca :=
  ⟨1, 2, ns, fun c _ => if c = 0 then 0 else 4, fun _ _ _ => 1, fun _ _ _ => 1, fun c => if c = 0 then 0 else r⟩

theorem exPrior_valid (s : String) (r : ℝ) : (exPrior [s] r).Valid := by
  constructor <;> simp [exPrior]

theorem exPrior_view (r : ℝ) (p : Nat → ℝ) : (exPrior ["b"] r).view ["a", "b"] p 0 = p 1 := by
  simp [Mppca.view, exPrior, List.idxOf_cons]

theorem exPrior_dist (r : ℝ) (p : Nat → ℝ) (c : Nat) : (exPrior ["b"] r).dist c ((exPrior ["b"] r).view ["a", "b"] p) =
    1 / 2 * (p 1 - if c = 0 then 0 else 4) ^ 2 := by
  have : (exPrior ["b"] r).d = 1 := rfl
  simp only [Mppca.dist, this, sum_range_one, exPrior_view]
  simp only [exPrior]
  ring

theorem exPrior_score (r : ℝ) (p : Nat → ℝ) (c : Nat) : (exPrior ["b"] r).score c ((exPrior ["b"] r).view ["a", "b"] p) =
    (if c = 0 then 0 else r) - 1 / 2 * (p 1 - if c = 0 then 0 else 4) ^ 2 := by
  rw [Mppca.score, exPrior_dist]; rfl

/-- The hypotheses of the theorems are met: the model has parameters `a` and `b`, the prior knows `b`, and at `b = 1` its
first mode is the likelier one. -/
example : (["a", "b"] : List String).Nodup ∧ (exPrior ["b"] 0).Valid ∧ (exPrior ["b"] 0).names.Nodup ∧
    (exPrior ["b"] 0).UniqueBest 0 ((exPrior ["b"] 0).view ["a", "b"] fun _ => 1) ∧
    -1000 < (exPrior ["b"] 0).score 0 ((exPrior ["b"] 0).view ["a", "b"] fun _ => 1) := by
  refine ⟨by simp, exPrior_valid _ _, by simp [exPrior], ⟨by simp [exPrior], fun c hc h => ?_⟩, ?_⟩
  · rw [exPrior_score, exPrior_score]; simp [h]; norm_num
  · rw [exPrior_score]; norm_num

/-- Variances and matrices for `C60_density` and `C60_set_valid`. -/
example : ∀ c < 2, (0 : ℝ) < (fun c : Nat => (c : ℝ) + 1) c := by
  intro c _; positivity

/-- **C60**, finding: the error jumps where the likeliest mode changes, so no gradient exists there. -/
theorem C60_error_jumps : ∃ (m : Mppca) (E : PosePrior) (p : Nat → ℝ), m.Valid ∧
    PosePrior.make ["a", "b"] 2 1000 (some m) = some E ∧
    ¬ ContinuousAt (fun u => E.toErrorFunction.getError (Function.update p 1 u)) (p 1) := by
  have hn : (["a", "b"] : List String).Nodup := by simp
  obtain ⟨E, e, -, -, hw, -⟩ := PosePrior.make_maps hn 1000 (exPrior ["b"] 1)
  have hE : ∀ p : Nat → ℝ, E.toErrorFunction.getError p = { E with weight := 1 }.toErrorFunction.getError p := by
    intro p; rw [← hw]
  refine ⟨exPrior ["b"] 1, E, fun _ => 7 / 4, exPrior_valid _ _, e, fun hcont => ?_⟩
  have h0 : ∀ p : Nat → ℝ, p 1 = 7 / 4 → E.toErrorFunction.getError p = 1 / 1000 * (49 / 32) := by
    intro p hp
    obtain ⟨c, hc, h1, h2, h3⟩ := C60_error hn e (exPrior_valid _ _) 1 p ⟨0, by simp [exPrior], by
      rw [exPrior_score, hp]; norm_num⟩
    have hc : c < 2 := hc
    rw [hE, h3, exPrior_dist]
    rcases c with _ | _ | c
    · rw [hp]; norm_num
    · have := h2 0 (by omega)
      rw [exPrior_score, exPrior_score, hp] at this
      norm_num at this
    · omega
  have h1 : ∀ p : Nat → ℝ, 7 / 4 < p 1 → p 1 < 2 → 1 / 1000 * 2 < E.toErrorFunction.getError p := by
    intro p hp hp2
    obtain ⟨c, hc, h1, h2, h3⟩ := C60_error hn e (exPrior_valid _ _) 1 p ⟨0, by simp [exPrior], by
      rw [exPrior_score]; simp; nlinarith⟩
    have hc : c < 2 := hc
    rw [hE, h3, exPrior_dist]
    rcases c with _ | _ | c
    · have := h1 1 (by simp [exPrior])
      rw [exPrior_score, exPrior_score] at this
      norm_num at this
      nlinarith
    · norm_num
      nlinarith
    · omega
  have h2 := hcont.eventually_lt_const (u := 1 / 1000 * 2) (by simp only; rw [h0 _ (by simp)]; norm_num)
  obtain ⟨ε, hε, hball⟩ := Metric.eventually_nhds_iff.1 h2
  have h3 := @hball (7 / 4 + min (ε / 2) (1 / 8)) (by
    rw [Real.dist_eq, add_sub_cancel_left, abs_of_pos (by positivity)]
    exact (min_le_left _ _).trans_lt (by linarith))
  have hpos : 0 < min (ε / 2) (1 / 8) := by positivity
  have hle : min (ε / 2) (1 / 8) ≤ 1 / 8 := min_le_right _ _
  exact absurd h3 (not_lt.2 (h1 _ (by simp only [Function.update_self]; linarith)
    (by simp only [Function.update_self]; linarith)).le)

theorem exPrior_value {ns names : List String} (hn : names.Nodup) {E : PosePrior} (hl : ns.length = 1)
    (e : PosePrior.make names names.length 1000 (some (exPrior ns 0)) = some E) (p : Nat → ℝ) {x : ℝ}
    (hx : (exPrior ns 0).view names p 0 = x) (h0 : 0 ≤ x) (h1 : x ≤ 1) :
    E.toErrorFunction.getError p = x ^ 2 / 2000 := by
  obtain ⟨E', e', -, -, hw, -⟩ := PosePrior.make_maps hn 1000 (exPrior ns 0)
  rw [e] at e'
  cases e'
  have hd : ∀ c, (exPrior ns 0).dist c ((exPrior ns 0).view names p) = 1 / 2 * (x - if c = 0 then 0 else 4) ^ 2 := by
    intro c
    have : (exPrior ns 0).d = 1 := rfl
    simp only [Mppca.dist, this, sum_range_one, hx]
    simp only [exPrior]
    ring
  have hs : ∀ c, (exPrior ns 0).score c ((exPrior ns 0).view names p) = - (1 / 2 * (x - if c = 0 then 0 else 4) ^ 2) := by
    intro c; rw [Mppca.score, hd]; simp [exPrior]
  obtain ⟨c, hc, k1, k2, k3⟩ := C60_error hn e (by constructor <;> simp [exPrior, hl]) 1 p ⟨0, by simp [exPrior], by
    rw [hs]; simp only [if_true]; nlinarith⟩
  rw [show E = { E with weight := 1 } by rw [← hw], k3, hd]
  have hc : c < 2 := hc
  rcases c with _ | _ | c
  · simp only [if_true]; ring
  · have := k1 0 (by simp [exPrior])
    rw [hs, hs] at this
    norm_num at this
    nlinarith
  · omega

/-- **C60**, finding: `setPosePrior` keeps entries of the old maps.  After a prior for `a` is replaced by one for an unknown
name, the new prior still reads and pulls `a`: the error differs from that of a function constructed with the new prior. -/
theorem C60_stale_map : ∃ (m m' : Mppca) (E E' F : PosePrior), m.Valid ∧ m'.Valid ∧
    PosePrior.make ["a", "b"] 2 1000 (some m) = some E ∧ E.setPosePrior (some m') = some E' ∧
    PosePrior.make ["a", "b"] 2 1000 (some m') = some F ∧
    E'.toErrorFunction.getError (fun _ => 1) = 1 / 2000 ∧ F.toErrorFunction.getError (fun _ => 1) = 0 := by
  refine ⟨exPrior ["a"] 0, exPrior ["x"] 0, _, _, _, exPrior_valid _ _, exPrior_valid _ _, rfl, rfl, rfl, ?_, ?_⟩
  · refine Eq.trans (exPrior_value (names := ["a", "b"]) (ns := ["a"]) (by simp) rfl rfl (fun _ => 1) (x := 1) ?_
      (by norm_num) (by norm_num)) (by norm_num)
    simp [Mppca.view, exPrior]
  · refine Eq.trans (exPrior_value (names := ["a", "b"]) (ns := ["x"]) (by simp) rfl rfl (fun _ => 1) (x := 0) ?_
      (by norm_num) (by norm_num)) (by norm_num)
    simp [Mppca.view, exPrior]

/-- **C60**, finding: a null prior is accepted by the constructor but dereferenced by `setPosePrior`. -/
theorem C60_null_prior : (∃ E, PosePrior.make ["a", "b"] 2 1000 none = some E) ∧
    ∀ E : PosePrior, E.setPosePrior none = none :=
  ⟨⟨_, rfl⟩, fun _ => rfl⟩

/-- **C60**, finding: with no mode at all, the error is the largest number of the type, times the weights, while the
gradient reports the error 0. -/
theorem C60_no_modes : ∃ (m : Mppca) (E : PosePrior), m.Valid ∧ PosePrior.make ["a", "b"] 2 1000 (some m) = some E ∧
    E.toErrorFunction.getError (fun _ => 0) = 1 ∧ (E.toErrorFunction.getGradient fun _ => 0).1 = 0 := by
  refine ⟨{ exPrior ["a"] 0 with p := 0 }, _, ?_, rfl, ?_, ?_⟩
  · constructor <;> simp [exPrior]
  · have : ∀ x : ℝ, x * kPosePriorWeight * 1 = x / 1000 := by intro x; unfold kPosePriorWeight; ring
    have h : (1000 : ℝ) * kPosePriorWeight * 1 = 1 := by rw [this]; norm_num
    refine Eq.trans (b := - -(1000 : ℝ) * kPosePriorWeight * 1) rfl ?_
    rw [neg_neg, h]
  · rfl

/-- One mode of unit variance at the origin, for two dimensions of the same name. -/
noncomputable def exTwiceNames : Mppca :=
  ⟨2, 1, ["a", "a"], fun _ _ => 0, fun _ a b => if a = b then 1 else 0, fun _ a b => if a = b then 1 else 0, fun _ => 0⟩

/-- **C60**, finding: when the prior has the same name twice, the gradient counts both dimensions but the Jacobian only the
last one, so `C60_jacobian` needs distinct names. -/
theorem C60_duplicate_names : ∃ (m : Mppca) (E : PosePrior) (p : Nat → ℝ), m.Valid ∧
    PosePrior.make ["a", "b"] 2 1000 (some m) = some E ∧ m.UniqueBest 0 (m.view ["a", "b"] p) ∧
    -1000 < m.score 0 (m.view ["a", "b"] p) ∧ ¬ E.toErrorFunction.JacobianIsDerivativeNear p 0 := by
  have hv : exTwiceNames.Valid := by
    refine ⟨rfl, fun c _ a _ b _ => ?_, fun c _ a ha b hb => ?_⟩
    · simp [exTwiceNames, eq_comm]
    · simp only [exTwiceNames] at ha hb ⊢
      rw [sum_range_succ, sum_range_one]
      rcases a with _ | _ | a <;> rcases b with _ | _ | b <;> first | omega | norm_num
  have hd : ∀ p : Nat → ℝ, exTwiceNames.dist 0 (exTwiceNames.view ["a", "b"] p) = p 0 ^ 2 := by
    intro p
    have h0 : exTwiceNames.view ["a", "b"] p 0 = p 0 := by simp [Mppca.view, exTwiceNames]
    have h1 : exTwiceNames.view ["a", "b"] p 1 = p 0 := by simp [Mppca.view, exTwiceNames]
    have : exTwiceNames.d = 2 := rfl
    simp only [Mppca.dist, this, sum_range_succ, sum_range_zero, h0, h1]
    simp only [exTwiceNames]
    norm_num
    ring
  have hb : ∀ p : Nat → ℝ, exTwiceNames.UniqueBest 0 (exTwiceNames.view ["a", "b"] p) := by
    intro p
    refine ⟨by simp [exTwiceNames], fun c hc h => ?_⟩
    simp [exTwiceNames] at hc
    exact absurd hc h
  have hs : ∀ p : Nat → ℝ, exTwiceNames.score 0 (exTwiceNames.view ["a", "b"] p) = - p 0 ^ 2 := by
    intro p; rw [Mppca.score, hd]; simp [exTwiceNames]
  have hn : (["a", "b"] : List String).Nodup := by simp
  obtain ⟨E, e, -, -, hw, -⟩ := PosePrior.make_maps hn 1000 exTwiceNames
  have hinv : E.invMap = [some 1, none] := by
    have : PosePrior.make ["a", "b"] 2 1000 (some exTwiceNames) = some ⟨["a", "b"], 2, 1, 1000, [some 0, some 0],
      [some 1, none], some exTwiceNames⟩ := rfl
    cases (Option.some.inj (e.symm.trans this))
    rfl
  refine ⟨exTwiceNames, E, fun _ => 0, hv, e, hb _, by rw [hs]; norm_num, fun h => ?_⟩
  have hEw : E = { E with weight := 1 } := by rw [← hw]
  have hk : (0 : ℝ) < 0.5 * kPosePriorWeight * 1 := by unfold kPosePriorWeight; norm_num
  have res : ∀ p : Nat → ℝ, -1000 < - p 0 ^ 2 → (E.toErrorFunction.getJacobian p).rows = 2 ∧
      (E.toErrorFunction.getJacobian p).residual 0 = Real.sqrt (0.5 * kPosePriorWeight * 1) * p 0 ∧
      (E.toErrorFunction.getJacobian p).e 0 0 = 0 := by
    intro p hp
    obtain ⟨b, k1, k2, k3, k4⟩ := PosePrior.found_unique hn e hv.names 1 p (hb p) (by rw [hs]; exact hp)
    obtain ⟨l1, l2, l3⟩ := PosePrior.getJacobian_eq hn e hv.names 1 p k2 k1
    rw [← hEw] at l2 l3
    obtain ⟨r1, r2⟩ := l3 0 (by simp [exTwiceNames])
    refine ⟨l2, ?_, ?_⟩
    · rw [r1]
      have : exTwiceNames.d = 2 := rfl
      simp only [this, sum_range_succ, sum_range_zero]
      rw [k4 0 (by simp [exTwiceNames])]
      simp [exTwiceNames, Mppca.view]
    · rw [r2 0, hinv]; simp [exTwiceNames]
  obtain ⟨r1, r2, r3⟩ := res (fun _ => 0) (by norm_num)
  have h1 := h.deriv 0 (by rw [r1]; norm_num)
  rw [r3] at h1
  have h2 : HasDerivAt (fun u : ℝ => Real.sqrt (0.5 * kPosePriorWeight * 1) * u) (Real.sqrt (0.5 * kPosePriorWeight * 1))
      0 := by simpa using (hasDerivAt_id (0 : ℝ)).const_mul (Real.sqrt (0.5 * kPosePriorWeight * 1))
  have h3 : (fun u => (E.toErrorFunction.getJacobian (Function.update (fun _ => 0) 0 u)).residual 0) =ᶠ[nhds 0]
      fun u : ℝ => Real.sqrt (0.5 * kPosePriorWeight * 1) * u := by
    filter_upwards [Metric.ball_mem_nhds (0 : ℝ) one_pos] with u hu
    rw [Metric.mem_ball, Real.dist_eq, sub_zero] at hu
    have := abs_lt.1 hu
    rw [(res (Function.update (fun _ => 0) 0 u) (by simp only [Function.update_self]; nlinarith)).2.1, Function.update_self]
  have := (h2.congr_of_eventuallyEq h3).unique h1
  exact absurd this (Real.sqrt_pos.2 hk).ne'

end Momentum
