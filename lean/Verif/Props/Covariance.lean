import Verif.Model.Covariance
import Verif.Props.HouseholderQr
import Mathlib.LinearAlgebra.Matrix.Block
import Mathlib.LinearAlgebra.Matrix.Notation
import Mathlib.LinearAlgebra.Matrix.NonsingularInverse

/-!
# C29

The specification is Mathlib's matrices: `σ² I + Aᵀ A`.
-/

namespace Momentum
open Finset

/-- The covariance matrix `σ² I + Aᵀ A`. -/
def covarianceMatrix (sigma : ℝ) {m n : Nat} (A : Matrix (Fin m) (Fin n) ℝ) : Matrix (Fin n) (Fin n) ℝ :=
  (sigma ^ 2) • (1 : Matrix (Fin n) (Fin n) ℝ) + A.transpose * A

/-- A matrix as the function the model works on. -/
def matFun {m n : Nat} (A : Matrix (Fin m) (Fin n) ℝ) : Nat → Nat → ℝ := fun t j =>
  if h : t < m ∧ j < n then A ⟨t, h.1⟩ ⟨j, h.2⟩ else 0

/-- A vector as the function the model works on. -/
def vecFun {n : Nat} (v : Fin n → ℝ) : Nat → ℝ := fun j => if h : j < n then v ⟨j, h⟩ else 0

/-- The first `n` entries. -/
def funVec (n : Nat) (f : Nat → ℝ) : Fin n → ℝ := fun j => f j

/-- The first `n` rows and columns. -/
def funMat (n : Nat) (f : Nat → Nat → ℝ) : Matrix (Fin n) (Fin n) ℝ := Matrix.of fun i j => f i j

theorem matFun_fin {m n : Nat} (A : Matrix (Fin m) (Fin n) ℝ) (t : Fin m) (j : Fin n) : matFun A t j = A t j := by
  unfold matFun; rw [dif_pos ⟨t.2, j.2⟩]

theorem vecFun_fin {n : Nat} (v : Fin n → ℝ) (j : Fin n) : vecFun v j = v j := by
  unfold vecFun; rw [dif_pos j.2]

/-! ### The solver's factor -/

theorem qrPivot_pos {n m : Nat} {idx : Nat → Nat} (w : QrWork) (i : Nat) :
    ∀ r, 0 < w.R r r → 0 < (qrPivot n m idx w i).R r r := by
  intro r hr
  by_cases hs : ∑ t ∈ range m, w.A (idx i) t * w.A (idx i) t = 0
  · unfold qrPivot
    simp only [householderVec_zero hs]
    simpa using hr
  · obtain ⟨beta, mu, v, hv⟩ : ∃ beta mu v, householderVec m (w.R i i) (w.A (idx i)) = (beta, mu, v) := ⟨_, _, _, rfl⟩
    obtain ⟨h1, -, h3, -⟩ := householderVec_spec hs hv
    unfold qrPivot
    simp only [hv, if_neg h1]
    by_cases hri : r = i
    · subst hri
      rw [Function.update_self]
      have key : ∀ (js : List Nat) (row : Nat → ℝ) (A : Nat → Nat → ℝ) (u : Nat → ℝ), r ∉ js →
          (reflectCols m beta u idx js row A).1 r = row r := by
        intro js
        induction js with
        | nil => intros; rfl
        | cons j js ih =>
          intro row A u hj
          rw [List.mem_cons, not_or] at hj
          unfold reflectCols at ih ⊢
          rw [List.foldl_cons, ih _ _ _ hj.2, Function.update_of_ne hj.1]
      rw [key _ _ _ _ (by rw [List.mem_range'_1]; omega), Function.update_self]
      exact h3
    · rwa [Function.update_of_ne hri]

theorem qrLoop_pos {n m : Nat} {idx : Nat → Nat} (l : List Nat) (w : QrWork) :
    ∀ r, 0 < w.R r r → 0 < (l.foldl (qrPivot n m idx) w).R r r := by
  induction l generalizing w with
  | nil => exact fun _ h => h
  | cons i l ih => exact fun r h => ih _ r (qrPivot_pos w i r h)

theorem covariance_make (sigma : ℝ) {m n : Nat} (A : Matrix (Fin m) (Fin n) ℝ) :
    ∃ c, Covariance.make sigma m n (matFun A) = some c ∧ c.n = n ∧ c.m = m ∧ c.A = matFun A ∧ c.sigma = sigma ∧
      (∀ r j, j < r → r < n → c.qr.R r j = 0) ∧
      (funMat n c.qr.R).transpose * funMat n c.qr.R = covarianceMatrix sigma A ∧
      (0 < sigma → ∀ i < n, 0 < c.qr.R i i) ∧ (sigma ≠ 0 → ∀ i < n, c.qr.R i i ≠ 0) := by
  have hd : ∀ c ∈ [(⟨⟨m, n, fun j t => matFun A t j, false, []⟩, m, fun _ => 0⟩ : AddCall)], c.A.DistinctColumns := by
    simp [ColMat.DistinctColumns]
  obtain ⟨s, hs⟩ := (C26_defined n sigma [⟨⟨m, n, fun j t => matFun A t j, false, []⟩, m, fun _ => 0⟩] hd).2
    (by simp [ColMat.cols])
  have hrep := denseRun_represents hd hs
  have hadd : (DenseQr.start n sigma).add ⟨m, n, fun j t => matFun A t j, false, []⟩ m (fun _ => 0) = some s := by
    simpa [denseRun] using hs
  refine ⟨⟨n, m, matFun A, sigma, s⟩, by unfold Covariance.make; rw [hadd]; rfl, rfl, rfl, rfl, rfl, hrep.upper, ?_, ?_, ?_⟩
  · ext j k
    have := hrep.normal.1 j j.2 k k.2
    rw [Matrix.mul_apply]
    simp only [Matrix.transpose_apply, funMat, Matrix.of_apply]
    rw [← Fin.sum_univ_eq_sum_range (fun r => s.R r j * s.R r k)] at this
    rw [this]
    simp only [covarianceMatrix, Matrix.add_apply, Matrix.smul_apply, Matrix.one_apply, Matrix.mul_apply,
      Matrix.transpose_apply, normalMatrix, history, List.map_cons, List.map_nil, List.sum_cons, List.sum_nil, add_zero,
      ColMat.toRows, ColMat.entry, ColMat.idx, Bool.false_eq_true, if_false, smul_eq_mul]
    congr 1
    · by_cases h : j = k
      · simp [h]
      · rw [if_neg h, if_neg (fun e => h (Fin.ext e)), mul_zero]
    · rw [← Fin.sum_univ_eq_sum_range (fun t => matFun A t j * matFun A t k)]
      simp only [matFun_fin]
  · intro hpos i hi
    unfold DenseQr.add at hadd
    rw [if_neg (by simp), if_neg (by simp [ColMat.cols, DenseQr.start])] at hadd
    cases hadd
    apply qrLoop_pos
    simp [DenseQr.start, hpos.ne', hpos]
  · intro h0
    exact hrep.diagonal.2 (C27_regularised _ _ h0 _)

/-! ### Forward substitution -/

theorem forwardSub_spec (n : Nat) (R : Nat → Nat → ℝ) (b : Nat → ℝ) (hd : ∀ i < n, R i i ≠ 0) :
    ∀ i < n, ∑ j ∈ range (i + 1), R j i * forwardSub n R b j = b i := by
  have key : ∀ k ≤ n, ∀ i < k, ∑ j ∈ range (i + 1), R j i * forwardSub k R b j = b i := by
    intro k
    induction k with
    | zero => intro _ i hi; omega
    | succ k ih =>
      intro hk i hi
      have hstep : forwardSub (k + 1) R b = Function.update (forwardSub k R b) k
          ((b k - ∑ j ∈ range k, R j k * forwardSub k R b j) / R k k) := by
        unfold forwardSub
        rw [List.range_succ, List.foldl_append]
        rfl
      by_cases hik : i = k
      · subst hik
        rw [sum_range_succ, hstep, Function.update_self]
        have : ∑ j ∈ range i, R j i * Function.update (forwardSub i R b) i
            ((b i - ∑ j ∈ range i, R j i * forwardSub i R b j) / R i i) j = ∑ j ∈ range i, R j i * forwardSub i R b j :=
          sum_congr rfl fun j hj => by rw [Function.update_of_ne (by rw [mem_range] at hj; omega)]
        rw [this]
        have := hd i (by omega)
        field_simp
        ring
      · rw [← ih (by omega) i (by omega)]
        apply sum_congr rfl
        intro j hj
        rw [mem_range] at hj
        rw [hstep, Function.update_of_ne (by omega)]
  exact key n le_rfl

/-! ### The property -/

/-- **C29.**  `times_vec` multiplies by `σ² I + Aᵀ A`. -/
theorem C29_times_vec (sigma : ℝ) {m n : Nat} (A : Matrix (Fin m) (Fin n) ℝ) (v : Fin n → ℝ) :
    ∃ c, Covariance.make sigma m n (matFun A) = some c ∧
      funVec n (c.timesVec (vecFun v)) = (covarianceMatrix sigma A).mulVec v := by
  obtain ⟨c, hc, n1, n2, n3, n4, -⟩ := covariance_make sigma A
  refine ⟨c, hc, ?_⟩
  ext j
  simp only [funVec, Covariance.timesVec, n1, n2, n3, n4, covarianceMatrix, Matrix.add_mulVec, Pi.add_apply,
    Matrix.smul_mulVec, Matrix.one_mulVec, Pi.smul_apply, smul_eq_mul, vecFun_fin, ← Matrix.mulVec_mulVec]
  rw [Matrix.mulVec, dotProduct, ← Fin.sum_univ_eq_sum_range
    (fun t => matFun A t j * ∑ k ∈ range n, matFun A t k * vecFun v k)]
  congr 1
  · ring
  · apply sum_congr rfl
    intro t _
    rw [Matrix.transpose_apply, matFun_fin, Matrix.mulVec, dotProduct, ← Fin.sum_univ_eq_sum_range
      (fun k => matFun A t k * vecFun v k)]
    simp only [matFun_fin, vecFun_fin]

/-- **C29.**  For `σ ≠ 0` `inverse_times_vec` multiplies by the inverse matrix; in particular it undoes `times_vec`, and
`times_vec` undoes it. -/
theorem C29_inverse_times_vec (sigma : ℝ) (hs : sigma ≠ 0) {m n : Nat} (A : Matrix (Fin m) (Fin n) ℝ) (v : Fin n → ℝ) :
    ∃ c, Covariance.make sigma m n (matFun A) = some c ∧ IsUnit (covarianceMatrix sigma A).det ∧
      funVec n (c.inverseTimesVec (vecFun v)) = (covarianceMatrix sigma A)⁻¹.mulVec v ∧
      funVec n (c.timesVec (vecFun (funVec n (c.inverseTimesVec (vecFun v))))) = v ∧
      funVec n (c.inverseTimesVec (vecFun (funVec n (c.timesVec (vecFun v))))) = v := by
  obtain ⟨c, hc, n1, n2, n3, n4, hup, hR, -, hdiag⟩ := covariance_make sigma A
  have hdiag := hdiag hs
  have htri : (funMat n c.qr.R).BlockTriangular id := fun i j hij => hup i j hij i.2
  have hdet : IsUnit (covarianceMatrix sigma A).det := by
    rw [← hR, Matrix.det_mul, Matrix.det_transpose, Matrix.det_of_upperTriangular htri]
    refine isUnit_iff_ne_zero.2 (mul_ne_zero ?_ ?_) <;>
      exact prod_ne_zero_iff.2 fun i _ => hdiag i i.2
  have key : ∀ w : Fin n → ℝ,
      (covarianceMatrix sigma A).mulVec (funVec n (c.inverseTimesVec (vecFun w))) = w := by
    intro w
    rw [← hR, ← Matrix.mulVec_mulVec]
    have e1 : (funMat n c.qr.R).mulVec (funVec n (c.inverseTimesVec (vecFun w))) =
        funVec n (forwardSub n c.qr.R (vecFun w)) := by
      ext i
      have := backSub_spec n c.qr.R (forwardSub n c.qr.R (vecFun w)) hdiag i i.2
      rw [← full_row' i.2 hup, ← Fin.sum_univ_eq_sum_range
        (fun j => c.qr.R i j * backSub n c.qr.R (forwardSub n c.qr.R (vecFun w)) j)] at this
      unfold Covariance.inverseTimesVec
      rw [n1]
      exact this
    rw [e1]
    ext i
    have := forwardSub_spec n c.qr.R (vecFun w) hdiag i i.2
    rw [vecFun_fin] at this
    rw [Matrix.mulVec, dotProduct, ← this]
    simp only [Matrix.transpose_apply, funMat, Matrix.of_apply, funVec]
    rw [Fin.sum_univ_eq_sum_range (fun j => c.qr.R j i * forwardSub n c.qr.R (vecFun w) j) n]
    symm
    apply sum_subset
    · intro j; simp only [mem_range]; have := i.2; omega
    · intro j hj hji
      rw [mem_range] at hj hji
      rw [hup j i (by omega) hj, zero_mul]
  have hinv : ∀ w : Fin n → ℝ, funVec n (c.inverseTimesVec (vecFun w)) = (covarianceMatrix sigma A)⁻¹.mulVec w := by
    intro w
    rw [← key w, Matrix.mulVec_mulVec, Matrix.nonsing_inv_mul _ hdet, Matrix.one_mulVec, key w]
  have htimes : ∀ w : Fin n → ℝ, funVec n (c.timesVec (vecFun w)) = (covarianceMatrix sigma A).mulVec w := by
    intro w
    obtain ⟨c', hc', h⟩ := C29_times_vec sigma A w
    rw [hc] at hc'
    cases hc'
    exact h
  refine ⟨c, hc, hdet, hinv v, ?_, ?_⟩
  · rw [htimes, key]
  · rw [hinv, htimes, Matrix.mulVec_mulVec, Matrix.nonsing_inv_mul _ hdet, Matrix.one_mulVec]

theorem logDeterminant_fold (f : Nat → ℝ) (n : Nat) (h : ∀ i < n, 0 < f i) :
    (List.range n).foldlM (fun (acc : ℝ) i => if f i > 0 then some (acc + Real.log (f i)) else none) 0 =
      some (∑ i ∈ range n, Real.log (f i)) := by
  induction n with
  | zero => rfl
  | succ n ih =>
    rw [List.range_succ, List.foldlM_append, ih fun i hi => h i (by omega), sum_range_succ]
    simp [h n (by omega)]

/-- **C29, partial.**  For `σ > 0` `logDeterminant` is the logarithm of the determinant of `σ² I + Aᵀ A`, which is
positive, and `inverse_logDeterminant` that of the inverse.  Missing: negative `σ`, for which the call can fail although
the matrix is the same as for `-σ` (`C29_negative_sigma_counterexample`). -/
theorem C29_logDeterminant_partial (sigma : ℝ) (hs : 0 < sigma) {m n : Nat} (A : Matrix (Fin m) (Fin n) ℝ) :
    ∃ c, Covariance.make sigma m n (matFun A) = some c ∧ 0 < (covarianceMatrix sigma A).det ∧
      c.logDeterminant = some (Real.log (covarianceMatrix sigma A).det) ∧
      c.inverseLogDeterminant = some (Real.log (covarianceMatrix sigma A)⁻¹.det) := by
  obtain ⟨c, hc, n1, n2, n3, n4, hup, hR, hpos, -⟩ := covariance_make sigma A
  have hpos := hpos hs
  have htri : (funMat n c.qr.R).BlockTriangular id := fun i j hij => hup i j hij i.2
  have hdet : (covarianceMatrix sigma A).det = (∏ i ∈ range n, c.qr.R i i) ^ 2 := by
    rw [← hR, Matrix.det_mul, Matrix.det_transpose, Matrix.det_of_upperTriangular htri, sq]
    rw [← Fin.prod_univ_eq_prod_range (fun i => c.qr.R i i)]
    rfl
  have hprod : 0 < ∏ i ∈ range n, c.qr.R i i := prod_pos fun i hi => hpos i (mem_range.1 hi)
  have hlog : c.logDeterminant = some (Real.log (covarianceMatrix sigma A).det) := by
    unfold Covariance.logDeterminant
    have := logDeterminant_fold (fun i => c.qr.R i i) n hpos
    rw [n1, this, hdet, Real.log_pow, Real.log_prod fun i hi => (hpos i (mem_range.1 hi)).ne']
    rfl
  refine ⟨c, hc, by rw [hdet]; positivity, hlog, ?_⟩
  unfold Covariance.inverseLogDeterminant
  rw [hlog, Matrix.det_nonsing_inv, Ring.inverse_eq_inv', Real.log_inv]
  rfl

/-- **C29 fails for negative `σ`.**  The `1 × 1` covariance `σ²` with an empty basis has the positive determinant `1` for
`σ = -1`, and `logDeterminant` fails its check. -/
theorem C29_negative_sigma_counterexample :
    ∃ c, Covariance.make (-1) 0 1 (matFun (0 : Matrix (Fin 0) (Fin 1) ℝ)) = some c ∧
      (covarianceMatrix (-1) (0 : Matrix (Fin 0) (Fin 1) ℝ)).det = 1 ∧ c.logDeterminant = none := by
  have hR : (DenseQr.start 1 (-1)).add ⟨0, 1, fun j t => matFun (0 : Matrix (Fin 0) (Fin 1) ℝ) t j, false, []⟩ 0 (fun _ => 0) =
      some (DenseQr.start 1 (-1)) := by
    simp [DenseQr.add, DenseQr.start, ColMat.cols, qrPivot, householderVec]
  refine ⟨⟨1, 0, matFun (0 : Matrix (Fin 0) (Fin 1) ℝ), -1, DenseQr.start 1 (-1)⟩, ?_, ?_, ?_⟩
  · unfold Covariance.make
    rw [hR]; rfl
  · simp [covarianceMatrix]
  · simp [Covariance.logDeterminant, DenseQr.start]

/-- The hypotheses are met, for instance, by `σ = 2` and the `1 × 2` basis `(1, 3)`, whose covariance is
`(5, 3; 3, 13)`. -/
example : (0 : ℝ) < 2 ∧ covarianceMatrix 2 !![(1 : ℝ), 3] = !![5, 3; 3, 13] := by
  refine ⟨by norm_num, ?_⟩
  ext i j
  fin_cases i <;> fin_cases j <;> norm_num [covarianceMatrix, Matrix.mul_apply, Matrix.transpose_apply, Matrix.one_apply]

end Momentum
