import Verif.Lemmas.HouseholderQr
import Mathlib.Data.List.Perm.Basic

/-!
# What it means for a triangular factor to represent a least-squares problem

Shared by the dense, block and banded solvers.
-/

namespace Momentum
open Finset

/-- `|R x - y|²`, reading the upper triangle only. -/
def factorResidual (n : Nat) (R : Nat → Nat → ℝ) (y x : Nat → ℝ) : ℝ :=
  ∑ r ∈ range n, (∑ j ∈ Ico r n, R r j * x j - y r) ^ 2

theorem full_row {n : Nat} {R : Nat → Nat → ℝ} (hup : ∀ r j, j < r → R r j = 0) (r : Nat) (x : Nat → ℝ) :
    ∑ j ∈ range n, R r j * x j = ∑ j ∈ Ico r n, R r j * x j := by
  symm
  apply sum_subset
  · intro j hj; exact mem_range.2 (mem_Ico.1 hj).2
  · intro j hj hn
    rw [hup r j (by rw [mem_range] at hj; rw [mem_Ico] at hn; omega), zero_mul]

theorem sum_unit {n j : Nat} (hj : j < n) (f : Nat → ℝ) (c : ℝ) :
    ∑ k ∈ range n, f k * (if k = j then c else 0) = f j * c := by
  rw [sum_eq_single j]
  · simp
  · intro k _ hk; simp [hk]
  · intro h; exact absurd (mem_range.2 hj) h

theorem sum_unit2 {n j k : Nat} (hj : j < n) (hk : k < n) (f : Nat → ℝ) (c d : ℝ) :
    ∑ l ∈ range n, f l * ((if l = j then c else 0) + (if l = k then d else 0)) = f j * c + f k * d := by
  simp only [mul_add, sum_add_distrib]
  rw [sum_unit hj, sum_unit hk]

/-- Coefficients of a quadratic function. -/
theorem rows_quadratic {n : Nat} (r : Rows) {j k : Nat} (hj : j < n) (hk : k < n) (c d : ℝ) :
    r.residual n (fun l => (if l = j then c else 0) + (if l = k then d else 0)) =
      c * c * ∑ t ∈ range r.m, r.a t j * r.a t j + 2 * c * d * ∑ t ∈ range r.m, r.a t j * r.a t k +
      d * d * ∑ t ∈ range r.m, r.a t k * r.a t k -
      2 * c * ∑ t ∈ range r.m, r.a t j * r.b t - 2 * d * ∑ t ∈ range r.m, r.a t k * r.b t +
      ∑ t ∈ range r.m, r.b t * r.b t := by
  unfold Rows.residual
  simp only [sum_unit2 hj hk, mul_sum, ← sum_add_distrib, ← sum_sub_distrib]
  exact sum_congr rfl fun t _ => by ring

theorem objective_quadratic {n : Nat} (lambda : ℝ) (hist : List Rows) {j k : Nat} (hj : j < n) (hk : k < n)
    (c d : ℝ) :
    objective n lambda hist (fun l => (if l = j then c else 0) + (if l = k then d else 0)) =
      c * c * normalMatrix lambda hist j j + 2 * c * d * normalMatrix lambda hist j k +
      d * d * normalMatrix lambda hist k k - 2 * c * normalRhs hist j - 2 * d * normalRhs hist k +
      (hist.map fun r => ∑ t ∈ range r.m, r.b t * r.b t).sum := by
  unfold objective normalMatrix normalRhs
  induction hist with
  | nil =>
    simp only [List.map_nil, List.sum_nil, add_zero, mul_zero, sub_zero]
    have : ∑ l ∈ range n, ((if l = j then c else 0) + (if l = k then d else 0)) ^ 2 =
        c * c + 2 * c * d * (if j = k then 1 else 0) + d * d := by
      have : ∀ l, ((if l = j then c else 0) + (if l = k then d else 0)) ^ 2 =
          c * (if l = j then c else 0) + 2 * d * (if k = l then (1:ℝ) else 0) * (if l = j then c else 0) +
            d * (if l = k then d else 0) := by
        intro l
        simp only [eq_comm (a := k) (b := l)]
        split_ifs <;> ring
      simp only [this, sum_add_distrib]
      rw [sum_unit hj (fun _ => c), sum_unit hk (fun _ => d),
        sum_unit hj (fun l => 2 * d * (if k = l then (1:ℝ) else 0))]
      simp only [eq_comm (a := k)]
      ring
    rw [this]
    by_cases h : j = k <;> simp [h] <;> ring
  | cons r hist ih =>
    simp only [List.map_cons, List.sum_cons]
    rw [rows_quadratic r hj hk]
    simp only [if_true] at ih ⊢
    linarith

theorem sumsq_eq_zero {S : Finset Nat} {f : Nat → ℝ} (h : ∑ t ∈ S, f t ^ 2 = 0) : ∀ t ∈ S, f t = 0 := by
  intro t ht
  exact pow_eq_zero_iff (two_ne_zero) |>.1 ((sum_eq_zero_iff_of_nonneg fun t _ => sq_nonneg (f t)).1 h t ht)

/-- The quadratic part of the objective. -/
def homogeneous (n : Nat) (lambda : ℝ) (hist : List Rows) (x : Nat → ℝ) : ℝ :=
  lambda ^ 2 * ∑ j ∈ range n, x j ^ 2 +
    (hist.map fun r => ∑ t ∈ range r.m, (∑ j ∈ range n, r.a t j * x j) ^ 2).sum

theorem residual_even (r : Rows) (n : Nat) (x : Nat → ℝ) :
    r.residual n x + r.residual n (fun j => - x j) - 2 * r.residual n (fun _ => 0) =
      2 * ∑ t ∈ range r.m, (∑ j ∈ range n, r.a t j * x j) ^ 2 := by
  unfold Rows.residual
  simp only [mul_neg, sum_neg_distrib, mul_zero, sum_const_zero, mul_sum, ← sum_add_distrib, ← sum_sub_distrib]
  exact sum_congr rfl fun t _ => by ring

theorem objective_even (n : Nat) (lambda : ℝ) (hist : List Rows) (x : Nat → ℝ) :
    objective n lambda hist x + objective n lambda hist (fun j => - x j) - 2 * objective n lambda hist (fun _ => 0) =
      2 * homogeneous n lambda hist x := by
  unfold objective homogeneous
  induction hist with
  | nil => simp; ring
  | cons r hist ih =>
    simp only [List.map_cons, List.sum_cons]
    have := residual_even r n x
    linarith

theorem homogeneous_zero {n : Nat} {lambda : ℝ} {hist : List Rows} {x : Nat → ℝ} :
    homogeneous n lambda hist x = 0 ↔ (∀ j < n, lambda * x j = 0) ∧
      ∀ r ∈ hist, ∀ t < r.m, ∑ j ∈ range n, r.a t j * x j = 0 := by
  have nn : ∀ hist : List Rows, 0 ≤ (hist.map fun r => ∑ t ∈ range r.m, (∑ j ∈ range n, r.a t j * x j) ^ 2).sum := by
    intro hist
    apply List.sum_nonneg
    intro a ha
    obtain ⟨r, -, rfl⟩ := List.mem_map.1 ha
    exact sum_nonneg fun t _ => sq_nonneg _
  have e1 : lambda ^ 2 * ∑ j ∈ range n, x j ^ 2 = ∑ j ∈ range n, (lambda * x j) ^ 2 := by
    rw [mul_sum]; exact sum_congr rfl fun j _ => by ring
  unfold homogeneous
  rw [e1]
  constructor
  · intro h
    have h0 : 0 ≤ ∑ j ∈ range n, (lambda * x j) ^ 2 := sum_nonneg fun j _ => sq_nonneg _
    have h1 := nn hist
    refine ⟨fun j hj => sumsq_eq_zero (by linarith) j (mem_range.2 hj), ?_⟩
    have h2 : (hist.map fun r => ∑ t ∈ range r.m, (∑ j ∈ range n, r.a t j * x j) ^ 2).sum = 0 := by linarith
    clear h h1
    induction hist with
    | nil => simp
    | cons r hist ih =>
      simp only [List.map_cons, List.sum_cons] at h2
      have g1 := nn hist
      have g2 : 0 ≤ ∑ t ∈ range r.m, (∑ j ∈ range n, r.a t j * x j) ^ 2 := sum_nonneg fun t _ => sq_nonneg _
      intro r' hr' t ht
      rcases List.mem_cons.1 hr' with rfl | hr'
      · exact sumsq_eq_zero (f := fun t => ∑ j ∈ range n, r'.a t j * x j) (by linarith) t (mem_range.2 ht)
      · exact ih (by linarith) r' hr' t ht
  · rintro ⟨h1, h2⟩
    rw [sum_eq_zero fun j hj => by rw [h1 j (mem_range.1 hj)]; ring]
    rw [List.sum_eq_zero, add_zero]
    intro a ha
    obtain ⟨r, hr, rfl⟩ := List.mem_map.1 ha
    exact sum_eq_zero fun t ht => by rw [h2 r hr t (mem_range.1 ht)]; ring

/-- A singular triangular matrix has a null vector. -/
theorem upper_null {n : Nat} {R : Nat → Nat → ℝ} {i : Nat} (hi : i < n) (h0 : R i i = 0)
    (hd : ∀ k < i, R k k ≠ 0) :
    ∃ x : Nat → ℝ, x i = 1 ∧ ∀ r < n, ∑ j ∈ Ico r n, R r j * x j = 0 := by
  let z := backSub i R fun r => - R r i
  have hz := backSub_spec i R (fun r => - R r i) hd
  refine ⟨fun j => if j < i then z j else if j = i then 1 else 0, by simp, fun r hr => ?_⟩
  by_cases hri : r < i
  · rw [← sum_Ico_consecutive _ hri.le hi.le, sum_eq_sum_Ico_succ_bot hi]
    have e1 : ∑ j ∈ Ico r i, R r j * (if j < i then z j else if j = i then 1 else 0) = - R r i := by
      rw [← hz r hri]
      exact sum_congr rfl fun j hj => by rw [if_pos (mem_Ico.1 hj).2]
    have e2 : ∑ j ∈ Ico (i + 1) n, R r j * (if j < i then z j else if j = i then 1 else 0) = 0 := by
      apply sum_eq_zero
      intro j hj
      have := mem_Ico.1 hj
      rw [if_neg (by omega), if_neg (by omega), mul_zero]
    rw [e1, e2]
    simp
  · apply sum_eq_zero
    intro j hj
    have hj := mem_Ico.1 hj
    by_cases hji : j = i
    · have : r = i := by omega
      subst this; subst hji
      rw [h0, zero_mul]
    · dsimp only
      rw [if_neg (by omega), if_neg hji, mul_zero]

/-- The factor `(R, y)` is upper triangular and `|R x - y|²` differs from the objective by a constant. -/
structure Represents (n : Nat) (lambda : ℝ) (hist : List Rows) (R : Nat → Nat → ℝ) (y : Nat → ℝ) : Prop where
  upper : ∀ r j, j < r → r < n → R r j = 0
  functional : ∃ c, 0 ≤ c ∧ ∀ x, factorResidual n R y x + c = objective n lambda hist x

theorem full_row' {n : Nat} {R : Nat → Nat → ℝ} {r : Nat} (hr : r < n) (hup : ∀ r j, j < r → r < n → R r j = 0)
    (x : Nat → ℝ) : ∑ j ∈ range n, R r j * x j = ∑ j ∈ Ico r n, R r j * x j := by
  symm
  apply sum_subset
  · intro j hj; exact mem_range.2 (mem_Ico.1 hj).2
  · intro j hj hn
    rw [hup r j (by rw [mem_range] at hj; rw [mem_Ico] at hn; omega) hr, zero_mul]

namespace Represents
variable {n : Nat} {lambda : ℝ} {hist : List Rows} {R : Nat → Nat → ℝ} {y : Nat → ℝ}

theorem residual (h : Represents n lambda hist R y) (x : Nat → ℝ) :
    factorResidual n R y x = (⟨n, R, y⟩ : Rows).residual n x := by
  unfold factorResidual Rows.residual
  exact sum_congr rfl fun r hr => by rw [full_row' (mem_range.1 hr) h.upper]

theorem normal (h : Represents n lambda hist R y) :
    (∀ j < n, ∀ k < n, ∑ r ∈ range n, R r j * R r k = normalMatrix lambda hist j k) ∧
    (∀ j < n, ∑ r ∈ range n, R r j * y r = normalRhs hist j) := by
  obtain ⟨c, -, h4⟩ := h.functional
  have q : ∀ j < n, ∀ k < n, ∀ e d : ℝ,
      e * e * ∑ t ∈ range n, R t j * R t j + 2 * e * d * ∑ t ∈ range n, R t j * R t k +
      d * d * ∑ t ∈ range n, R t k * R t k -
      2 * e * ∑ t ∈ range n, R t j * y t - 2 * d * ∑ t ∈ range n, R t k * y t +
      ∑ t ∈ range n, y t * y t + c =
      e * e * normalMatrix lambda hist j j + 2 * e * d * normalMatrix lambda hist j k +
      d * d * normalMatrix lambda hist k k - 2 * e * normalRhs hist j -
      2 * d * normalRhs hist k +
      (hist.map fun r => ∑ t ∈ range r.m, r.b t * r.b t).sum := fun j hj k hk e d => by
    have := h4 (fun l => (if l = j then e else 0) + (if l = k then d else 0))
    rw [h.residual, rows_quadratic _ hj hk, objective_quadratic _ _ hj hk] at this
    exact this
  have rhs : ∀ j < n, ∑ r ∈ range n, R r j * y r = normalRhs hist j := by
    intro j hj
    have a := q j hj j hj 1 0
    have b := q j hj j hj (-1) 0
    linarith
  refine ⟨fun j hj k hk => ?_, rhs⟩
  have a := q j hj k hk 1 1
  have b := q j hj k hk 1 (-1)
  have r1 := rhs k hk
  linarith

theorem homogeneous_eq (h : Represents n lambda hist R y) (x : Nat → ℝ) :
    ∑ r ∈ range n, (∑ j ∈ Ico r n, R r j * x j) ^ 2 = homogeneous n lambda hist x := by
  obtain ⟨c, -, h4⟩ := h.functional
  have e := residual_even ⟨n, R, y⟩ n x
  have o := objective_even n lambda hist x
  rw [← h.residual, ← h.residual, ← h.residual] at e
  have a1 := h4 x
  have a2 := h4 fun j => - x j
  have a3 := h4 fun _ => 0
  have e0 : ∑ t ∈ range n, (∑ j ∈ range n, R t j * x j) ^ 2 = ∑ t ∈ range n, (∑ j ∈ Ico t n, R t j * x j) ^ 2 :=
    sum_congr rfl fun t ht => by rw [full_row' (mem_range.1 ht) h.upper]
  simp only at e
  rw [e0] at e
  linarith

theorem diagonal (h : Represents n lambda hist R y) : (∀ i < n, R i i ≠ 0) ↔ FullRank n lambda hist := by
  have hh := h.homogeneous_eq
  constructor
  · intro hdiag x h1 h2
    have hx := hh x
    rw [homogeneous_zero.2 ⟨h1, h2⟩] at hx
    have hz := sumsq_eq_zero hx
    exact upper_unique hdiag (z := fun _ => 0) fun i hi => by rw [hz i (mem_range.2 hi)]; simp
  · intro hf i
    induction i using Nat.strong_induction_on with
    | _ i ih =>
      intro hi h0
      obtain ⟨x, hx1, hx⟩ := upper_null hi h0 (fun k hk => ih k hk (by omega))
      have := hh x
      rw [sum_eq_zero fun r hr => by rw [hx r (mem_range.1 hr)]; ring] at this
      obtain ⟨g1, g2⟩ := homogeneous_zero.1 this.symm
      have := hf x g1 g2 i hi
      rw [hx1] at this
      exact one_ne_zero this

/-- A solution of the triangular system is the only minimiser. -/
theorem minimiser (h : Represents n lambda hist R y) (hf : FullRank n lambda hist) {z : Nat → ℝ}
    (hz : ∀ i < n, ∑ j ∈ Ico i n, R i j * z j = y i) (x : Nat → ℝ) :
    objective n lambda hist z ≤ objective n lambda hist x ∧
    (objective n lambda hist x ≤ objective n lambda hist z → ∀ j < n, x j = z j) := by
  have hdiag := h.diagonal.2 hf
  obtain ⟨c, hc, hobj⟩ := h.functional
  have h0 : factorResidual n R y z = 0 :=
    sum_eq_zero fun r hr => by rw [hz r (mem_range.1 hr)]; ring
  have hx0 : 0 ≤ factorResidual n R y x := sum_nonneg fun r _ => sq_nonneg _
  have o1 := hobj z
  have o2 := hobj x
  refine ⟨by linarith, fun hle => ?_⟩
  have hz' : factorResidual n R y x = 0 := by linarith
  have hz' := sumsq_eq_zero hz'
  exact upper_unique hdiag fun i hi => by
    rw [hz i hi]
    have := hz' i (mem_range.2 hi)
    linarith

end Represents

end Momentum
