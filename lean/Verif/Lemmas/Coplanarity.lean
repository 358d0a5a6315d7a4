import Verif.Spec.Coplanarity
import Mathlib.Data.Complex.Basic

namespace Momentum

/-! ### Three real roots -/

theorem cos_third (α : ℝ) :
    Real.cos (α + 2 * Real.pi / 3) = -(1 / 2) * Real.cos α - Real.sqrt 3 / 2 * Real.sin α ∧
      Real.cos (α - 2 * Real.pi / 3) = -(1 / 2) * Real.cos α + Real.sqrt 3 / 2 * Real.sin α := by
  have h1 : Real.cos (2 * Real.pi / 3) = -(1 / 2) := by
    rw [show 2 * Real.pi / 3 = Real.pi - Real.pi / 3 by ring, Real.cos_pi_sub, Real.cos_pi_div_three]
  have h2 : Real.sin (2 * Real.pi / 3) = Real.sqrt 3 / 2 := by
    rw [show 2 * Real.pi / 3 = Real.pi - Real.pi / 3 by ring, Real.sin_pi_sub, Real.sin_pi_div_three]
  constructor
  · rw [Real.cos_add, h1, h2]; ring
  · rw [Real.cos_sub, h1, h2]; ring

/-- The polynomial in `y = x + a / 3`. -/
theorem depressed (a b c x : ℝ) : x ^ 3 + a * x ^ 2 + b * x + c =
    (x + a / 3) ^ 3 - 3 * ((a * a - 3 * b) * (1 / 9)) * (x + a / 3) + 2 * ((a * (2 * (a * a) - 9 * b) + 27 * c) * (1 / 54)) := by
  ring

theorem cubicTrig_mem {a q r : ℝ} (h : r * r < q * q * q) (x : ℝ) :
    x ∈ cubicTrig a q r ↔ (x + a / 3) ^ 3 - 3 * q * (x + a / 3) + 2 * r = 0 := by
  have hq3 : 0 < q * q * q := lt_of_le_of_lt (mul_self_nonneg r) h
  have hq : 0 < q := by
    by_contra hc
    have : q * q * q ≤ 0 := mul_nonpos_of_nonneg_of_nonpos (mul_self_nonneg q) (not_lt.1 hc)
    linarith
  have hs : 0 < Real.sqrt (q * q * q) := Real.sqrt_pos.2 hq3
  have hs2 : Real.sqrt (q * q * q) * Real.sqrt (q * q * q) = q * q * q := Real.mul_self_sqrt hq3.le
  have hsq : Real.sqrt q * Real.sqrt q = q := Real.mul_self_sqrt hq.le
  have hs3 : Real.sqrt (q * q * q) = q * Real.sqrt q := by
    rw [Real.sqrt_mul (mul_self_nonneg q), Real.sqrt_mul_self hq.le]
  have habs : |r| < Real.sqrt (q * q * q) := by
    rw [← Real.sqrt_mul_self_eq_abs]
    exact Real.sqrt_lt_sqrt (mul_self_nonneg r) h
  obtain ⟨h1, h2⟩ := abs_lt.1 habs
  have ht1 : ¬r / Real.sqrt (q * q * q) < -1 := by
    rw [div_lt_iff₀ hs]; linarith
  have ht2 : ¬r / Real.sqrt (q * q * q) > 1 := by
    rw [gt_iff_lt, lt_div_iff₀ hs]; linarith
  unfold cubicTrig
  simp only [if_neg ht1, if_neg ht2]
  set t := Real.arccos (r / Real.sqrt (q * q * q)) with ht
  have hcos : Real.cos t = r / Real.sqrt (q * q * q) := Real.cos_arccos (not_lt.1 ht1) (not_lt.1 ht2)
  have h3 : Real.cos t = 4 * Real.cos (t * (1 / 3)) ^ 3 - 3 * Real.cos (t * (1 / 3)) := by
    rw [← Real.cos_three_mul]; congr 1; ring
  obtain ⟨c1, c2⟩ := cos_third (t * (1 / 3))
  rw [show (t + 2 * Real.pi) * (1 / 3) = t * (1 / 3) + 2 * Real.pi / 3 by ring,
    show (t - 2 * Real.pi) * (1 / 3) = t * (1 / 3) - 2 * Real.pi / 3 by ring, c1, c2]
  set C := Real.cos (t * (1 / 3))
  set S := Real.sin (t * (1 / 3))
  have hCS : S ^ 2 = 1 - C ^ 2 := Real.sin_sq (t * (1 / 3))
  have h33 : Real.sqrt 3 ^ 2 = 3 := Real.sq_sqrt (by norm_num)
  have hr : r = q * Real.sqrt q * (4 * C ^ 3 - 3 * C) := by
    rw [← h3, hcos, hs3]
    field_simp
  have key : (x + a / 3) ^ 3 - 3 * q * (x + a / 3) + 2 * r =
      (x - (-2 * Real.sqrt q * C - a / 3)) * (x - (-2 * Real.sqrt q * (-(1 / 2) * C - Real.sqrt 3 / 2 * S) - a / 3)) *
        (x - (-2 * Real.sqrt q * (-(1 / 2) * C + Real.sqrt 3 / 2 * S) - a / 3)) := by
    rw [hr]
    set w := Real.sqrt q
    set g := Real.sqrt 3
    have hq' : q = w ^ 2 := by rw [← hsq]; ring
    rw [hq']
    have e1 : (x - (-2 * w * (-(1 / 2) * C - g / 2 * S) - a / 3)) * (x - (-2 * w * (-(1 / 2) * C + g / 2 * S) - a / 3)) =
        (x + a / 3 - w * C) ^ 2 - w ^ 2 * (g ^ 2 * S ^ 2) := by ring
    rw [mul_assoc (x - (-2 * w * C - a / 3)), e1, h33, hCS]
    ring
  rw [key]
  simp only [List.mem_cons, List.not_mem_nil, or_false, mul_eq_zero, sub_eq_zero, or_assoc]

/-! ### One real root -/

theorem cubicA_cube {q r : ℝ} (h : q * q * q ≤ r * r) :
    cubicA q r ^ 3 = -r - (if r < 0 then -1 else 1) * Real.sqrt (r * r - q * q * q) := by
  have h0 : 0 ≤ |r| + Real.sqrt (r * r - q * q * q) := add_nonneg (abs_nonneg _) (Real.sqrt_nonneg _)
  have h1 : ((|r| + Real.sqrt (r * r - q * q * q)) ^ (1 / 3 : ℝ)) ^ 3 = |r| + Real.sqrt (r * r - q * q * q) := by
    rw [← Real.rpow_natCast, ← Real.rpow_mul h0]
    norm_num
  unfold cubicA
  simp only
  split
  · rename_i hr
    rw [neg_neg, h1, abs_of_neg hr]; ring
  · rename_i hr
    rw [neg_pow, h1, abs_of_nonneg (not_lt.1 hr)]; ring

theorem cubicAB {q r : ℝ} (h : q * q * q ≤ r * r) :
    cubicA q r * cubicB q (cubicA q r) = q ∧ cubicA q r ^ 3 + cubicB q (cubicA q r) ^ 3 = -2 * r := by
  have h3 := cubicA_cube h
  set A := cubicA q r
  have hs0 : 0 ≤ Real.sqrt (r * r - q * q * q) := Real.sqrt_nonneg _
  have hs2 : Real.sqrt (r * r - q * q * q) * Real.sqrt (r * r - q * q * q) = r * r - q * q * q :=
    Real.mul_self_sqrt (by linarith)
  set s := Real.sqrt (r * r - q * q * q)
  by_cases hA : A = 0
  · rw [hA] at h3
    have hr : r = 0 ∧ s = 0 := by
      split at h3
      · rename_i hr
        constructor <;> nlinarith
      · rename_i hr
        have := not_lt.1 hr
        constructor <;> nlinarith
    have hq : q = 0 := by
      have h1 := hs2
      rw [hr.1, hr.2] at h1
      have : q * q * q = 0 := by linarith
      rcases mul_eq_zero.1 this with h2 | h2
      · exact mul_self_eq_zero.1 h2
      · exact h2
    simp [cubicB, hA, hr.1, hq]
  · have hB : cubicB q A = q / A := by simp [cubicB, hA]
    have hAB : A * cubicB q A = q := by rw [hB]; field_simp
    refine ⟨hAB, ?_⟩
    have hA3 : A ^ 3 ≠ 0 := pow_ne_zero _ hA
    have hB3 : A ^ 3 * cubicB q A ^ 3 = q * q * q := by
      rw [← mul_pow, hAB]; ring
    have : A ^ 3 * (A ^ 3 + cubicB q A ^ 3 + 2 * r) = 0 := by
      rw [mul_add, mul_add, hB3, h3]
      split
      · linear_combination hs2
      · linear_combination hs2
    rcases mul_eq_zero.1 this with h4 | h4
    · exact absurd h4 hA3
    · linarith

theorem cubicOne_factor {q r A B : ℝ} (h1 : A * B = q) (h2 : A ^ 3 + B ^ 3 = -2 * r) (y : ℝ) :
    y ^ 3 - 3 * q * y + 2 * r = (y - (A + B)) * ((y + 1 / 2 * (A + B)) ^ 2 + 3 / 4 * (A - B) ^ 2) := by
  rw [← h1, show r = -(A ^ 3 + B ^ 3) / 2 by linarith]
  ring

theorem cubicOne_complete {a q r A B : ℝ} (h1 : A * B = q) (h2 : A ^ 3 + B ^ 3 = -2 * r) {x : ℝ}
    (hx : (x + a / 3) ^ 3 - 3 * q * (x + a / 3) + 2 * r = 0) : x ∈ cubicOne a A B := by
  rw [cubicOne_factor h1 h2] at hx
  unfold cubicOne
  simp only
  rcases mul_eq_zero.1 hx with h | h
  · have : x = A + B - a / 3 := by linarith
    split <;> simp [this]
  · have e1 : A - B = 0 := by nlinarith [sq_nonneg (x + a / 3 + 1 / 2 * (A + B)), sq_nonneg (A - B)]
    have e2 : x + a / 3 + 1 / 2 * (A + B) = 0 := by
      rw [e1] at h
      nlinarith [sq_nonneg (x + a / 3 + 1 / 2 * (A + B))]
    rw [if_pos (by rw [e1, mul_zero, abs_zero]; unfold rootTol; positivity)]
    have : x = -(1 / 2) * (A + B) - a / 3 := by linarith
    simp [this]

theorem cubicOne_sound {a q r A B : ℝ} (h1 : A * B = q) (h2 : A ^ 3 + B ^ 3 = -2 * r) {x : ℝ} (hx : x ∈ cubicOne a A B) :
    (x + a / 3) ^ 3 - 3 * q * (x + a / 3) + 2 * r = 0 ∨
      x + a / 3 = -(1 / 2) * (A + B) ∧ |1 / 2 * Real.sqrt 3 * (A - B)| < rootTol := by
  have h0 : ∀ x, x = A + B - a / 3 → (x + a / 3) ^ 3 - 3 * q * (x + a / 3) + 2 * r = 0 := by
    rintro x rfl
    rw [cubicOne_factor h1 h2]
    ring
  unfold cubicOne at hx
  simp only at hx
  split at hx
  · rename_i ht
    simp only [List.mem_cons, List.not_mem_nil, or_false] at hx
    rcases hx with h | h | h
    · exact .inl (h0 x h)
    · exact .inr ⟨by linarith, ht⟩
    · exact .inr ⟨by linarith, ht⟩
  · simp only [List.mem_cons, List.not_mem_nil, or_false] at hx
    exact .inl (h0 x hx)

/-! ### Coplanar points -/

/-- The volume spanned by the differences. -/
def FourPoints.volume (y : FourPoints) : ℝ := ((y.p2 - y.p1).cross (y.p3 - y.p1)).dot (y.p4 - y.p1)

theorem avx_eq_scalar (x21 x31 x41 v21 v31 v41 : Vec3 ℝ) :
    coplanarCubicAvx x21 x31 x41 v21 v31 v41 = coplanarCubicScalar x21 x31 x41 v21 v31 v41 := by
  unfold coplanarCubicAvx coplanarCubicScalar
  simp only [Cubic.mk.injEq]
  refine ⟨by ring, by ring, by ring, by ring⟩

theorem volume_at (avx : Bool) (x v : FourPoints) (t : ℝ) : (x.at v t).volume =
    (coplanarCubic avx x v).d * t ^ 3 + (coplanarCubic avx x v).a * t ^ 2 + (coplanarCubic avx x v).b * t + (coplanarCubic avx x v).c := by
  have : ∀ b, coplanarCubic b x v = coplanarCubic false x v := by
    intro b
    unfold coplanarCubic
    cases b
    · rfl
    · simp only [if_true, avx_eq_scalar]; rfl
  rw [this]
  simp only [coplanarCubic, Bool.false_eq_true, if_false, coplanarCubicScalar, FourPoints.volume, FourPoints.at, Vec3.dot, Vec3.cross,
    Vec3.sub_x, Vec3.sub_y, Vec3.sub_z, Vec3.add_x, Vec3.add_y, Vec3.add_z, Vec3.smul_x, Vec3.smul_y, Vec3.smul_z]
  ring

end Momentum
