import Verif.Model.Euler
import Verif.Spec.Euler
import Verif.Lemmas.Rotation
import Verif.Lemmas.JointDeriv
import Mathlib.Tactic.NormNum

namespace Momentum

theorem cos_atan2 {x y r : ℝ} (hr : 0 < r) (h : x ^ 2 + y ^ 2 = r ^ 2) :
    Real.cos (atan2 y x) = x / r := by
  have hn : ‖(⟨x, y⟩ : ℂ)‖ = r := by
    rw [Complex.norm_def, Complex.normSq_mk, ← sq, ← sq, h, Real.sqrt_sq hr.le]
  have hz : (⟨x, y⟩ : ℂ) ≠ 0 := by
    intro h0; rw [h0, norm_zero] at hn; exact hr.ne hn
  rw [atan2, Complex.cos_arg hz, hn]

theorem sin_atan2 {x y r : ℝ} (hr : 0 < r) (h : x ^ 2 + y ^ 2 = r ^ 2) :
    Real.sin (atan2 y x) = y / r := by
  have hn : ‖(⟨x, y⟩ : ℂ)‖ = r := by
    rw [Complex.norm_def, Complex.normSq_mk, ← sq, ← sq, h, Real.sqrt_sq hr.le]
  rw [atan2, Complex.sin_arg, hn]

theorem isRotation_mul {a b : Mat3 ℝ} (ha : IsRotation a) (hb : IsRotation b) :
    IsRotation (a.mul b) := by
  have ea := ha.eqs
  have eb := hb.eqs
  constructor
  · have h1 := hb.orth
    have assoc : ∀ x y z : Mat3 ℝ, (x.mul y).mul z = x.mul (y.mul z) := by
      intro x y z; ext <;> simp [Mat3.mul] <;> ring
    have tr : (a.mul b).transpose = b.transpose.mul a.transpose := by
      ext <;> simp [Mat3.mul, Mat3.transpose] <;> ring
    have mone : ∀ x : Mat3 ℝ, Mat3.mul Mat3.one x = x := by
      intro x; ext <;> simp [Mat3.mul, Mat3.one]
    rw [tr, assoc, ← assoc b, h1, mone, ha.orth]
  · have : (a.mul b).det = a.det * b.det := by simp [Mat3.mul, Mat3.det]; ring
    rw [this, ha.det_one, hb.det_one, one_mul]

theorem isRotation_rotAxis (i : Fin 3) (t : ℝ) : IsRotation (rotAxis i t) := by
  have h := Real.sin_sq_add_cos_sq t
  fin_cases i
  · constructor
    · ext <;> simp [rotAxis, rotX, Mat3.mul, Mat3.transpose, Mat3.one]
      all_goals first | ring1 | linear_combination h
    · simp [rotAxis, rotX, Mat3.det]; linear_combination h
  · constructor
    · ext <;> simp [rotAxis, rotY, Mat3.mul, Mat3.transpose, Mat3.one]
      all_goals first | ring1 | linear_combination h
    · simp [rotAxis, rotY, Mat3.det]; linear_combination h
  · constructor
    · ext <;> simp [rotAxis, rotZ, Mat3.mul, Mat3.transpose, Mat3.one]
      all_goals first | ring1 | linear_combination h
    · simp [rotAxis, rotZ, Mat3.det]; linear_combination h

theorem eulerXYZ_intr_eq (a : Vec3 ℝ) :
    eulerXYZToMatIntr a = ((rotX a.x).mul (rotY a.y)).mul (rotZ a.z) := by
  ext <;> simp [eulerXYZToMatIntr, rotX, rotY, rotZ, Mat3.mul] <;> ring

theorem eulerZYX_intr_eq (a : Vec3 ℝ) :
    eulerZYXToMatIntr a = ((rotZ a.x).mul (rotY a.y)).mul (rotX a.z) := by
  ext <;> simp [eulerZYXToMatIntr, rotX, rotY, rotZ, Mat3.mul] <;> ring

theorem toMat_angleAxis (i : Fin 3) (a : ℝ) :
    (Quat.angleAxis a (rotationAxisOf i)).toMat = rotAxis i a := by
  fin_cases i
  · exact toMat_angleAxis_x a
  · exact toMat_angleAxis_y a
  · exact toMat_angleAxis_z a

theorem eulerToQuatIntr_toMat (a : Vec3 ℝ) (i j k : Fin 3) :
    (eulerToQuatIntr a i j k).toMat = ((rotAxis i a.x).mul (rotAxis j a.y)).mul (rotAxis k a.z) := by
  have h := normSq_rotationAxis
  unfold eulerToQuatIntr
  rw [Quat.toMat_mul (by rw [Quat.normSq_mul, h, h, one_mul]) (h _ _), Quat.toMat_mul (h _ _) (h _ _),
    toMat_angleAxis, toMat_angleAxis, toMat_angleAxis]

theorem eulerXYZ_roundtrip {m : Mat3 ℝ} (hm : IsRotation m) {tol : ℝ} (ht : 0 ≤ tol)
    (h1 : m.m02 < 1 - tol) (h2 : m.m02 > -1 + tol) :
    eulerXYZToMatIntr (matToEulerXYZIntr tol m) = m := by
  have e := hm.eqs
  have hpos : 0 < 1 - m.m02 ^ 2 := by nlinarith
  have hc : 0 < Real.sqrt (1 - m.m02 ^ 2) := Real.sqrt_pos.mpr hpos
  have hc2 : Real.sqrt (1 - m.m02 ^ 2) ^ 2 = 1 - m.m02 ^ 2 := Real.sq_sqrt hpos.le
  have hcy : Real.cos (Real.arcsin m.m02) = Real.sqrt (1 - m.m02 ^ 2) := Real.cos_arcsin _
  have hsy : Real.sin (Real.arcsin m.m02) = m.m02 :=
    Real.sin_arcsin (by linarith) (by linarith)
  have ex : m.m22 ^ 2 + (-m.m12) ^ 2 = Real.sqrt (1 - m.m02 ^ 2) ^ 2 := by
    rw [hc2]; linear_combination e.c22
  have ez : m.m00 ^ 2 + (-m.m01) ^ 2 = Real.sqrt (1 - m.m02 ^ 2) ^ 2 := by
    rw [hc2]; linear_combination e.r00
  have g1 := cos_atan2 hc ex
  have g2 := sin_atan2 hc ex
  have g3 := cos_atan2 hc ez
  have g4 := sin_atan2 hc ez
  unfold matToEulerXYZIntr
  rw [if_pos h1, if_pos h2]
  unfold eulerXYZToMatIntr
  simp only [g1, g2, g3, g4, hcy, hsy]
  set c := Real.sqrt (1 - m.m02 ^ 2) with hcdef
  have hne := hc.ne'
  ext <;> simp only
  · field_simp
  · field_simp
  · field_simp
    rw [hc2]
    linear_combination ((-1)*m.m10) * e.c00 + ((1)*m.m10) * e.r00 + ((-1)*m.m10) * e.c11 + ((1)*m.m10) * e.r11 + ((-1)*m.m12) * e.c02 + ((1)*m.m10) * e.r22 + ((1)*m.m22) * e.a01
  · field_simp
    rw [hc2]
    linear_combination ((1)*m.m11) * e.r00 + ((-1)*m.m11) * e.c00 + ((-1)*m.m01) * e.r01 + ((1)*m.m10) * e.c01 + ((1)*m.m11) * e.r22 + ((-1)*m.m21) * e.r12 + ((-1)*m.m22) * e.a00
  · field_simp
  · field_simp
    rw [hc2]
    linear_combination ((1)*m.m20) * e.r00 + ((-1)*m.m00) * e.r02 + ((-1)*m.m20) * e.c11 + ((1)*m.m20) * e.r11 + ((1)*m.m21) * e.c01 + ((-1)*m.m10) * e.r12 + ((-1)*m.m12) * e.a01
  · field_simp
    rw [hc2]
    linear_combination ((1)*m.m21) * e.r00 + ((-1)*m.m21) * e.c00 + ((-1)*m.m01) * e.r02 + ((1)*m.m21) * e.r11 + ((1)*m.m20) * e.c01 + ((-1)*m.m11) * e.r12 + ((1)*m.m12) * e.a00
  · field_simp

theorem eulerZYX_roundtrip {m : Mat3 ℝ} (hm : IsRotation m) {tol : ℝ} (ht : 0 ≤ tol)
    (h1 : m.m20 < 1 - tol) (h2 : m.m20 > -1 + tol) :
    eulerZYXToMatIntr (matToEulerZYXIntr tol m) = m := by
  have e := hm.eqs
  have hpos : 0 < 1 - m.m20 ^ 2 := by nlinarith
  have hc : 0 < Real.sqrt (1 - m.m20 ^ 2) := Real.sqrt_pos.mpr hpos
  have hc2 : Real.sqrt (1 - m.m20 ^ 2) ^ 2 = 1 - m.m20 ^ 2 := Real.sq_sqrt hpos.le
  have hcy : Real.cos (Real.arcsin (-m.m20)) = Real.sqrt (1 - m.m20 ^ 2) := by
    rw [Real.cos_arcsin, neg_sq]
  have hsy : Real.sin (Real.arcsin (-m.m20)) = -m.m20 :=
    Real.sin_arcsin (by linarith) (by linarith)
  have ex : m.m00 ^ 2 + m.m10 ^ 2 = Real.sqrt (1 - m.m20 ^ 2) ^ 2 := by
    rw [hc2]; linear_combination e.c00
  have ez : m.m22 ^ 2 + m.m21 ^ 2 = Real.sqrt (1 - m.m20 ^ 2) ^ 2 := by
    rw [hc2]; linear_combination e.r22
  have g1 := cos_atan2 hc ex
  have g2 := sin_atan2 hc ex
  have g3 := cos_atan2 hc ez
  have g4 := sin_atan2 hc ez
  unfold matToEulerZYXIntr
  rw [if_pos h1, if_pos h2]
  unfold eulerZYXToMatIntr
  simp only [g1, g2, g3, g4, hcy, hsy]
  set c := Real.sqrt (1 - m.m20 ^ 2) with hcdef
  have hne := hc.ne'
  ext <;> simp only
  · field_simp
  · field_simp
    rw [hc2]
    linear_combination ((1)*m.m01) * e.r22 + ((-1)*m.m21) * e.r02 + ((1)*m.m22) * e.a10
  · field_simp
    rw [hc2]
    linear_combination ((1)*m.m02) * e.c00 + ((1)*m.m02) * e.c11 + ((-1)*m.m00) * e.c02 + ((-1)*m.m02) * e.r11 + ((1)*m.m12) * e.r01 + ((-1)*m.m01) * e.c12 + ((-1)*m.m21) * e.a10
  · field_simp
  · field_simp
    rw [hc2]
    linear_combination ((1)*m.m11) * e.r22 + ((-1)*m.m21) * e.r12 + ((-1)*m.m22) * e.a00
  · field_simp
    rw [hc2]
    linear_combination ((-1)*m.m12) * e.r00 + ((1)*m.m12) * e.c00 + ((1)*m.m02) * e.r01 + ((-1)*m.m10) * e.c02 + ((1)*m.m12) * e.c11 + ((-1)*m.m11) * e.c12 + ((1)*m.m21) * e.a00
  · ring
  · field_simp
  · field_simp

/-- Normalising a pair `(p, q)` of nearly unit length changes it little. -/
theorem normalize_close {p q w d : ℝ} (hw : p ^ 2 + q ^ 2 = w) (hw1 : w ≤ 1) (hd : 1 - w ≤ 2 * d)
    (hpos : 0 < w) :
    |p - p / Real.sqrt w| ≤ 2 * d ∧ |q - q / Real.sqrt w| ≤ 2 * d := by
  have hs : 0 < Real.sqrt w := Real.sqrt_pos.mpr hpos
  have hs2 : Real.sqrt w ^ 2 = w := Real.sq_sqrt hpos.le
  have hs1 : Real.sqrt w ≤ 1 := by nlinarith
  have key : ∀ x y : ℝ, x ^ 2 + y ^ 2 = w → |x - x / Real.sqrt w| ≤ 2 * d := by
    intro x y hxy
    have hx : |x / Real.sqrt w| ≤ 1 := by
      rw [abs_div, abs_of_pos hs, div_le_one hs]
      rw [← Real.sqrt_sq_eq_abs]
      exact Real.sqrt_le_sqrt (by nlinarith [sq_nonneg y])
    have h1 : x - x / Real.sqrt w = (x / Real.sqrt w) * (Real.sqrt w - 1) := by
      field_simp
    rw [h1, abs_mul]
    have h2 : |Real.sqrt w - 1| ≤ 2 * d := by
      rw [abs_of_nonpos (by linarith)]
      nlinarith
    calc |x / Real.sqrt w| * |Real.sqrt w - 1| ≤ 1 * |Real.sqrt w - 1| :=
          mul_le_mul_of_nonneg_right hx (abs_nonneg _)
      _ ≤ 2 * d := by rw [one_mul]; exact h2
  exact ⟨key p q hw, key q p (by rw [add_comm]; exact hw)⟩


theorem abs_mul_le_of_sq {a b d : ℝ} (ha : a ^ 2 ≤ 2 * d) (hb : b ^ 2 ≤ 2 * d) : |a * b| ≤ 2 * d := by
  rw [abs_le]
  constructor <;> nlinarith [sq_nonneg (a + b), sq_nonneg (a - b)]

theorem abs_le_sqrt_of_sq {a d : ℝ} (ha : a ^ 2 ≤ 2 * d) : |a| ≤ Real.sqrt (2 * d) := by
  rw [← Real.sqrt_sq_eq_abs]; exact Real.sqrt_le_sqrt ha

theorem sin_neg_pi_half : Real.sin (-Real.pi * (1 / 2)) = -1 := by
  rw [show -Real.pi * (1 / 2) = -(Real.pi / 2) by ring, Real.sin_neg, Real.sin_pi_div_two]

theorem cos_neg_pi_half : Real.cos (-Real.pi * (1 / 2)) = 0 := by
  rw [show -Real.pi * (1 / 2) = -(Real.pi / 2) by ring, Real.cos_neg, Real.cos_pi_div_two]

theorem sin_pi_half : Real.sin (Real.pi * (1 / 2)) = 1 := by
  rw [show Real.pi * (1 / 2) = Real.pi / 2 by ring, Real.sin_pi_div_two]

theorem cos_pi_half : Real.cos (Real.pi * (1 / 2)) = 0 := by
  rw [show Real.pi * (1 / 2) = Real.pi / 2 by ring, Real.cos_pi_div_two]

theorem abs_le_two {a b c : ℝ} {E : ℝ} (h : c = a + b) (hE : |a| + |b| ≤ E) : |c| ≤ E := by
  rw [h]; exact (abs_add_le a b).trans hE

theorem abs_le_three {a b c x : ℝ} {E : ℝ} (h : x = a + b + c) (hE : |a| + |b| + |c| ≤ E) :
    |x| ≤ E := by
  rw [h]
  have h1 := abs_add_le (a + b) c
  have h2 := abs_add_le a b
  linarith


theorem eulerXYZ_gimbal_pos {m : Mat3 ℝ} (hm : IsRotation m) {tol : ℝ}
    (hh : 1 / 2 < m.m02) (hb : ¬ m.m02 < 1 - tol) :
    (eulerXYZToMatIntr (matToEulerXYZIntr tol m)).Close
      (Real.sqrt (2 * (1 - m.m02)) + 5 * (1 - m.m02)) m := by
  have e := hm.eqs
  set d := 1 - m.m02 with hd
  have hle1 : m.m02 ≤ 1 := by nlinarith [e.r00, sq_nonneg m.m00, sq_nonneg m.m01]
  have hge1 : -1 ≤ m.m02 := by nlinarith [e.r00, sq_nonneg m.m00, sq_nonneg m.m01]
  have hd0 : 0 ≤ d := by rw [hd]; linarith
  have hdd : 1 - m.m02 ^ 2 ≤ 2 * d := by rw [hd]; nlinarith
  have h00 : m.m00 ^ 2 ≤ 2 * d := by nlinarith [e.r00, sq_nonneg m.m01]
  have h01 : m.m01 ^ 2 ≤ 2 * d := by nlinarith [e.r00, sq_nonneg m.m00]
  have h12 : m.m12 ^ 2 ≤ 2 * d := by nlinarith [e.c22, sq_nonneg m.m22]
  have h22 : m.m22 ^ 2 ≤ 2 * d := by nlinarith [e.c22, sq_nonneg m.m12]
  have hw : m.m10 ^ 2 + m.m11 ^ 2 = 1 - m.m12 ^ 2 := by linear_combination e.r11
  have hpos : 0 < 1 - m.m12 ^ 2 := by rw [hd] at h12; nlinarith
  obtain ⟨n1, n2⟩ := normalize_close (d := d) hw (by nlinarith [sq_nonneg m.m12]) (by linarith) hpos
  have hr : 0 < Real.sqrt (1 - m.m12 ^ 2) := Real.sqrt_pos.mpr hpos
  have hr2 : m.m11 ^ 2 + m.m10 ^ 2 = Real.sqrt (1 - m.m12 ^ 2) ^ 2 := by
    rw [Real.sq_sqrt hpos.le]; linarith
  have gc := cos_atan2 hr hr2
  have gs := sin_atan2 hr hr2
  have s0 := Real.sqrt_nonneg (2 * d)
  have a1 : |m.m10| ≤ 1 := (sq_le_one_iff_abs_le_one _).mp (by nlinarith [sq_nonneg m.m11])
  have a2 : |m.m11| ≤ 1 := (sq_le_one_iff_abs_le_one _).mp (by nlinarith [sq_nonneg m.m10])
  have ad : |d| = d := abs_of_nonneg hd0
  have p1 : |d * m.m11| ≤ d := by rw [abs_mul, ad]; nlinarith [abs_nonneg m.m11]
  have p2 : |d * m.m10| ≤ d := by rw [abs_mul, ad]; nlinarith [abs_nonneg m.m10]
  have q1 := abs_mul_le_of_sq h01 h12
  have q2 := abs_mul_le_of_sq h00 h12
  unfold matToEulerXYZIntr
  rw [if_neg hb]
  unfold eulerXYZToMatIntr
  simp only [gc, gs, sin_pi_half, cos_pi_half, Real.sin_zero, Real.cos_zero]
  generalize m.m10 / Real.sqrt (1 - m.m12 ^ 2) = S at *
  generalize m.m11 / Real.sqrt (1 - m.m12 ^ 2) = C at *
  rw [abs_sub_comm] at n1 n2
  constructor <;> simp only
  · rw [zero_mul, zero_sub, abs_neg]; linarith [abs_le_sqrt_of_sq h00]
  · rw [neg_zero, zero_mul, zero_sub, abs_neg]; linarith [abs_le_sqrt_of_sq h01]
  · rw [show (1:ℝ) - m.m02 = d from rfl, ad]; linarith
  · rw [show 1 * S + C * 0 * 1 - m.m10 = S - m.m10 by ring]; linarith
  · rw [show 1 * C - 0 * 1 * S - m.m11 = C - m.m11 by ring]; linarith
  · rw [neg_zero, zero_mul, zero_sub, abs_neg]; linarith [abs_le_sqrt_of_sq h12]
  · refine abs_le_three (a := -(C - m.m11)) (b := -(m.m01 * m.m12)) (c := -(d * m.m11)) ?_ ?_
    · rw [hd]; linear_combination e.a20
    · rw [abs_neg, abs_neg, abs_neg]; linarith
  · refine abs_le_three (a := (S - m.m10)) (b := m.m00 * m.m12) (c := d * m.m10) ?_ ?_
    · rw [hd]; linear_combination e.a21
    · linarith
  · rw [mul_zero, zero_sub, abs_neg]; linarith [abs_le_sqrt_of_sq h22]

theorem eulerXYZ_gimbal_neg {m : Mat3 ℝ} (hm : IsRotation m) {tol : ℝ}
    (hh : m.m02 < -(1 / 2)) (hb : m.m02 < 1 - tol) (hb2 : ¬ m.m02 > -1 + tol) :
    (eulerXYZToMatIntr (matToEulerXYZIntr tol m)).Close
      (Real.sqrt (2 * (1 + m.m02)) + 5 * (1 + m.m02)) m := by
  have e := hm.eqs
  set d := 1 + m.m02 with hd
  have hle1 : m.m02 ≤ 1 := by nlinarith [e.r00, sq_nonneg m.m00, sq_nonneg m.m01]
  have hge1 : -1 ≤ m.m02 := by nlinarith [e.r00, sq_nonneg m.m00, sq_nonneg m.m01]
  have hd0 : 0 ≤ d := by rw [hd]; linarith
  have hdd : 1 - m.m02 ^ 2 ≤ 2 * d := by rw [hd]; nlinarith
  have h00 : m.m00 ^ 2 ≤ 2 * d := by nlinarith [e.r00, sq_nonneg m.m01]
  have h01 : m.m01 ^ 2 ≤ 2 * d := by nlinarith [e.r00, sq_nonneg m.m00]
  have h12 : m.m12 ^ 2 ≤ 2 * d := by nlinarith [e.c22, sq_nonneg m.m22]
  have h22 : m.m22 ^ 2 ≤ 2 * d := by nlinarith [e.c22, sq_nonneg m.m12]
  have hw : m.m10 ^ 2 + m.m11 ^ 2 = 1 - m.m12 ^ 2 := by linear_combination e.r11
  have hpos : 0 < 1 - m.m12 ^ 2 := by rw [hd] at h12; nlinarith
  obtain ⟨n1, n2⟩ := normalize_close (d := d) hw (by nlinarith [sq_nonneg m.m12]) (by linarith) hpos
  have hr : 0 < Real.sqrt (1 - m.m12 ^ 2) := Real.sqrt_pos.mpr hpos
  have hr2 : m.m11 ^ 2 + m.m10 ^ 2 = Real.sqrt (1 - m.m12 ^ 2) ^ 2 := by
    rw [Real.sq_sqrt hpos.le]; linarith
  have gc := cos_atan2 hr hr2
  have gs := sin_atan2 hr hr2
  have s0 := Real.sqrt_nonneg (2 * d)
  have a1 : |m.m10| ≤ 1 := (sq_le_one_iff_abs_le_one _).mp (by nlinarith [sq_nonneg m.m11])
  have a2 : |m.m11| ≤ 1 := (sq_le_one_iff_abs_le_one _).mp (by nlinarith [sq_nonneg m.m10])
  have ad : |d| = d := abs_of_nonneg hd0
  have p1 : |d * m.m11| ≤ d := by rw [abs_mul, ad]; nlinarith [abs_nonneg m.m11]
  have p2 : |d * m.m10| ≤ d := by rw [abs_mul, ad]; nlinarith [abs_nonneg m.m10]
  have q1 := abs_mul_le_of_sq h01 h12
  have q2 := abs_mul_le_of_sq h00 h12
  unfold matToEulerXYZIntr
  rw [if_pos hb, if_neg hb2]
  unfold eulerXYZToMatIntr
  simp only [gc, gs, sin_neg_pi_half, cos_neg_pi_half, Real.sin_zero, Real.cos_zero]
  generalize m.m10 / Real.sqrt (1 - m.m12 ^ 2) = S at *
  generalize m.m11 / Real.sqrt (1 - m.m12 ^ 2) = C at *
  rw [abs_sub_comm] at n1 n2
  constructor <;> simp only
  · rw [zero_mul, zero_sub, abs_neg]; linarith [abs_le_sqrt_of_sq h00]
  · rw [neg_zero, zero_mul, zero_sub, abs_neg]; linarith [abs_le_sqrt_of_sq h01]
  · rw [show (-1:ℝ) - m.m02 = -d by rw [hd]; ring, abs_neg, ad]; linarith
  · rw [show 1 * S + C * 0 * -1 - m.m10 = S - m.m10 by ring]; linarith
  · rw [show 1 * C - 0 * -1 * S - m.m11 = C - m.m11 by ring]; linarith
  · rw [neg_zero, zero_mul, zero_sub, abs_neg]; linarith [abs_le_sqrt_of_sq h12]
  · refine abs_le_three (a := (C - m.m11)) (b := -(m.m01 * m.m12)) (c := d * m.m11) ?_ ?_
    · rw [hd]; linear_combination e.a20
    · rw [abs_neg]; linarith
  · refine abs_le_three (a := -(S - m.m10)) (b := m.m00 * m.m12) (c := -(d * m.m10)) ?_ ?_
    · rw [hd]; linear_combination e.a21
    · rw [abs_neg, abs_neg]; linarith
  · rw [mul_zero, zero_sub, abs_neg]; linarith [abs_le_sqrt_of_sq h22]


theorem eulerZYX_gimbal_neg {m : Mat3 ℝ} (hm : IsRotation m) {tol : ℝ}
    (hh : m.m20 < -(1 / 2)) (hb : m.m20 < 1 - tol) (hb2 : ¬ m.m20 > -1 + tol) :
    (eulerZYXToMatIntr (matToEulerZYXIntr tol m)).Close
      (Real.sqrt (2 * (1 + m.m20)) + 5 * (1 + m.m20)) m := by
  have e := hm.eqs
  set d := 1 + m.m20 with hd
  have hle1 : m.m20 ≤ 1 := by nlinarith [e.r22, sq_nonneg m.m21, sq_nonneg m.m22]
  have hge1 : -1 ≤ m.m20 := by nlinarith [e.r22, sq_nonneg m.m21, sq_nonneg m.m22]
  have hd0 : 0 ≤ d := by rw [hd]; linarith
  have hdd : 1 - m.m20 ^ 2 ≤ 2 * d := by rw [hd]; nlinarith
  have h00 : m.m00 ^ 2 ≤ 2 * d := by nlinarith [e.c00, sq_nonneg m.m10]
  have h10 : m.m10 ^ 2 ≤ 2 * d := by nlinarith [e.c00, sq_nonneg m.m00]
  have h21 : m.m21 ^ 2 ≤ 2 * d := by nlinarith [e.r22, sq_nonneg m.m22]
  have h22 : m.m22 ^ 2 ≤ 2 * d := by nlinarith [e.r22, sq_nonneg m.m21]
  have hw : m.m01 ^ 2 + m.m02 ^ 2 = 1 - m.m00 ^ 2 := by linear_combination e.r00
  have hpos : 0 < 1 - m.m00 ^ 2 := by rw [hd] at h00; nlinarith
  obtain ⟨n1, n2⟩ := normalize_close (d := d) hw (by nlinarith [sq_nonneg m.m00]) (by linarith) hpos
  have hr : 0 < Real.sqrt (1 - m.m00 ^ 2) := Real.sqrt_pos.mpr hpos
  have hr2 : m.m02 ^ 2 + m.m01 ^ 2 = Real.sqrt (1 - m.m00 ^ 2) ^ 2 := by
    rw [Real.sq_sqrt hpos.le]; linarith
  have gc := cos_atan2 hr hr2
  have gs := sin_atan2 hr hr2
  have s0 := Real.sqrt_nonneg (2 * d)
  have a1 : |m.m01| ≤ 1 := (sq_le_one_iff_abs_le_one _).mp (by nlinarith [sq_nonneg m.m02, sq_nonneg m.m00])
  have a2 : |m.m02| ≤ 1 := (sq_le_one_iff_abs_le_one _).mp (by nlinarith [sq_nonneg m.m01, sq_nonneg m.m00])
  have hone : |(1:ℝ)| = 1 := by norm_num
  have ad : |d| = d := abs_of_nonneg hd0
  have p1 : |d * m.m01| ≤ d := by rw [abs_mul, ad]; nlinarith [abs_nonneg m.m01]
  have p2 : |d * m.m02| ≤ d := by rw [abs_mul, ad]; nlinarith [abs_nonneg m.m02]
  have q1 := abs_mul_le_of_sq h00 h22
  have q2 := abs_mul_le_of_sq h00 h21
  unfold matToEulerZYXIntr
  rw [if_pos hb, if_neg hb2]
  unfold eulerZYXToMatIntr
  simp only [gc, gs, sin_pi_half, cos_pi_half, Real.sin_zero, Real.cos_zero]
  generalize m.m01 / Real.sqrt (1 - m.m00 ^ 2) = S at *
  generalize m.m02 / Real.sqrt (1 - m.m00 ^ 2) = C at *
  rw [abs_sub_comm] at n1 n2
  constructor <;> simp only
  · rw [mul_zero, zero_sub, abs_neg]; linarith [abs_le_sqrt_of_sq h00]
  · rw [show 1 * 1 * S - 0 * C - m.m01 = 1 * (S - m.m01) by ring, abs_mul (1:ℝ), hone, one_mul]
    linarith
  · rw [show 1 * 1 * C + 0 * S - m.m02 = 1 * (C - m.m02) by ring, abs_mul (1:ℝ), hone, one_mul]
    linarith
  · rw [mul_zero, zero_sub, abs_neg]; linarith [abs_le_sqrt_of_sq h10]
  · refine abs_le_three (a := C - m.m02) (b := 1 * (d * m.m02)) (c := -(m.m00 * m.m22)) ?_ ?_
    · rw [hd]; linear_combination e.a11
    · rw [abs_neg, abs_mul (1:ℝ), hone, one_mul]; linarith
  · refine abs_le_three (a := -(S - m.m01)) (b := -(1 * (d * m.m01))) (c := m.m00 * m.m21) ?_ ?_
    · rw [hd]; linear_combination e.a12
    · rw [abs_neg, abs_neg, abs_mul (1:ℝ), hone, one_mul]; linarith
  · rw [show -(1:ℝ) - m.m20 = -(1 * d) by rw [hd]; ring, abs_neg, abs_mul (1:ℝ), hone, one_mul, ad]; linarith
  · rw [zero_mul, zero_sub, abs_neg]; linarith [abs_le_sqrt_of_sq h21]
  · rw [zero_mul, zero_sub, abs_neg]; linarith [abs_le_sqrt_of_sq h22]

theorem eulerZYX_gimbal_pos {m : Mat3 ℝ} (hm : IsRotation m) {tol : ℝ}
    (hh : 1 / 2 < m.m20) (hb : ¬ m.m20 < 1 - tol) :
    (eulerZYXToMatIntr (matToEulerZYXIntr tol m)).Close
      (Real.sqrt (2 * (1 - m.m20)) + 5 * (1 - m.m20)) m := by
  have e := hm.eqs
  set d := 1 - m.m20 with hd
  have hle1 : m.m20 ≤ 1 := by nlinarith [e.r22, sq_nonneg m.m21, sq_nonneg m.m22]
  have hge1 : -1 ≤ m.m20 := by nlinarith [e.r22, sq_nonneg m.m21, sq_nonneg m.m22]
  have hd0 : 0 ≤ d := by rw [hd]; linarith
  have hdd : 1 - m.m20 ^ 2 ≤ 2 * d := by rw [hd]; nlinarith
  have h00 : m.m00 ^ 2 ≤ 2 * d := by nlinarith [e.c00, sq_nonneg m.m10]
  have h10 : m.m10 ^ 2 ≤ 2 * d := by nlinarith [e.c00, sq_nonneg m.m00]
  have h21 : m.m21 ^ 2 ≤ 2 * d := by nlinarith [e.r22, sq_nonneg m.m22]
  have h22 : m.m22 ^ 2 ≤ 2 * d := by nlinarith [e.r22, sq_nonneg m.m21]
  have hw : (-m.m01) ^ 2 + (-m.m02) ^ 2 = 1 - m.m00 ^ 2 := by linear_combination e.r00
  have hpos : 0 < 1 - m.m00 ^ 2 := by rw [hd] at h00; nlinarith
  obtain ⟨n1, n2⟩ := normalize_close (d := d) hw (by nlinarith [sq_nonneg m.m00]) (by linarith) hpos
  have hr : 0 < Real.sqrt (1 - m.m00 ^ 2) := Real.sqrt_pos.mpr hpos
  have hr2 : (-m.m02) ^ 2 + (-m.m01) ^ 2 = Real.sqrt (1 - m.m00 ^ 2) ^ 2 := by
    rw [Real.sq_sqrt hpos.le]; linarith
  have gc := cos_atan2 hr hr2
  have gs := sin_atan2 hr hr2
  have s0 := Real.sqrt_nonneg (2 * d)
  have a1 : |m.m01| ≤ 1 := (sq_le_one_iff_abs_le_one _).mp (by nlinarith [sq_nonneg m.m02, sq_nonneg m.m00])
  have a2 : |m.m02| ≤ 1 := (sq_le_one_iff_abs_le_one _).mp (by nlinarith [sq_nonneg m.m01, sq_nonneg m.m00])
  have hone : |(-1:ℝ)| = 1 := by norm_num
  have ad : |d| = d := abs_of_nonneg hd0
  have p1 : |d * m.m01| ≤ d := by rw [abs_mul, ad]; nlinarith [abs_nonneg m.m01]
  have p2 : |d * m.m02| ≤ d := by rw [abs_mul, ad]; nlinarith [abs_nonneg m.m02]
  have q1 := abs_mul_le_of_sq h00 h22
  have q2 := abs_mul_le_of_sq h00 h21
  unfold matToEulerZYXIntr
  rw [if_neg hb]
  unfold eulerZYXToMatIntr
  simp only [gc, gs, sin_neg_pi_half, cos_neg_pi_half, Real.sin_zero, Real.cos_zero]
  generalize -m.m01 / Real.sqrt (1 - m.m00 ^ 2) = S at *
  generalize -m.m02 / Real.sqrt (1 - m.m00 ^ 2) = C at *
  rw [abs_sub_comm] at n1 n2
  constructor <;> simp only
  · rw [mul_zero, zero_sub, abs_neg]; linarith [abs_le_sqrt_of_sq h00]
  · rw [show 1 * -1 * S - 0 * C - m.m01 = -1 * (S - (-m.m01)) by ring, abs_mul (-1:ℝ), hone, one_mul]
    linarith
  · rw [show 1 * -1 * C + 0 * S - m.m02 = -1 * (C - (-m.m02)) by ring, abs_mul (-1:ℝ), hone, one_mul]
    linarith
  · rw [mul_zero, zero_sub, abs_neg]; linarith [abs_le_sqrt_of_sq h10]
  · refine abs_le_three (a := C - (-m.m02)) (b := -1 * (d * m.m02)) (c := -(m.m00 * m.m22)) ?_ ?_
    · rw [hd]; linear_combination e.a11
    · rw [abs_neg, abs_mul (-1:ℝ), hone, one_mul]; linarith
  · refine abs_le_three (a := -(S - (-m.m01))) (b := -(-1 * (d * m.m01))) (c := m.m00 * m.m21) ?_ ?_
    · rw [hd]; linear_combination e.a12
    · rw [abs_neg, abs_neg, abs_mul (-1:ℝ), hone, one_mul]; linarith
  · rw [show -(-1:ℝ) - m.m20 = -(-1 * d) by rw [hd]; ring, abs_neg, abs_mul (-1:ℝ), hone, one_mul, ad]; linarith
  · rw [zero_mul, zero_sub, abs_neg]; linarith [abs_le_sqrt_of_sq h21]
  · rw [zero_mul, zero_sub, abs_neg]; linarith [abs_le_sqrt_of_sq h22]

end Momentum
