import Verif.Lemmas.Euler
import Mathlib.Analysis.Real.Pi.Bounds

/-!
# C11, C12, C50, C51: Euler angles and rotation vectors
-/

namespace Momentum

/-- **C11** XYZ: the optimised conversion is `Rx Ry Rz` (intrinsic) or `Rz Ry Rx` (extrinsic), each
angle belonging to the axis it is named after. -/
theorem C11_eulerXYZ (a : Vec3 ℝ) :
    eulerXYZToRotationMatrix a .intrinsic = ((rotX a.x).mul (rotY a.y)).mul (rotZ a.z) ∧
    eulerXYZToRotationMatrix a .extrinsic = ((rotZ a.z).mul (rotY a.y)).mul (rotX a.x) :=
  ⟨eulerXYZ_intr_eq a, eulerZYX_intr_eq a.reverse⟩

/-- **C11** ZYX: first angle about z, last about x. -/
theorem C11_eulerZYX (a : Vec3 ℝ) :
    eulerZYXToRotationMatrix a .intrinsic = ((rotZ a.x).mul (rotY a.y)).mul (rotX a.z) ∧
    eulerZYXToRotationMatrix a .extrinsic = ((rotX a.z).mul (rotY a.y)).mul (rotZ a.x) :=
  ⟨eulerZYX_intr_eq a, eulerXYZ_intr_eq a.reverse⟩

/-- **C11** generic route through quaternions, any three axes. -/
theorem C11_eulerGeneric (a : Vec3 ℝ) (i j k : Fin 3) :
    eulerToRotationMatrix a i j k .intrinsic
      = ((rotAxis i a.x).mul (rotAxis j a.y)).mul (rotAxis k a.z) ∧
    eulerToRotationMatrix a i j k .extrinsic
      = ((rotAxis k a.z).mul (rotAxis j a.y)).mul (rotAxis i a.x) :=
  ⟨eulerToQuatIntr_toMat a i j k, eulerToQuatIntr_toMat a.reverse k j i⟩

/-- **C11** the optimised conversions agree with the generic one. -/
theorem C11_optimised_agrees (a : Vec3 ℝ) (c : EulerConvention) :
    eulerXYZToRotationMatrix a c = eulerToRotationMatrix a 0 1 2 c ∧
    eulerZYXToRotationMatrix a c = eulerToRotationMatrix a 2 1 0 c := by
  cases c
  · rw [(C11_eulerXYZ a).1, (C11_eulerZYX a).1, (C11_eulerGeneric a _ _ _).1,
      (C11_eulerGeneric a _ _ _).1]
    exact ⟨rfl, rfl⟩
  · rw [(C11_eulerXYZ a).2, (C11_eulerZYX a).2, (C11_eulerGeneric a _ _ _).2,
      (C11_eulerGeneric a _ _ _).2]
    exact ⟨rfl, rfl⟩

/-- **C11** every result is a rotation matrix. -/
theorem C11_isRotation (a : Vec3 ℝ) (i j k : Fin 3) (c : EulerConvention) :
    IsRotation (eulerToRotationMatrix a i j k c) ∧ IsRotation (eulerXYZToRotationMatrix a c) ∧
    IsRotation (eulerZYXToRotationMatrix a c) := by
  have g : ∀ i j k, IsRotation (eulerToRotationMatrix a i j k c) := by
    intro i j k
    cases c
    · rw [(C11_eulerGeneric a _ _ _).1]
      exact isRotation_mul (isRotation_mul (isRotation_rotAxis _ _) (isRotation_rotAxis _ _))
        (isRotation_rotAxis _ _)
    · rw [(C11_eulerGeneric a _ _ _).2]
      exact isRotation_mul (isRotation_mul (isRotation_rotAxis _ _) (isRotation_rotAxis _ _))
        (isRotation_rotAxis _ _)
  rw [(C11_optimised_agrees a c).1, (C11_optimised_agrees a c).2]
  exact ⟨g _ _ _, g _ _ _, g _ _ _⟩

/-- The order matters: the two conventions really differ (quarter turns about x and y). -/
example : eulerXYZToRotationMatrix ⟨Real.pi / 2, Real.pi / 2, 0⟩ .intrinsic ≠
    eulerXYZToRotationMatrix ⟨Real.pi / 2, Real.pi / 2, 0⟩ .extrinsic := by
  intro h
  have := congrArg Mat3.m01 h
  simp [eulerXYZToRotationMatrix, eulerXYZToMatIntr, eulerZYXToMatIntr, Vec3.reverse] at this

/-- The entry whose size decides whether the middle angle is near a quarter turn. -/
def eulerPivotXYZ (m : Mat3 ℝ) : EulerConvention → ℝ
  | .intrinsic => m.m02
  | .extrinsic => m.m20

/-- The same entry for the ZYX order. -/
def eulerPivotZYX (m : Mat3 ℝ) : EulerConvention → ℝ
  | .intrinsic => m.m20
  | .extrinsic => m.m02

theorem reverse_reverse (v : Vec3 ℝ) : v.reverse.reverse = v := rfl

/-- **C12** away from gimbal lock (the pivot entry farther than the tolerance from ±1) the round trip
matrix → angles → matrix is exact. -/
theorem C12_roundtrip_exact (m : Mat3 ℝ) (hm : IsRotation m) (tol : ℝ) (ht : 0 ≤ tol)
    (c : EulerConvention) :
    (|eulerPivotXYZ m c| < 1 - tol →
      eulerXYZToRotationMatrix (rotationMatrixToEulerXYZ tol m c) c = m) ∧
    (|eulerPivotZYX m c| < 1 - tol →
      eulerZYXToRotationMatrix (rotationMatrixToEulerZYX tol m c) c = m) := by
  constructor <;> intro h <;> rw [abs_lt] at h <;> cases c
  · exact eulerXYZ_roundtrip hm ht h.2 (by have := h.1; simp only [eulerPivotXYZ] at this; linarith)
  · exact eulerZYX_roundtrip hm ht h.2 (by have := h.1; simp only [eulerPivotXYZ] at this; linarith)
  · exact eulerZYX_roundtrip hm ht h.2 (by have := h.1; simp only [eulerPivotZYX] at this; linarith)
  · exact eulerXYZ_roundtrip hm ht h.2 (by have := h.1; simp only [eulerPivotZYX] at this; linarith)

theorem Mat3.Close.mono {a b : Mat3 ℝ} {e e' : ℝ} (h : a.Close e b) (he : e ≤ e') : a.Close e' b :=
  ⟨h.e00.trans he, h.e01.trans he, h.e02.trans he, h.e10.trans he, h.e11.trans he, h.e12.trans he,
    h.e20.trans he, h.e21.trans he, h.e22.trans he⟩

theorem Mat3.Close.eq {a b : Mat3 ℝ} (h : a.Close 0 b) : a = b := by
  have k : ∀ x y : ℝ, |x - y| ≤ 0 → x = y := fun x y h => by
    have := abs_nonpos_iff.mp h; linarith
  ext
  exacts [k _ _ h.e00, k _ _ h.e01, k _ _ h.e02, k _ _ h.e10, k _ _ h.e11, k _ _ h.e12,
    k _ _ h.e20, k _ _ h.e21, k _ _ h.e22]

/-- Round trip error for the two intrinsic conversions, in terms of the distance of the pivot
entry from ±1. -/
theorem eulerXYZ_intr_close {m : Mat3 ℝ} (hm : IsRotation m) {tol : ℝ} (ht : 0 ≤ tol) (ht2 : tol < 1 / 2) :
    eulerXYZToMatIntr (matToEulerXYZIntr tol m) = m ∨
    (1 - |m.m02| ≤ tol ∧ (eulerXYZToMatIntr (matToEulerXYZIntr tol m)).Close
      (Real.sqrt (2 * (1 - |m.m02|)) + 5 * (1 - |m.m02|)) m) := by
  by_cases h1 : m.m02 < 1 - tol
  · by_cases h2 : m.m02 > -1 + tol
    · exact .inl (eulerXYZ_roundtrip hm ht h1 h2)
    · right
      have : |m.m02| = -m.m02 := abs_of_neg (by linarith)
      rw [this, sub_neg_eq_add]
      exact ⟨by linarith, eulerXYZ_gimbal_neg hm (by linarith) h1 h2⟩
  · right
    have : |m.m02| = m.m02 := abs_of_pos (by linarith)
    rw [this]
    exact ⟨by linarith, eulerXYZ_gimbal_pos hm (by linarith) h1⟩

theorem eulerZYX_intr_close {m : Mat3 ℝ} (hm : IsRotation m) {tol : ℝ} (ht : 0 ≤ tol) (ht2 : tol < 1 / 2) :
    eulerZYXToMatIntr (matToEulerZYXIntr tol m) = m ∨
    (1 - |m.m20| ≤ tol ∧ (eulerZYXToMatIntr (matToEulerZYXIntr tol m)).Close
      (Real.sqrt (2 * (1 - |m.m20|)) + 5 * (1 - |m.m20|)) m) := by
  by_cases h1 : m.m20 < 1 - tol
  · by_cases h2 : m.m20 > -1 + tol
    · exact .inl (eulerZYX_roundtrip hm ht h1 h2)
    · right
      have : |m.m20| = -m.m20 := abs_of_neg (by linarith)
      rw [this, sub_neg_eq_add]
      exact ⟨by linarith, eulerZYX_gimbal_neg hm (by linarith) h1 h2⟩
  · right
    have : |m.m20| = m.m20 := abs_of_pos (by linarith)
    rw [this]
    exact ⟨by linarith, eulerZYX_gimbal_pos hm (by linarith) h1⟩

/-- **C12** exactly at gimbal lock (middle angle a quarter turn) the round trip is exact too. -/
theorem C12_roundtrip_gimbal (m : Mat3 ℝ) (hm : IsRotation m) (tol : ℝ) (ht : 0 ≤ tol)
    (ht2 : tol < 1 / 2) (c : EulerConvention) :
    (|eulerPivotXYZ m c| = 1 →
      eulerXYZToRotationMatrix (rotationMatrixToEulerXYZ tol m c) c = m) ∧
    (|eulerPivotZYX m c| = 1 →
      eulerZYXToRotationMatrix (rotationMatrixToEulerZYX tol m c) c = m) := by
  have hX : |m.m02| = 1 → eulerXYZToMatIntr (matToEulerXYZIntr tol m) = m := fun h => by
    rcases eulerXYZ_intr_close hm ht ht2 with h1 | ⟨_, h1⟩
    · exact h1
    · rw [h] at h1; apply h1.mono (e' := 0) _ |>.eq; simp
  have hZ : |m.m20| = 1 → eulerZYXToMatIntr (matToEulerZYXIntr tol m) = m := fun h => by
    rcases eulerZYX_intr_close hm ht ht2 with h1 | ⟨_, h1⟩
    · exact h1
    · rw [h] at h1; apply h1.mono (e' := 0) _ |>.eq; simp
  cases c
  · exact ⟨hX, hZ⟩
  · exact ⟨hZ, hX⟩

/-- **C12** for every rotation matrix (no exception) the round trip error is at most
`sqrt(2 tol) + 5 tol` per entry.  Missing from the full property: exactness for matrices strictly
inside the tolerance band, which fails (`C12_band_counterexample`). -/
theorem C12_roundtrip_partial (m : Mat3 ℝ) (hm : IsRotation m) (tol : ℝ) (ht : 0 ≤ tol)
    (ht2 : tol < 1 / 2) (c : EulerConvention) :
    (eulerXYZToRotationMatrix (rotationMatrixToEulerXYZ tol m c) c).Close
      (Real.sqrt (2 * tol) + 5 * tol) m ∧
    (eulerZYXToRotationMatrix (rotationMatrixToEulerZYX tol m c) c).Close
      (Real.sqrt (2 * tol) + 5 * tol) m := by
  have s0 := Real.sqrt_nonneg (2 * tol)
  have refl : m.Close (Real.sqrt (2 * tol) + 5 * tol) m := by
    constructor <;> rw [sub_self, abs_zero] <;> positivity
  have mono : ∀ d, d ≤ tol → Real.sqrt (2 * d) + 5 * d ≤ Real.sqrt (2 * tol) + 5 * tol := by
    intro d hd
    have := Real.sqrt_le_sqrt (show 2 * d ≤ 2 * tol by linarith)
    linarith
  have hX : (eulerXYZToMatIntr (matToEulerXYZIntr tol m)).Close (Real.sqrt (2 * tol) + 5 * tol) m := by
    rcases eulerXYZ_intr_close hm ht ht2 with h1 | ⟨h0, h1⟩
    · rw [h1]; exact refl
    · exact h1.mono (mono _ h0)
  have hZ : (eulerZYXToMatIntr (matToEulerZYXIntr tol m)).Close (Real.sqrt (2 * tol) + 5 * tol) m := by
    rcases eulerZYX_intr_close hm ht ht2 with h1 | ⟨h0, h1⟩
    · rw [h1]; exact refl
    · exact h1.mono (mono _ h0)
  cases c
  · exact ⟨hX, hZ⟩
  · exact ⟨hZ, hX⟩

/-- **C12** finding: for every positive tolerance below 1/2 some rotation matrix does not survive the
round trip exactly. -/
theorem C12_band_counterexample (tol : ℝ) (h0 : 0 < tol) (h1 : tol < 1 / 2) :
    ∃ m : Mat3 ℝ, IsRotation m ∧
      eulerXYZToRotationMatrix (rotationMatrixToEulerXYZ tol m .intrinsic) .intrinsic ≠ m := by
  refine ⟨rotY (Real.arcsin (1 - tol / 2)), isRotation_rotAxis 1 _, ?_⟩
  have hs : Real.sin (Real.arcsin (1 - tol / 2)) = 1 - tol / 2 :=
    Real.sin_arcsin (by linarith) (by linarith)
  intro h
  have := congrArg Mat3.m02 h
  simp only [eulerXYZToRotationMatrix, rotationMatrixToEulerXYZ, matToEulerXYZIntr, rotY, hs] at this
  rw [if_neg (by linarith)] at this
  simp only [eulerXYZToMatIntr, sin_pi_half] at this
  linarith

/-- The hypotheses of C12 are met by a rotation that is not near gimbal lock, and by one in gimbal lock. -/
example : IsRotation (rotX 1) ∧ |eulerPivotXYZ (rotX 1) .intrinsic| < 1 - 1 / 1000000 ∧
    IsRotation (rotY (Real.pi / 2)) ∧ |eulerPivotXYZ (rotY (Real.pi / 2)) .intrinsic| = 1 := by
  refine ⟨isRotation_rotAxis 0 _, ?_, isRotation_rotAxis 1 _, ?_⟩
  · simp [eulerPivotXYZ, rotX]; norm_num
  · simp [eulerPivotXYZ, rotY]

/-- **C50** for unit quaternions whose pitch is not ±90°, `quaternionToEuler` returns extrinsic XYZ
angles of the same rotation.  Missing: gimbal lock, where the result is wrong
(`C50_gimbal_counterexample`). -/
theorem C50_quaternionToEuler_partial (q : Quat ℝ) (hq : q.normSq = 1)
    (hp : |2 * (q.w * q.y - q.z * q.x)| < 1) :
    eulerXYZToRotationMatrix (quaternionToEuler q) .extrinsic = q.toMat := by
  have hm := Quat.isRotation_toMat hq
  rw [abs_lt] at hp
  have h20 : q.toMat.m20 = -(2 * (q.w * q.y - q.z * q.x)) := by simp [Quat.toMat]; ring
  have hz := eulerZYX_roundtrip hm le_rfl (by rw [h20]; linarith) (by rw [h20]; linarith)
  have : matToEulerZYXIntr 0 q.toMat = (quaternionToEuler q).reverse := by
    unfold matToEulerZYXIntr
    rw [if_pos (by rw [h20]; linarith), if_pos (by rw [h20]; linarith), h20]
    simp only [quaternionToEuler, Vec3.reverse, Quat.toMat, neg_neg]
    congr 2 <;> ring
  rw [this] at hz
  exact hz

/-- **C50** finding: at pitch 90° `quaternionToEuler` loses the remaining rotation. -/
theorem C50_gimbal_counterexample :
    ∃ q : Quat ℝ, q.normSq = 1 ∧
      eulerXYZToRotationMatrix (quaternionToEuler q) .extrinsic ≠ q.toMat := by
  refine ⟨⟨1 / 2, 1 / 2, 1 / 2, -(1 / 2)⟩, by norm_num [Quat.normSq], ?_⟩
  intro h
  have := congrArg Mat3.m11 h
  have a0 : atan2 0 0 = 0 := Complex.arg_zero
  have e : quaternionToEuler ⟨1 / 2, 1 / 2, 1 / 2, -(1 / 2)⟩ = ⟨0, Real.arcsin 1, 0⟩ := by
    unfold quaternionToEuler
    norm_num [a0]
  rw [e] at this
  norm_num [eulerXYZToRotationMatrix, eulerZYXToMatIntr, Vec3.reverse, Quat.toMat] at this

example : (⟨1, 0, 0, 0⟩ : Quat ℝ).normSq = 1 ∧
    |2 * ((1 : ℝ) * 0 - 0 * 0)| < 1 := by norm_num [Quat.normSq]

/-- The vector part of a unit quaternion, divided by the sine of its half angle, has unit length. -/
theorem rotVec_sqrt {x y z s a : ℝ} (hs : 0 < s) (h : x * x + y * y + z * z = s * s) :
    Real.sqrt (Vec3.sqNorm ⟨x * (1 / s) * a, y * (1 / s) * a, z * (1 / s) * a⟩) = |a| := by
  have : Vec3.sqNorm ⟨x * (1 / s) * a, y * (1 / s) * a, z * (1 / s) * a⟩ = a ^ 2 := by
    have h2 : x * (1 / s) * a * (x * (1 / s) * a) + y * (1 / s) * a * (y * (1 / s) * a)
        + z * (1 / s) * a * (z * (1 / s) * a) = (x * x + y * y + z * z) * a ^ 2 / (s * s) := by
      field_simp
    simp only [Vec3.sqNorm, Vec3.dot]
    rw [h2, h]
    field_simp
  rw [this, Real.sqrt_sq_eq_abs]

theorem angleAxis_abs {a s : ℝ} (x y z : ℝ) (ha : a ≠ 0) :
    Quat.angleAxis |a| ⟨x * (1 / s) * a / |a|, y * (1 / s) * a / |a|, z * (1 / s) * a / |a|⟩ =
      ⟨Real.cos (a / 2), Real.sin (a / 2) / s * x, Real.sin (a / 2) / s * y,
        Real.sin (a / 2) / s * z⟩ := by
  unfold Quat.angleAxis
  rcases lt_or_gt_of_ne ha with h | h
  · rw [abs_of_neg h, neg_div, Real.cos_neg, Real.sin_neg]
    simp only [Quat.mk.injEq, true_and]
    refine ⟨?_, ?_, ?_⟩ <;> field_simp
  · rw [abs_of_pos h]
    simp only [Quat.mk.injEq, true_and]
    refine ⟨?_, ?_, ?_⟩ <;> field_simp

/-- **C51** quaternion → rotation vector → quaternion gives the same quaternion up to sign (hence the
same rotation), for every unit quaternion at least the code's tolerance away from the identity. -/
theorem C51_quat_rotvec_quat (q : Quat ℝ) (hq : q.normSq = 1) (hw : q.w * q.w ≤ 1 - 1 / 10 ^ 7) :
    let r := rotVecToQuaternion (1 / 10 ^ 5) (quaternionToRotVec (1 / 10 ^ 7) q)
    (r = q ∨ r = ⟨-q.w, -q.x, -q.y, -q.z⟩) ∧ r.toMat = q.toMat := by
  intro r
  suffices h : r = q ∨ r = ⟨-q.w, -q.x, -q.y, -q.z⟩ by
    refine ⟨h, ?_⟩
    rcases h with h | h <;> rw [h]
    ext <;> simp [Quat.toMat]
  have hs0 : 0 < 1 - q.w * q.w := by norm_num at hw ⊢; linarith
  have hpi := Real.pi_pos
  have hs : 0 < Real.sqrt (1 - q.w * q.w) := Real.sqrt_pos.mpr hs0
  have hs2 : Real.sqrt (1 - q.w * q.w) * Real.sqrt (1 - q.w * q.w) = 1 - q.w * q.w :=
    Real.mul_self_sqrt hs0.le
  have hv : q.x * q.x + q.y * q.y + q.z * q.z =
      Real.sqrt (1 - q.w * q.w) * Real.sqrt (1 - q.w * q.w) := by
    rw [hs2]; simp only [Quat.normSq] at hq; linarith
  have hbig : 1 / 10 ^ 5 ≤ 2 * Real.sqrt (1 - q.w * q.w) := by
    have h1 : (1 / 10 ^ 5 : ℝ) ≤ Real.sqrt (1 - q.w * q.w) := by
      apply Real.le_sqrt_of_sq_le; norm_num at hw ⊢; linarith
    linarith
  have hw1 : -1 ≤ q.w := by nlinarith
  have hw2 : q.w ≤ 1 := by nlinarith
  have hcos := Real.cos_arccos hw1 hw2
  have hsin : Real.sin (Real.arccos q.w) = Real.sqrt (1 - q.w * q.w) := by
    rw [Real.sin_arccos, sq]
  have key : ∀ a : ℝ, |Real.sin (a / 2)| = Real.sqrt (1 - q.w * q.w) → a ≠ 0 ∧ ¬ |a| < 1 / 10 ^ 5 := by
    intro a ha
    have h1 : |Real.sin (a / 2)| ≤ |a / 2| := Real.abs_sin_le_abs
    rw [ha, abs_div, abs_two] at h1
    have h2 : 2 * Real.sqrt (1 - q.w * q.w) ≤ |a| := by linarith
    refine ⟨fun h => ?_, by linarith⟩
    rw [h, abs_zero] at h2; linarith
  simp only [r, quaternionToRotVec]
  rw [if_neg (by linarith), if_neg (by linarith [Real.arccos_nonneg q.w])]
  by_cases hneg : 2 * Real.arccos q.w > Real.pi
  · right
    rw [if_pos hneg]
    set a := -2 * Real.pi + 2 * Real.arccos q.w with ha
    have ha2 : a / 2 = Real.arccos q.w - Real.pi := by rw [ha]; ring
    have hsn : Real.sin (a / 2) = -Real.sqrt (1 - q.w * q.w) := by
      rw [ha2, Real.sin_sub_pi, hsin]
    have hcs : Real.cos (a / 2) = -q.w := by rw [ha2, Real.cos_sub_pi, hcos]
    obtain ⟨k1, k2⟩ := key a (by rw [hsn, abs_neg, abs_of_pos hs])
    unfold rotVecToQuaternion
    simp only [rotVec_sqrt hs hv]
    rw [if_neg k2, angleAxis_abs _ _ _ k1, hsn, hcs, neg_div, div_self hs.ne']
    simp only [neg_mul, one_mul]
  · left
    rw [if_neg hneg]
    set a := 2 * Real.arccos q.w with ha
    have ha2 : a / 2 = Real.arccos q.w := by rw [ha]; ring
    have hsn : Real.sin (a / 2) = Real.sqrt (1 - q.w * q.w) := by rw [ha2, hsin]
    have hcs : Real.cos (a / 2) = q.w := by rw [ha2, hcos]
    obtain ⟨k1, k2⟩ := key a (by rw [hsn, abs_of_pos hs])
    unfold rotVecToQuaternion
    simp only [rotVec_sqrt hs hv]
    rw [if_neg k2, angleAxis_abs _ _ _ k1, hsn, hcs, div_self hs.ne']
    simp only [one_mul]

/-- **C51** inside the tolerance the round trip returns the identity rotation, and the rotation matrix
is wrong by less than 1/1000 per entry. -/
theorem C51_quat_rotvec_quat_small (q : Quat ℝ) (hq : q.normSq = 1)
    (hw : 1 - 1 / 10 ^ 7 < q.w * q.w) :
    (rotVecToQuaternion (1 / 10 ^ 5) (quaternionToRotVec (1 / 10 ^ 7) q)).toMat.Close
      (1 / 1000) q.toMat := by
  have h1 : quaternionToRotVec (1 / 10 ^ 7) q = 0 := by
    unfold quaternionToRotVec; simp only; rw [if_pos hw]
  have h2 : rotVecToQuaternion (1 / 10 ^ 5) (0 : Vec3 ℝ) = Quat.one := by
    unfold rotVecToQuaternion
    have : Vec3.sqNorm (0 : Vec3 ℝ) = 0 := by simp [Vec3.sqNorm, Vec3.dot]
    simp only [this, Real.sqrt_zero]
    rw [if_pos (by norm_num)]
  rw [h1, h2]
  simp only [Quat.normSq] at hq
  have hv : q.x * q.x + q.y * q.y + q.z * q.z < 1 / 10 ^ 7 := by linarith
  have hw1 : |q.w| ≤ 1 := (sq_le_one_iff_abs_le_one _).mp (by nlinarith [sq_nonneg q.x, sq_nonneg q.y, sq_nonneg q.z])
  have b : ∀ t : ℝ, t * t < 1 / 10 ^ 7 → |t * q.w| ≤ 1 / 2500 := by
    intro t ht
    have : |t| ≤ 1 / 2500 := by
      apply abs_le_of_sq_le_sq _ (by norm_num)
      norm_num at ht ⊢; nlinarith
    rw [abs_mul]
    calc |t| * |q.w| ≤ 1 / 2500 * 1 := mul_le_mul this hw1 (abs_nonneg _) (by norm_num)
      _ = _ := by ring
  have bx := b q.x (by nlinarith [sq_nonneg q.y, sq_nonneg q.z])
  have by' := b q.y (by nlinarith [sq_nonneg q.x, sq_nonneg q.z])
  have bz := b q.z (by nlinarith [sq_nonneg q.x, sq_nonneg q.y])
  rw [abs_le] at bx by' bz
  norm_num at hv
  have x2 := mul_self_nonneg q.x
  have y2 := mul_self_nonneg q.y
  have z2 := mul_self_nonneg q.z
  have xy1 := mul_self_nonneg (q.x + q.y)
  have xy2 := mul_self_nonneg (q.x - q.y)
  have xz1 := mul_self_nonneg (q.x + q.z)
  have xz2 := mul_self_nonneg (q.x - q.z)
  have yz1 := mul_self_nonneg (q.y + q.z)
  have yz2 := mul_self_nonneg (q.y - q.z)
  constructor <;> simp only [Quat.toMat, Quat.one] <;> rw [abs_le] <;> constructor <;> linarith

/-- **C51** rotation vector → quaternion → rotation vector is the identity for every vector of length
between 1/1000 and half a turn (inclusive). -/
theorem C51_rotvec_quat_rotvec (v : Vec3 ℝ) (h1 : 1 / 1000 ≤ Real.sqrt v.sqNorm)
    (h2 : Real.sqrt v.sqNorm ≤ Real.pi) :
    quaternionToRotVec (1 / 10 ^ 7) (rotVecToQuaternion (1 / 10 ^ 5) v) = v := by
  set a := Real.sqrt v.sqNorm with ha
  have hpi := Real.pi_pos
  have hpi3 := Real.pi_lt_d2
  have hapos : 0 < a := by linarith
  have hsin : a / Real.pi ≤ Real.sin (a / 2) := by
    have := Real.mul_le_sin (x := a / 2) (by linarith) (by linarith)
    calc a / Real.pi = 2 / Real.pi * (a / 2) := by field_simp
      _ ≤ _ := this
  have hsp : 1 / 3150 ≤ Real.sin (a / 2) := by
    refine le_trans ?_ hsin
    rw [le_div_iff₀ hpi]; linarith
  have hss := Real.sin_sq_add_cos_sq (a / 2)
  have hww : ¬ Real.cos (a / 2) * Real.cos (a / 2) > 1 - 1 / 10 ^ 7 := by
    norm_num; nlinarith
  have harc : Real.arccos (Real.cos (a / 2)) = a / 2 := Real.arccos_cos (by linarith) (by linarith)
  have hsq : Real.sqrt (1 - Real.cos (a / 2) * Real.cos (a / 2)) = Real.sin (a / 2) := by
    rw [show 1 - Real.cos (a / 2) * Real.cos (a / 2) = Real.sin (a / 2) ^ 2 by linarith,
      Real.sqrt_sq (by linarith)]
  unfold rotVecToQuaternion
  simp only [← ha]
  rw [if_neg (by norm_num; linarith)]
  unfold quaternionToRotVec Quat.angleAxis
  simp only [harc, hsq]
  rw [if_neg hww, if_neg (by linarith), if_neg (by linarith)]
  have hne : Real.sin (a / 2) ≠ 0 := by intro h; rw [h] at hsp; norm_num at hsp
  ext <;> simp only <;> field_simp

example : (⟨0, 3 / 5, 0, 4 / 5⟩ : Quat ℝ).normSq = 1 ∧ (0 : ℝ) * 0 ≤ 1 - 1 / 10 ^ 7 := by
  norm_num [Quat.normSq]

example : 1 / 1000 ≤ Real.sqrt (Vec3.sqNorm ⟨1, 0, 0⟩) ∧ Real.sqrt (Vec3.sqNorm ⟨1, 0, 0⟩) ≤ Real.pi := by
  have : Vec3.sqNorm (⟨1, 0, 0⟩ : Vec3 ℝ) = 1 := by norm_num [Vec3.sqNorm, Vec3.dot]
  rw [this, Real.sqrt_one]
  exact ⟨by norm_num, by linarith [Real.pi_gt_three]⟩

end Momentum
