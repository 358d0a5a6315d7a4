import Verif.Spec.Rotation
import Verif.Lemmas.Transform
import Verif.Model.TransformReal
import Mathlib.Tactic.Linarith
import Mathlib.Tactic.Positivity

namespace Momentum
variable {K : Type*} [CommRing K]

/-- All scalar identities satisfied by a rotation matrix. -/
structure RotEqs (m : Mat3 K) : Prop where
  r00 : m.m00 * m.m00 + m.m01 * m.m01 + m.m02 * m.m02 = 1
  r11 : m.m10 * m.m10 + m.m11 * m.m11 + m.m12 * m.m12 = 1
  r22 : m.m20 * m.m20 + m.m21 * m.m21 + m.m22 * m.m22 = 1
  r01 : m.m00 * m.m10 + m.m01 * m.m11 + m.m02 * m.m12 = 0
  r02 : m.m00 * m.m20 + m.m01 * m.m21 + m.m02 * m.m22 = 0
  r12 : m.m10 * m.m20 + m.m11 * m.m21 + m.m12 * m.m22 = 0
  c00 : m.m00 * m.m00 + m.m10 * m.m10 + m.m20 * m.m20 = 1
  c11 : m.m01 * m.m01 + m.m11 * m.m11 + m.m21 * m.m21 = 1
  c22 : m.m02 * m.m02 + m.m12 * m.m12 + m.m22 * m.m22 = 1
  c01 : m.m00 * m.m01 + m.m10 * m.m11 + m.m20 * m.m21 = 0
  c02 : m.m00 * m.m02 + m.m10 * m.m12 + m.m20 * m.m22 = 0
  c12 : m.m01 * m.m02 + m.m11 * m.m12 + m.m21 * m.m22 = 0
  a00 : m.m11 * m.m22 - m.m12 * m.m21 = m.m00
  a01 : m.m12 * m.m20 - m.m10 * m.m22 = m.m01
  a02 : m.m10 * m.m21 - m.m11 * m.m20 = m.m02
  a10 : m.m02 * m.m21 - m.m01 * m.m22 = m.m10
  a11 : m.m00 * m.m22 - m.m02 * m.m20 = m.m11
  a12 : m.m01 * m.m20 - m.m00 * m.m21 = m.m12
  a20 : m.m01 * m.m12 - m.m02 * m.m11 = m.m20
  a21 : m.m02 * m.m10 - m.m00 * m.m12 = m.m21
  a22 : m.m00 * m.m11 - m.m01 * m.m10 = m.m22

theorem IsRotation.eqs {m : Mat3 K} (h : IsRotation m) : RotEqs m := by
  obtain ⟨ho, hd⟩ := h
  simp only [Mat3.mul, Mat3.transpose, Mat3.one, Mat3.mk.injEq] at ho
  obtain ⟨r00, r01, r02, r10, r11, r12, r20, r21, r22⟩ := ho
  simp only [Mat3.det] at hd
  have a00 : m.m11 * m.m22 - m.m12 * m.m21 = m.m00 := by
    linear_combination m.m00 * hd - (m.m11 * m.m22 - m.m12 * m.m21) * r00
      - (m.m02 * m.m21 - m.m01 * m.m22) * r01 - (m.m01 * m.m12 - m.m02 * m.m11) * r02
  have a01 : m.m12 * m.m20 - m.m10 * m.m22 = m.m01 := by
    linear_combination m.m01 * hd - (m.m12 * m.m20 - m.m10 * m.m22) * r00
      - (m.m00 * m.m22 - m.m02 * m.m20) * r01 - (m.m02 * m.m10 - m.m00 * m.m12) * r02
  have a02 : m.m10 * m.m21 - m.m11 * m.m20 = m.m02 := by
    linear_combination m.m02 * hd - (m.m10 * m.m21 - m.m11 * m.m20) * r00
      - (m.m01 * m.m20 - m.m00 * m.m21) * r01 - (m.m00 * m.m11 - m.m01 * m.m10) * r02
  have a10 : m.m02 * m.m21 - m.m01 * m.m22 = m.m10 := by
    linear_combination m.m10 * hd - (m.m11 * m.m22 - m.m12 * m.m21) * r10
      - (m.m02 * m.m21 - m.m01 * m.m22) * r11 - (m.m01 * m.m12 - m.m02 * m.m11) * r12
  have a11 : m.m00 * m.m22 - m.m02 * m.m20 = m.m11 := by
    linear_combination m.m11 * hd - (m.m12 * m.m20 - m.m10 * m.m22) * r10
      - (m.m00 * m.m22 - m.m02 * m.m20) * r11 - (m.m02 * m.m10 - m.m00 * m.m12) * r12
  have a12 : m.m01 * m.m20 - m.m00 * m.m21 = m.m12 := by
    linear_combination m.m12 * hd - (m.m10 * m.m21 - m.m11 * m.m20) * r10
      - (m.m01 * m.m20 - m.m00 * m.m21) * r11 - (m.m00 * m.m11 - m.m01 * m.m10) * r12
  have a20 : m.m01 * m.m12 - m.m02 * m.m11 = m.m20 := by
    linear_combination m.m20 * hd - (m.m11 * m.m22 - m.m12 * m.m21) * r20
      - (m.m02 * m.m21 - m.m01 * m.m22) * r21 - (m.m01 * m.m12 - m.m02 * m.m11) * r22
  have a21 : m.m02 * m.m10 - m.m00 * m.m12 = m.m21 := by
    linear_combination m.m21 * hd - (m.m12 * m.m20 - m.m10 * m.m22) * r20
      - (m.m00 * m.m22 - m.m02 * m.m20) * r21 - (m.m02 * m.m10 - m.m00 * m.m12) * r22
  have a22 : m.m00 * m.m11 - m.m01 * m.m10 = m.m22 := by
    linear_combination m.m22 * hd - (m.m10 * m.m21 - m.m11 * m.m20) * r20
      - (m.m01 * m.m20 - m.m00 * m.m21) * r21 - (m.m00 * m.m11 - m.m01 * m.m10) * r22
  refine ⟨r00, r11, r22, r01, r02, r12, ?_, ?_, ?_, ?_, ?_, ?_,
    a00, a01, a02, a10, a11, a12, a20, a21, a22⟩
  · linear_combination hd - m.m00 * a00 - m.m10 * a10 - m.m20 * a20
  · linear_combination hd - m.m01 * a01 - m.m11 * a11 - m.m21 * a21
  · linear_combination hd - m.m02 * a02 - m.m12 * a12 - m.m22 * a22
  · linear_combination - m.m01 * a00 - m.m11 * a10 - m.m21 * a20
  · linear_combination - m.m02 * a00 - m.m12 * a10 - m.m22 * a20
  · linear_combination - m.m02 * a01 - m.m12 * a11 - m.m22 * a21

theorem Quat.isRotation_toMat {q : Quat K} (h : q.normSq = 1) : IsRotation q.toMat := by
  simp only [Quat.normSq] at h
  have h2 : q.w * q.w = 1 - (q.x * q.x + q.y * q.y + q.z * q.z) := by linear_combination h
  constructor
  · ext <;> simp only [Mat3.mul, Mat3.transpose, Mat3.one, Quat.toMat]
    · linear_combination (4 * q.y ^ 2 + 4 * q.z ^ 2) * h
    · linear_combination (-4 * q.x * q.y) * h
    · linear_combination (-4 * q.x * q.z) * h
    · linear_combination (-4 * q.x * q.y) * h
    · linear_combination (4 * q.x ^ 2 + 4 * q.z ^ 2) * h
    · linear_combination (-4 * q.z * q.y) * h
    · linear_combination (-4 * q.x * q.z) * h
    · linear_combination (-4 * q.z * q.y) * h
    · linear_combination (4 * q.x ^ 2 + 4 * q.y ^ 2) * h
  · simp only [Mat3.det, Quat.toMat]
    linear_combination (4 * (q.x ^ 2 + q.y ^ 2 + q.z ^ 2)) * h

private theorem aux1 {s : ℝ} (hs : s ≠ 0) (a : ℝ) : 4 * (((1 / 2) * s) * (a * ((1 / 2) / s))) = a := by
  field_simp; ring

private theorem aux1' {s : ℝ} (hs : s ≠ 0) (a : ℝ) : 4 * ((a * ((1 / 2) / s)) * ((1 / 2) * s)) = a := by
  field_simp; ring

private theorem aux2 {s T a b u : ℝ} (hs : s ≠ 0) (hT : s * s = T) (h : a * b = T * u) :
    4 * ((a * ((1 / 2) / s)) * (b * ((1 / 2) / s))) = u := by
  have : 4 * ((a * ((1 / 2) / s)) * (b * ((1 / 2) / s))) = (a * b) / (s * s) := by
    field_simp; ring
  rw [this, h, hT, mul_div_assoc, mul_comm, div_mul_cancel₀]
  rw [← hT]; exact mul_ne_zero hs hs

private theorem aux3 {m : Mat3 ℝ} {q : Quat ℝ}
    (ww : 4 * (q.w * q.w) = m.m00 + m.m11 + m.m22 + 1)
    (xx : 4 * (q.x * q.x) = m.m00 - m.m11 - m.m22 + 1)
    (yy : 4 * (q.y * q.y) = m.m11 - m.m22 - m.m00 + 1)
    (zz : 4 * (q.z * q.z) = m.m22 - m.m00 - m.m11 + 1)
    (wx : 4 * (q.w * q.x) = m.m21 - m.m12) (wy : 4 * (q.w * q.y) = m.m02 - m.m20)
    (wz : 4 * (q.w * q.z) = m.m10 - m.m01) (xy : 4 * (q.x * q.y) = m.m10 + m.m01)
    (xz : 4 * (q.x * q.z) = m.m20 + m.m02) (yz : 4 * (q.y * q.z) = m.m21 + m.m12) :
    q.toMat = m ∧ q.normSq = 1 := by
  refine ⟨?_, ?_⟩
  · ext <;> simp only [Quat.toMat] <;> linarith
  · simp only [Quat.normSq]; linarith

theorem quatOfMat_spec {m : Mat3 ℝ} (hm : IsRotation m) :
    (quatOfMat m).toMat = m ∧ (quatOfMat m).normSq = 1 := by
  have e := hm.eqs
  have q011 : (m.m21 - m.m12) * (m.m21 - m.m12) = (m.m00 + m.m11 + m.m22 + 1) * (m.m00 - m.m11 - m.m22 + 1) := by
    linear_combination 2 * e.a00 - e.c00 + e.r11 + e.r22
  have q012 : (m.m21 - m.m12) * (m.m02 - m.m20) = (m.m00 + m.m11 + m.m22 + 1) * (m.m10 + m.m01) := by
    linear_combination - e.r01 - e.c01 + e.a01 + e.a10
  have q013 : (m.m21 - m.m12) * (m.m10 - m.m01) = (m.m00 + m.m11 + m.m22 + 1) * (m.m20 + m.m02) := by
    linear_combination - e.r02 - e.c02 + e.a02 + e.a20
  have q022 : (m.m02 - m.m20) * (m.m02 - m.m20) = (m.m00 + m.m11 + m.m22 + 1) * (m.m11 - m.m22 - m.m00 + 1) := by
    linear_combination 2 * e.a11 + e.r00 - e.c11 + e.r22
  have q023 : (m.m02 - m.m20) * (m.m10 - m.m01) = (m.m00 + m.m11 + m.m22 + 1) * (m.m21 + m.m12) := by
    linear_combination - e.r12 - e.c12 + e.a12 + e.a21
  have q033 : (m.m10 - m.m01) * (m.m10 - m.m01) = (m.m00 + m.m11 + m.m22 + 1) * (m.m22 - m.m00 - m.m11 + 1) := by
    linear_combination 2 * e.a22 + e.c00 + e.c11 - e.r22
  have q100 : (m.m21 - m.m12) * (m.m21 - m.m12) = (m.m00 - m.m11 - m.m22 + 1) * (m.m00 + m.m11 + m.m22 + 1) := by
    linear_combination 2 * e.a00 - e.c00 + e.r11 + e.r22
  have q102 : (m.m21 - m.m12) * (m.m10 + m.m01) = (m.m00 - m.m11 - m.m22 + 1) * (m.m02 - m.m20) := by
    linear_combination e.r02 - e.c02 + e.a02 - e.a20
  have q103 : (m.m21 - m.m12) * (m.m20 + m.m02) = (m.m00 - m.m11 - m.m22 + 1) * (m.m10 - m.m01) := by
    linear_combination - e.r01 + e.c01 - e.a01 + e.a10
  have q122 : (m.m10 + m.m01) * (m.m10 + m.m01) = (m.m00 - m.m11 - m.m22 + 1) * (m.m11 - m.m22 - m.m00 + 1) := by
    linear_combination - 2 * e.a22 + e.c00 + e.c11 - e.r22
  have q123 : (m.m10 + m.m01) * (m.m20 + m.m02) = (m.m00 - m.m11 - m.m22 + 1) * (m.m21 + m.m12) := by
    linear_combination e.r12 + e.c12 + e.a12 + e.a21
  have q133 : (m.m20 + m.m02) * (m.m20 + m.m02) = (m.m00 - m.m11 - m.m22 + 1) * (m.m22 - m.m00 - m.m11 + 1) := by
    linear_combination - 2 * e.a11 + e.r00 - e.c11 + e.r22
  have q200 : (m.m02 - m.m20) * (m.m02 - m.m20) = (m.m11 - m.m22 - m.m00 + 1) * (m.m00 + m.m11 + m.m22 + 1) := by
    linear_combination 2 * e.a11 + e.r00 - e.c11 + e.r22
  have q201 : (m.m02 - m.m20) * (m.m10 + m.m01) = (m.m11 - m.m22 - m.m00 + 1) * (m.m21 - m.m12) := by
    linear_combination - e.r12 + e.c12 - e.a12 + e.a21
  have q203 : (m.m02 - m.m20) * (m.m21 + m.m12) = (m.m11 - m.m22 - m.m00 + 1) * (m.m10 - m.m01) := by
    linear_combination e.r01 - e.c01 - e.a01 + e.a10
  have q211 : (m.m10 + m.m01) * (m.m10 + m.m01) = (m.m11 - m.m22 - m.m00 + 1) * (m.m00 - m.m11 - m.m22 + 1) := by
    linear_combination - 2 * e.a22 + e.c00 + e.c11 - e.r22
  have q213 : (m.m10 + m.m01) * (m.m21 + m.m12) = (m.m11 - m.m22 - m.m00 + 1) * (m.m20 + m.m02) := by
    linear_combination e.r02 + e.c02 + e.a02 + e.a20
  have q233 : (m.m21 + m.m12) * (m.m21 + m.m12) = (m.m11 - m.m22 - m.m00 + 1) * (m.m22 - m.m00 - m.m11 + 1) := by
    linear_combination - 2 * e.a00 - e.c00 + e.r11 + e.r22
  have q300 : (m.m10 - m.m01) * (m.m10 - m.m01) = (m.m22 - m.m00 - m.m11 + 1) * (m.m00 + m.m11 + m.m22 + 1) := by
    linear_combination 2 * e.a22 + e.c00 + e.c11 - e.r22
  have q301 : (m.m10 - m.m01) * (m.m20 + m.m02) = (m.m22 - m.m00 - m.m11 + 1) * (m.m21 - m.m12) := by
    linear_combination e.r12 - e.c12 - e.a12 + e.a21
  have q302 : (m.m10 - m.m01) * (m.m21 + m.m12) = (m.m22 - m.m00 - m.m11 + 1) * (m.m02 - m.m20) := by
    linear_combination - e.r02 + e.c02 + e.a02 - e.a20
  have q311 : (m.m20 + m.m02) * (m.m20 + m.m02) = (m.m22 - m.m00 - m.m11 + 1) * (m.m00 - m.m11 - m.m22 + 1) := by
    linear_combination - 2 * e.a11 + e.r00 - e.c11 + e.r22
  have q312 : (m.m20 + m.m02) * (m.m21 + m.m12) = (m.m22 - m.m00 - m.m11 + 1) * (m.m10 + m.m01) := by
    linear_combination e.r01 + e.c01 + e.a01 + e.a10
  have q322 : (m.m21 + m.m12) * (m.m21 + m.m12) = (m.m22 - m.m00 - m.m11 + 1) * (m.m11 - m.m22 - m.m00 + 1) := by
    linear_combination - 2 * e.a00 - e.c00 + e.r11 + e.r22
  have hsq : ∀ T : ℝ, 0 < T → Real.sqrt T ≠ 0 ∧ Real.sqrt T * Real.sqrt T = T := fun T hT =>
    ⟨(Real.sqrt_pos.mpr hT).ne', Real.mul_self_sqrt hT.le⟩
  have hs0 : ∀ s T : ℝ, s * s = T → 4 * (((1 / 2) * s) * ((1 / 2) * s)) = T := by
    intro s T h; rw [← h]; ring
  unfold quatOfMat
  simp only []
  split_ifs with h0 h1 h2 h2
  · obtain ⟨s0, s1⟩ := hsq (m.m00 + m.m11 + m.m22 + 1) (by linarith)
    apply aux3
    · exact hs0 _ _ s1
    · exact aux2 s0 s1 (by linear_combination q011)
    · exact aux2 s0 s1 (by linear_combination q022)
    · exact aux2 s0 s1 (by linear_combination q033)
    · refine (aux1 s0 _).trans ?_; ring
    · refine (aux1 s0 _).trans ?_; ring
    · refine (aux1 s0 _).trans ?_; ring
    · exact aux2 s0 s1 (by linear_combination q012)
    · exact aux2 s0 s1 (by linear_combination q013)
    · exact aux2 s0 s1 (by linear_combination q023)
  · obtain ⟨s0, s1⟩ := hsq (m.m22 - m.m00 - m.m11 + 1) (by linarith)
    apply aux3
    · exact aux2 s0 s1 (by linear_combination q300)
    · exact aux2 s0 s1 (by linear_combination q311)
    · exact aux2 s0 s1 (by linear_combination q322)
    · exact hs0 _ _ s1
    · exact aux2 s0 s1 (by linear_combination q301)
    · exact aux2 s0 s1 (by linear_combination q302)
    · refine (aux1' s0 _).trans ?_; ring
    · exact aux2 s0 s1 (by linear_combination q312)
    · refine (aux1' s0 _).trans ?_; ring
    · refine (aux1' s0 _).trans ?_; ring
  · obtain ⟨s0, s1⟩ := hsq (m.m11 - m.m22 - m.m00 + 1) (by linarith)
    apply aux3
    · exact aux2 s0 s1 (by linear_combination q200)
    · exact aux2 s0 s1 (by linear_combination q211)
    · exact hs0 _ _ s1
    · exact aux2 s0 s1 (by linear_combination q233)
    · exact aux2 s0 s1 (by linear_combination q201)
    · refine (aux1' s0 _).trans ?_; ring
    · exact aux2 s0 s1 (by linear_combination q203)
    · refine (aux1' s0 _).trans ?_; ring
    · exact aux2 s0 s1 (by linear_combination q213)
    · refine (aux1 s0 _).trans ?_; ring
  · obtain ⟨s0, s1⟩ := hsq (m.m22 - m.m00 - m.m11 + 1) (by linarith)
    apply aux3
    · exact aux2 s0 s1 (by linear_combination q300)
    · exact aux2 s0 s1 (by linear_combination q311)
    · exact aux2 s0 s1 (by linear_combination q322)
    · exact hs0 _ _ s1
    · exact aux2 s0 s1 (by linear_combination q301)
    · exact aux2 s0 s1 (by linear_combination q302)
    · refine (aux1' s0 _).trans ?_; ring
    · exact aux2 s0 s1 (by linear_combination q312)
    · refine (aux1' s0 _).trans ?_; ring
    · refine (aux1' s0 _).trans ?_; ring
  · obtain ⟨s0, s1⟩ := hsq (m.m00 - m.m11 - m.m22 + 1) (by linarith)
    apply aux3
    · exact aux2 s0 s1 (by linear_combination q100)
    · exact hs0 _ _ s1
    · exact aux2 s0 s1 (by linear_combination q122)
    · exact aux2 s0 s1 (by linear_combination q133)
    · refine (aux1' s0 _).trans ?_; ring
    · exact aux2 s0 s1 (by linear_combination q102)
    · exact aux2 s0 s1 (by linear_combination q103)
    · refine (aux1 s0 _).trans ?_; ring
    · refine (aux1 s0 _).trans ?_; ring
    · exact aux2 s0 s1 (by linear_combination q123)

end Momentum
