import Verif.Lemmas.Transform
import Verif.Lemmas.Rotation

/-!
# C01, C02, C03: transforms (momentum/math/transform.h, transform.cpp)

`q.normSq = 1` says the rotation quaternion is a unit quaternion.
-/

namespace Momentum
open Transform

/-- **C01** (composition).  Applying a product applies the right factor first, then the left one. -/
theorem C01_transformPoint_mul {K : Type*} [CommRing K] (A B : Transform K)
    (hA : A.rotation.normSq = 1) (hB : B.rotation.normSq = 1) (p : Vec3 K) :
    (A * B).transformPoint p = A.transformPoint (B.transformPoint p) :=
  transformPoint_mul hA hB p

/-- **C01** (associativity and closure under products). -/
theorem C01_mul_assoc {K : Type*} [CommRing K] (A B C : Transform K)
    (hA : A.rotation.normSq = 1) (hB : B.rotation.normSq = 1) :
    (A * B) * C = A * (B * C) ∧ (A * B).rotation.normSq = 1 :=
  ⟨mul_assoc' hA hB C, Transform.normSq_mul hA hB⟩

/-- **C01** (identity).  The default-constructed transform is a two-sided identity and fixes every
point. -/
theorem C01_identity {K : Type*} [CommRing K] (A : Transform K) (p : Vec3 K) :
    one * A = A ∧ A * one = A ∧ (one : Transform K).transformPoint p = p := by
  refine ⟨one_mul' A, mul_one' A, ?_⟩
  simp [transformPoint, one]

/-- A rotation about z with the rational unit quaternion (3/5, 0, 0, 4/5),
a translation and a non-trivial scale: used as the witness that hypotheses can be met. -/
def exTransform : Transform ℚ := ⟨⟨3 / 5, 0, 0, 4 / 5⟩, ⟨1, 2, 3⟩, 2⟩

example : exTransform.rotation.normSq = 1 ∧ exTransform.scale ≠ 0 ∧
    exTransform.transformPoint ⟨1, 0, 0⟩ = ⟨11 / 25, 98 / 25, 3⟩ := by
  refine ⟨by norm_num [exTransform, Quat.normSq], by norm_num [exTransform], ?_⟩
  ext <;> norm_num [exTransform, transformPoint, Quat.rotate, Quat.vec]

/-- **C02**.  For a unit quaternion and non-zero scale, `inverse()` is a two-sided inverse of the
transform and undoes (and is undone by) the point map. -/
theorem C02_inverse {K : Type*} [Field K] [DecidableEq K] (A : Transform K)
    (hA : A.rotation.normSq = 1) (hs : A.scale ≠ 0) :
    A * A.inverse = one ∧ A.inverse * A = one ∧
    (∀ p, A.inverse.transformPoint (A.transformPoint p) = p) ∧
    (∀ p, A.transformPoint (A.inverse.transformPoint p) = p) := by
  refine ⟨mul_inverse hA hs, inverse_mul hA hs, fun p => ?_, fun p => ?_⟩
  · rw [← transformPoint_mul (normSq_inverse hA) hA, inverse_mul hA hs]; simp [transformPoint, one]
  · rw [← transformPoint_mul hA (normSq_inverse hA), mul_inverse hA hs]; simp [transformPoint, one]

/-- **C02** (consequence).  `inverse()` of a product is the reversed product of the inverses. -/
theorem C02_inverse_mul {K : Type*} [Field K] [DecidableEq K] (A B : Transform K)
    (hA : A.rotation.normSq = 1) (hB : B.rotation.normSq = 1) (ha : A.scale ≠ 0)
    (hb : B.scale ≠ 0) : (A * B).inverse = B.inverse * A.inverse ∧ A.inverse.inverse = A := by
  have hAB := Transform.normSq_mul hA hB
  have hAi := normSq_inverse hA
  have hBi := normSq_inverse hB
  constructor
  · have h1 : (A * B).inverse * (A * B) * (B.inverse * A.inverse) = B.inverse * A.inverse := by
      rw [inverse_mul hAB (mul_ne_zero ha hb), one_mul']
    rw [← h1, mul_assoc' (normSq_inverse hAB) hAB, mul_assoc' hA hB,
      ← mul_assoc' hB hBi A.inverse, mul_inverse hB hb, one_mul', mul_inverse hA ha, mul_one']
  · have hs : A.inverse.scale ≠ 0 := by simp [Transform.inverse, ha]
    calc A.inverse.inverse = A.inverse.inverse * (A.inverse * A) := by
          rw [inverse_mul hA ha, mul_one']
      _ = A := by
          rw [← mul_assoc' (normSq_inverse hAi) hAi, inverse_mul hAi hs, one_mul']

/-- **C03** (products and points).  The 4x4 matrix of a product is the product of the 4x4 matrices,
and multiplying the matrix with `(p, 1)` gives `(transformPoint p, 1)`. -/
theorem C03_toMatrix {K : Type*} [CommRing K] (A B : Transform K)
    (hA : A.rotation.normSq = 1) (hB : B.rotation.normSq = 1) (p : Vec3 K) :
    (A * B).toMatrix = A.toMatrix * B.toMatrix ∧
    A.toMatrix.mulVec ![p.x, p.y, p.z, 1] =
      ![(A.transformPoint p).x, (A.transformPoint p).y, (A.transformPoint p).z, 1] := by
  constructor
  · have hl := toLinear_mul hA hB
    have ht : (A * B).translation = A.translation + A.toLinear.mulVec B.translation := by
      rw [toLinear_mulVec]; rfl
    unfold toMatrix
    simp only [hl, ht]
    ext i j
    fin_cases i <;> fin_cases j <;>
      simp [Mat3.mul, Mat3.mulVec, Matrix.mul_apply, Fin.sum_univ_four] <;> ring
  · have h : A.transformPoint p = A.translation + A.toLinear.mulVec p := by
      rw [toLinear_mulVec]; rfl
    rw [h]
    ext i
    fin_cases i <;> simp [toMatrix, Mat3.mulVec, Matrix.mulVec, dotProduct, Fin.sum_univ_four] <;> ring

/-- **C03** (affine views).  `toAffine3`, the mixed product and `toLinear` all describe the same
point map. -/
theorem C03_affine {K : Type*} [CommRing K] (A B : Transform K)
    (hA : A.rotation.normSq = 1) (hB : B.rotation.normSq = 1) (p : Vec3 K) :
    A.toAffine3.apply p = A.transformPoint p ∧
    A.mulAffine B.toAffine3 = (A * B).toAffine3 ∧
    (A * B).toAffine3 = A.toAffine3 * B.toAffine3 := by
  refine ⟨?_, ?_, ?_⟩
  · simp [toAffine3, Affine.apply, toLinear_mulVec, transformPoint, add_comm]
  · simp only [mulAffine, toAffine3, toLinear_mul hA hB, mul_translation]
    rw [add_comm]
  · show _ = Affine.mul _ _
    simp only [Affine.mul, toAffine3, toLinear_mul hA hB, mul_translation, toLinear_mulVec]
    rw [add_comm]

/-- **C03** (the matrix determines the point map). -/
theorem C03_toMatrix_determines {K : Type*} [CommRing K] (A B : Transform K)
    (h : A.toMatrix = B.toMatrix) (p : Vec3 K) : A.transformPoint p = B.transformPoint p := by
  have key : ∀ C : Transform K, C.toMatrix.mulVec ![p.x, p.y, p.z, 1] =
      ![(C.transformPoint p).x, (C.transformPoint p).y, (C.transformPoint p).z, 1] := by
    intro C
    have h : C.transformPoint p = C.translation + C.toLinear.mulVec p := by
      rw [toLinear_mulVec]; rfl
    rw [h]
    ext i
    fin_cases i <;> simp [toMatrix, Mat3.mulVec, Matrix.mulVec, dotProduct, Fin.sum_univ_four] <;> ring
  have hA := key A
  rw [h, key B] at hA
  ext
  · simpa using (congrFun hA 0).symm
  · simpa using (congrFun hA 1).symm
  · simpa using (congrFun hA 2).symm

/-- **C03** (rotation part is a rotation).  The rotation matrix of a unit-quaternion transform is
orthogonal with determinant one. -/
theorem C03_isRotation {K : Type*} [CommRing K] (A : Transform K) (hA : A.rotation.normSq = 1) :
    IsRotation A.toRotationMatrix := Quat.isRotation_toMat hA

/-- **C03** (round trip through a matrix, reals).  If the scale is in the range accepted by the
checks of `fromMatrix`, converting a transform to a 4x4 matrix and back succeeds and gives a
transform with a unit quaternion, the same translation and scale, the same rotation matrix, and
therefore the same 4x4 matrix. -/
theorem C03_fromMatrix_toMatrix (eps : ℝ) (heps : 0 < eps) (A : Transform ℝ)
    (hA : A.rotation.normSq = 1) (h1 : eps ≤ A.scale) (h2 : A.scale < 1 / eps) :
    ∃ B, Transform.fromMatrix eps A.toMatrix = some B ∧ B.rotation.normSq = 1 ∧
      B.scale = A.scale ∧ B.translation = A.translation ∧
      B.toRotationMatrix = A.toRotationMatrix ∧ B.toMatrix = A.toMatrix := by
  have hpos : 0 < A.scale := lt_of_lt_of_le heps h1
  have e := (Quat.isRotation_toMat hA).eqs
  have hscale : Real.sqrt (A.toMatrix 0 0 * A.toMatrix 0 0 + A.toMatrix 1 0 * A.toMatrix 1 0
      + A.toMatrix 2 0 * A.toMatrix 2 0) = A.scale := by
    have : A.toMatrix 0 0 * A.toMatrix 0 0 + A.toMatrix 1 0 * A.toMatrix 1 0
      + A.toMatrix 2 0 * A.toMatrix 2 0 = A.scale ^ 2 := by
      simp only [toMatrix, toLinear, toRotationMatrix, Mat3.smul, Matrix.of_apply,
        Matrix.cons_val', Matrix.cons_val_zero, Matrix.cons_val_one, Matrix.cons_val]
      linear_combination A.scale ^ 2 * e.c00
    rw [this, Real.sqrt_sq hpos.le]
  have hr : (⟨A.toMatrix 0 0 / A.scale, A.toMatrix 0 1 / A.scale, A.toMatrix 0 2 / A.scale,
      A.toMatrix 1 0 / A.scale, A.toMatrix 1 1 / A.scale, A.toMatrix 1 2 / A.scale,
      A.toMatrix 2 0 / A.scale, A.toMatrix 2 1 / A.scale, A.toMatrix 2 2 / A.scale⟩ : Mat3 ℝ)
      = A.rotation.toMat := by
    ext <;> simp [toMatrix, toLinear, toRotationMatrix, Mat3.smul, hpos.ne']
  obtain ⟨q1, q2⟩ := quatOfMat_spec (Quat.isRotation_toMat hA)
  refine ⟨⟨quatOfMat A.rotation.toMat, A.translation, A.scale⟩, ?_, q2, rfl, rfl, q1, ?_⟩
  · unfold Transform.fromMatrix
    simp only [hscale, hr]
    rw [if_pos ⟨h1, h2⟩]
    simp [toMatrix]
  · simp only [toMatrix, toLinear, toRotationMatrix, q1]

example : ∃ A : Transform ℝ, A.rotation.normSq = 1 ∧ (1e-7 : ℝ) ≤ A.scale ∧ A.scale < 1 / 1e-7 ∧
    A.translation ≠ 0 ∧ A.scale ≠ 1 := by
  refine ⟨⟨⟨3 / 5, 0, 0, 4 / 5⟩, ⟨1, 2, 3⟩, 2⟩, by norm_num [Quat.normSq], by norm_num, by norm_num,
    ?_, by norm_num⟩
  intro h
  have := congrArg Vec3.x h
  norm_num at this

end Momentum
