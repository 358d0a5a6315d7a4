import Verif.Lemmas.TensorQuat
import Verif.Props.Euler
import Mathlib.Algebra.BigOperators.Field

/-!
# C77: quaternions in tensors
-/

namespace Momentum

open TensorQuat

/-! ### Products, inverses, rotation of vectors -/

/-- **C77** the product of two rows is the product of the quaternions. -/
theorem C77_multiply {K : Type} [CommRing K] (p q : Fin 4 → K) :
    asQuat (quaternionMultiply p q) = asQuat p * asQuat q := by
  ext <;> simp [quaternionMultiply, asQuat, splitQuaternion, cat] <;> ring

/-- **C77** the identity changes nothing. -/
theorem C77_identity {K : Type} [CommRing K] (q : Fin 4 → K) :
    quaternionMultiply quaternionIdentity q = q ∧ quaternionMultiply q quaternionIdentity = q ∧
    IsUnit4 (quaternionIdentity : Fin 4 → K) := by
  refine ⟨asQuat_injective ?_, asQuat_injective ?_, ?_⟩
  · rw [C77_multiply]
    ext <;> simp [asQuat, quaternionIdentity]
  · rw [C77_multiply]
    ext <;> simp [asQuat, quaternionIdentity]
  · rw [IsUnit4, sum4]
    simp [quaternionIdentity]

/-- **C77** multiplying is associative, keeps unit quaternions and is the product of the matrices. -/
theorem C77_multiply_group {K : Type} [CommRing K] (p q r : Fin 4 → K) :
    quaternionMultiply (quaternionMultiply p q) r = quaternionMultiply p (quaternionMultiply q r) ∧
    (IsUnit4 p → IsUnit4 q → IsUnit4 (quaternionMultiply p q) ∧
      quaternionToRotationMatrix (quaternionMultiply p q) =
        (quaternionToRotationMatrix p).mul (quaternionToRotationMatrix q)) := by
  refine ⟨asQuat_injective ?_, fun hp hq => ?_⟩
  · simp only [C77_multiply]
    ext <;> simp <;> ring
  · rw [isUnit4_iff] at hp hq
    refine ⟨?_, ?_⟩
    · rw [isUnit4_iff, C77_multiply, Quat.normSq_mul, hp, hq, one_mul]
    · simp only [toRotationMatrix_eq, C77_multiply]
      exact Quat.toMat_mul hp hq

/-- **C77** the inverse: two-sided for every quaternion but zero, and not a number for zero. -/
theorem C77_inverse (q : Fin 4 → ℝ) :
    (q ≠ 0 → ∃ p, quaternionInverse q = some p ∧ quaternionMultiply p q = quaternionIdentity ∧
      quaternionMultiply q p = quaternionIdentity) ∧
    quaternionInverse (0 : Fin 4 → ℝ) = none := by
  refine ⟨fun hq => ?_, by simp [quaternionInverse]⟩
  have hn : (∑ k, q k * q k) ≠ 0 := by
    intro h
    apply hq
    funext k
    have := (Finset.sum_eq_zero_iff_of_nonneg (fun i _ => mul_self_nonneg (q i))).1 h k (Finset.mem_univ k)
    exact mul_self_eq_zero.1 this
  refine ⟨_, if_neg hn, ?_, ?_⟩
  · apply asQuat_injective
    rw [C77_multiply]
    rw [sum4] at hn ⊢
    generalize hN : q 0 * q 0 + q 1 * q 1 + q 2 * q 2 + q 3 * q 3 = N at hn
    ext <;> simp [asQuat, quaternionConjugate, quaternionIdentity, splitQuaternion, cat] <;> field_simp
    · linear_combination hN
    all_goals ring
  · apply asQuat_injective
    rw [C77_multiply]
    rw [sum4] at hn ⊢
    generalize hN : q 0 * q 0 + q 1 * q 1 + q 2 * q 2 + q 3 * q 3 = N at hn
    ext <;> simp [asQuat, quaternionConjugate, quaternionIdentity, splitQuaternion, cat] <;> field_simp
    · linear_combination hN
    all_goals ring

/-- **C77** for unit quaternions the inverse is the conjugate, a unit quaternion with the transposed matrix. -/
theorem C77_conjugate (q : Fin 4 → ℝ) (hq : IsUnit4 q) :
    quaternionInverse q = some (quaternionConjugate q) ∧ IsUnit4 (quaternionConjugate q) ∧
    quaternionToRotationMatrix (quaternionConjugate q) = (quaternionToRotationMatrix q).transpose := by
  refine ⟨?_, ?_, ?_⟩
  · unfold quaternionInverse
    rw [show ∑ k, q k * q k = 1 from hq]
    simp
  · rw [IsUnit4, sum4] at hq ⊢
    simp only [quaternionConjugate, splitQuaternion, cat]
    simpa using hq
  · ext <;> simp [quaternionToRotationMatrix, quaternionConjugate, splitQuaternion, cat, Mat3.transpose] <;> ring

/-- **C77** normalising keeps the direction and gives length one; it is not a number for zero. -/
theorem C77_normalize (q : Fin 4 → ℝ) :
    (q ≠ 0 → ∃ (r : Fin 4 → ℝ) (c : ℝ), quaternionNormalize q = some r ∧ IsUnit4 r ∧ 0 < c ∧ q = c • r) ∧
    quaternionNormalize 0 = none := by
  refine ⟨fun hq => ?_, by simp [quaternionNormalize]⟩
  have h0 : 0 ≤ ∑ k, q k * q k := Finset.sum_nonneg fun i _ => mul_self_nonneg (q i)
  have hn : (∑ k, q k * q k) ≠ 0 := by
    intro h
    apply hq
    funext k
    have := (Finset.sum_eq_zero_iff_of_nonneg (fun i _ => mul_self_nonneg (q i))).1 h k (Finset.mem_univ k)
    exact mul_self_eq_zero.1 this
  have hp : 0 < Real.sqrt (∑ k, q k * q k) := Real.sqrt_pos.2 (lt_of_le_of_ne h0 (Ne.symm hn))
  refine ⟨_, Real.sqrt (∑ k, q k * q k), if_neg hp.ne', ?_, hp, ?_⟩
  · have hs := Real.mul_self_sqrt h0
    set s := Real.sqrt (∑ k, q k * q k)
    have : ∀ k, q k / s * (q k / s) = q k * q k / (s * s) := fun k => div_mul_div_comm _ _ _ _
    unfold IsUnit4
    simp_rw [this]
    rw [← Finset.sum_div, hs, div_self hn]
  · funext k
    simp only [Pi.smul_apply, smul_eq_mul]
    exact (mul_div_cancel₀ (q k) hp.ne').symm

/-- **C77** rotating a vector is multiplying with the matrix, whatever the row; for unit quaternions it is q v q*. -/
theorem C77_rotate {K : Type} [CommRing K] (q : Fin 4 → K) (v : Vec3 K) :
    quaternionRotateVector q v = (quaternionToRotationMatrix q).mulVec v ∧
    (IsUnit4 q → asQuat (quaternionMultiply (quaternionMultiply q ![v.x, v.y, v.z, 0]) (quaternionConjugate q)) =
      ⟨0, (quaternionRotateVector q v).x, (quaternionRotateVector q v).y, (quaternionRotateVector q v).z⟩) := by
  refine ⟨?_, fun hq => ?_⟩
  · ext <;> simp [quaternionRotateVector, quaternionToRotationMatrix, splitQuaternion, Mat3.mulVec] <;> ring
  · rw [IsUnit4, sum4] at hq
    rw [C77_multiply, C77_multiply]
    ext <;> simp [asQuat, quaternionRotateVector, quaternionConjugate, splitQuaternion, cat]
    · ring
    · linear_combination v.x * hq
    · linear_combination v.y * hq
    · linear_combination v.z * hq

/-- **C77** the matrix of a unit quaternion is a rotation, and it is the same for the negative quaternion. -/
theorem C77_matrix (q : Fin 4 → ℝ) :
    (IsUnit4 q → IsRotation (quaternionToRotationMatrix q)) ∧
    quaternionToRotationMatrix (-q) = quaternionToRotationMatrix q := by
  refine ⟨fun hq => ?_, ?_⟩
  · rw [toRotationMatrix_eq]
    exact Quat.isRotation_toMat ((isUnit4_iff q).1 hq)
  · ext <;> simp [quaternionToRotationMatrix]

/-! ### Euler angles -/

/-- **C77** Euler angles give the unit quaternion of the rotation about x, then y, then z. -/
theorem C77_euler (e : Fin 3 → ℝ) :
    IsUnit4 (xyzEulerToQuaternion e) ∧
    quaternionToRotationMatrix (xyzEulerToQuaternion e) = ((rotZ (e 2)).mul (rotY (e 1))).mul (rotX (e 0)) := by
  have h := normSq_rotationAxis
  refine ⟨?_, ?_⟩
  · rw [isUnit4_iff, xyzEulerToQuaternion, asQuat_coeffs, xyzEulerToQuat_eq]
    unfold eulerToQuatIntr
    rw [Quat.normSq_mul, Quat.normSq_mul, h, h, h, one_mul, one_mul]
  · rw [toRotationMatrix_eq, xyzEulerToQuaternion, asQuat_coeffs, xyzEulerToQuat_eq, eulerToQuatIntr_toMat]
    rfl

/-- **C77** the backward pass of the Euler angles: the derivative of the weighted sum of the four coefficients for each angle. -/
theorem C77_euler_gradient (e : Fin 3 → ℝ) (g : Fin 4 → ℝ) (d : Fin 3) :
    HasDerivAt (fun t => ∑ k, g k * xyzEulerToQuaternion (Function.update e d t) k) (xyzEulerBackward e g d) (e d) := by
  have T : ∀ l, Momentum.Tracks (fun u => Function.update e d u l)
      (TrivSqZeroExt.inl (e l) + TrivSqZeroExt.inr (if l = d then 1 else 0)) (e d) := by
    intro l
    by_cases hl : l = d
    · subst hl
      refine ⟨by simp, ?_⟩
      have : (fun u => Function.update e l u l) = fun u : ℝ => u := by funext u; simp
      rw [this]
      simpa using hasDerivAt_id' (e l)
    · refine ⟨by simp [hl], ?_⟩
      have : (fun u => Function.update e d u l) = fun _ : ℝ => e l := by funext u; simp [hl]
      rw [this]
      simpa [hl] using hasDerivAt_const (e d) (e l)
  have Q : Momentum.TracksQ (fun u => xyzEulerToQuat (Function.update e d u))
      (xyzEulerToQuatJet fun l => TrivSqZeroExt.inl (e l) + TrivSqZeroExt.inr (if l = d then 1 else 0)) (e d) := by
    unfold xyzEulerToQuat xyzEulerToQuatJet
    simp only [List.foldl]
    exact (Momentum.TracksQ.angleAxis (T 2) _).mul ((Momentum.TracksQ.angleAxis (T 1) _).mul
      ((Momentum.TracksQ.angleAxis (T 0) _).mul (.const _ _)))
  obtain ⟨qw, qx, qy, qz⟩ := Q
  have c := fun k => Momentum.Tracks.const (g k) (e d)
  have S := (((qx.mul (c 0)).add (qy.mul (c 1))).add (qz.mul (c 2))).add (qw.mul (c 3))
  have e2 := S.2
  unfold xyzEulerBackward
  rw [sum4 (K := Jet)]
  refine e2.congr_of_eventuallyEq (Filter.Eventually.of_forall fun t => ?_)
  show ∑ k, g k * xyzEulerToQuaternion (Function.update e d t) k = _
  rw [sum4]
  simp only [xyzEulerToQuaternion, coeffs, Matrix.cons_val]
  ring

/-- **C77** every unit quaternion has Euler angles. -/
theorem C77_toEuler_defined (q : Fin 4 → ℝ) (hq : IsUnit4 q) : (quaternionToXYZEuler q).isSome := by
  rw [IsUnit4, sum4] at hq
  unfold quaternionToXYZEuler
  dsimp only
  rw [if_pos, Option.isSome_some]
  rw [abs_le]
  constructor <;> nlinarith [sq_nonneg (q 3 - q 1), sq_nonneg (q 3 + q 1), sq_nonneg (q 2 - q 0), sq_nonneg (q 2 + q 0)]

/-- **C77** the Euler angles of a unit quaternion whose pitch is not ±90° give the quaternion back, up to its sign.  Missing: the
gimbal lock, where the result is wrong (`C77_toEuler_wrong`). -/
theorem C77_toEuler_partial (q : Fin 4 → ℝ) (hq : IsUnit4 q) (hp : |2 * (q 3 * q 1 - q 2 * q 0)| < 1) :
    ∃ e, quaternionToXYZEuler q = some e ∧
      (xyzEulerToQuaternion ![e.x, e.y, e.z] = q ∨ xyzEulerToQuaternion ![e.x, e.y, e.z] = -q) := by
  refine ⟨quaternionToEuler (asQuat q), ?_, ?_⟩
  · unfold quaternionToXYZEuler
    dsimp only
    rw [if_pos hp.le]
    rfl
  · refine same_matrix hq (C77_euler _).1 ?_
    rw [(C77_euler _).2, toRotationMatrix_eq, ← C50_quaternionToEuler_partial (asQuat q) ((isUnit4_iff q).1 hq) hp,
      (C11_eulerXYZ _).2]
    rfl

/-- **C77** Euler angles with the pitch inside (-90°, 90°) and the others in (-180°, 180°] come back. -/
theorem C77_euler_roundtrip (e : Fin 3 → ℝ) (h0 : -Real.pi < e 0 ∧ e 0 ≤ Real.pi)
    (h1 : -(Real.pi / 2) < e 1 ∧ e 1 < Real.pi / 2) (h2 : -Real.pi < e 2 ∧ e 2 ≤ Real.pi) :
    quaternionToXYZEuler (xyzEulerToQuaternion e) = some ⟨e 0, e 1, e 2⟩ := by
  have hm := (C77_euler e).2
  set q := xyzEulerToQuaternion e
  have hc := Real.cos_pos_of_mem_Ioo h1
  simp only [quaternionToRotationMatrix, rotX, rotY, rotZ, Mat3.mul, Mat3.mk.injEq] at hm
  obtain ⟨m00, m01, m02, m10, m11, m12, m20, m21, m22⟩ := hm
  have e1 : 2 * (q 3 * q 0 + q 1 * q 2) = Real.cos (e 1) * Real.sin (e 0) := by linear_combination m21
  have e2 : 1 - 2 * (q 0 * q 0 + q 1 * q 1) = Real.cos (e 1) * Real.cos (e 0) := by linear_combination m22
  have e3 : 2 * (q 3 * q 1 - q 2 * q 0) = Real.sin (e 1) := by linear_combination -m20
  have e4 : 2 * (q 3 * q 2 + q 0 * q 1) = Real.cos (e 1) * Real.sin (e 2) := by linear_combination m10
  have e5 : 1 - 2 * (q 1 * q 1 + q 2 * q 2) = Real.cos (e 1) * Real.cos (e 2) := by linear_combination m00
  unfold quaternionToXYZEuler
  dsimp only
  rw [e1, e2, e3, e4, e5, if_pos (Real.abs_sin_le_one _), atan2_scaled hc h0.1 h0.2, atan2_scaled hc h2.1 h2.2,
    Real.arcsin_sin h1.1.le h1.2.le]

/-- **C77** finding: at pitch 90° the Euler angles belong to another rotation. -/
theorem C77_toEuler_wrong :
    ∃ (q : Fin 4 → ℝ) (e : Vec3 ℝ), IsUnit4 q ∧ quaternionToXYZEuler q = some e ∧
      quaternionToRotationMatrix (xyzEulerToQuaternion ![e.x, e.y, e.z]) ≠ quaternionToRotationMatrix q := by
  have a0 : atan2 0 0 = 0 := Complex.arg_zero
  refine ⟨![1 / 2, 1 / 2, -(1 / 2), 1 / 2], ⟨0, Real.arcsin 1, 0⟩, ?_, ?_, ?_⟩
  · rw [IsUnit4, sum4]
    simp
    norm_num
  · unfold quaternionToXYZEuler
    simp
    norm_num [a0]
  · intro h
    rw [(C77_euler _).2] at h
    have := congrArg Mat3.m11 h
    simp [rotX, rotY, rotZ, Mat3.mul, quaternionToRotationMatrix] at this
    norm_num at this

/-! ### From matrices -/

/-- **C77** for every rotation matrix, whichever eigenvectors the solver returns, the quaternion has length one, a scalar that is
not negative, and the matrix that was given. -/
theorem C77_fromMatrix (m : Mat3 ℝ) (hm : IsRotation m) (eig : Mat3 ℝ → Eig) (he : IsEig m (eig m)) :
    IsUnit4 (rotationMatrixToQuaternion eig m) ∧ 0 ≤ rotationMatrixToQuaternion eig m 3 ∧
    quaternionToRotationMatrix (rotationMatrixToQuaternion eig m) = m :=
  rotationMatrixToQuaternion_spec hm he

/-- **C77** a unit quaternion comes back from its matrix, up to its sign. -/
theorem C77_matrix_roundtrip (q : Fin 4 → ℝ) (hq : IsUnit4 q) (eig : Mat3 ℝ → Eig)
    (he : IsEig (quaternionToRotationMatrix q) (eig (quaternionToRotationMatrix q))) :
    rotationMatrixToQuaternion eig (quaternionToRotationMatrix q) = q ∨
    rotationMatrixToQuaternion eig (quaternionToRotationMatrix q) = -q := by
  obtain ⟨h1, -, h3⟩ := C77_fromMatrix _ ((C77_matrix q).1 hq) eig he
  exact same_matrix hq h1 h3.symm

/-! ### Blending -/

/-- **C77** the weights: not negative, sum to one, and proportional to the given weights with negative ones as zero. -/
theorem C77_weights {n : Nat} (w w' : Fin n → ℝ) (h : checkAndNormalizeWeights (some w) = some w') :
    (∀ i, 0 ≤ w' i) ∧ ∑ i, w' i = 1 ∧ ∃ c > 0, ∀ i, max (w i) 0 = c * w' i := by
  unfold checkAndNormalizeWeights at h
  simp only [Option.getD_some] at h
  split_ifs at h with hs
  simp only [Option.some.injEq] at h
  subst h
  have h0 : 0 ≤ ∑ i, max (w i) 0 := Finset.sum_nonneg fun i _ => le_max_right _ _
  have hp : 0 < ∑ i, max (w i) 0 := lt_of_le_of_ne h0 (Ne.symm hs)
  refine ⟨fun i => div_nonneg (le_max_right _ _) h0, ?_, _, hp, fun i => ?_⟩
  · rw [← Finset.sum_div, div_self hs]
  · field_simp

/-- **C77** the weights are numbers exactly if one is positive; without weights, if there is a quaternion. -/
theorem C77_weights_defined {n : Nat} (w : Fin n → ℝ) :
    ((checkAndNormalizeWeights (some w)).isSome ↔ ∃ i, 0 < w i) ∧
    ((checkAndNormalizeWeights (none : Option (Fin n → ℝ))).isSome ↔ 0 < n) ∧
    checkAndNormalizeWeights (none : Option (Fin n → ℝ)) = checkAndNormalizeWeights (some fun _ => 1) := by
  have key : ∀ w : Fin n → ℝ, (checkAndNormalizeWeights (some w)).isSome ↔ ∃ i, 0 < w i := by
    intro w
    unfold checkAndNormalizeWeights
    simp only [Option.getD_some]
    split_ifs with hs
    · simp only [Option.isSome_none, Bool.false_eq_true, false_iff, not_exists, not_lt]
      intro i
      have := (Finset.sum_eq_zero_iff_of_nonneg (fun i _ => le_max_right (w i) 0)).1 hs i (Finset.mem_univ i)
      rw [← this]
      exact le_max_left _ _
    · simp only [Option.isSome_some, true_iff]
      by_contra hc
      push Not at hc
      exact hs (Finset.sum_eq_zero fun i _ => max_eq_right (hc i))
  have hd : checkAndNormalizeWeights (none : Option (Fin n → ℝ)) = checkAndNormalizeWeights (some fun _ => 1) := rfl
  refine ⟨key w, ?_, hd⟩
  rw [hd, key]
  constructor
  · rintro ⟨i, -⟩
    exact lt_of_le_of_lt (Nat.zero_le _) i.isLt
  · intro h
    exact ⟨⟨0, h⟩, one_pos⟩

theorem agreement_scale {n : Nat} {q : Fin n → Fin 4 → ℝ} {w w' : Fin n → ℝ} {c : ℝ} (h : ∀ i, w i = c * w' i) (r : Fin 4 → ℝ) :
    agreement q w r = c * agreement q w' r := by
  unfold agreement
  rw [Finset.mul_sum]
  exact Finset.sum_congr rfl fun i _ => by rw [h i]; ring

/-- **C77** the blended quaternion has length one, and no unit quaternion agrees better with the weighted quaternions. -/
theorem C77_blend {n : Nat} (q : Fin n → Fin 4 → ℝ) (w : Fin n → ℝ) (eigh : (Fin 4 → Fin 4 → ℝ) → Eigh)
    (he : ∀ v, checkAndNormalizeWeights (some w) = some v → IsEigh (outerSum q v) (eigh (outerSum q v)))
    (r : Fin 4 → ℝ) (h : blendQuaternions eigh q (some w) = some r) :
    IsUnit4 r ∧ ∀ s, IsUnit4 s → agreement q (fun i => max (w i) 0) s ≤ agreement q (fun i => max (w i) 0) r := by
  unfold blendQuaternions at h
  rw [Option.map_eq_some_iff] at h
  obtain ⟨w', hw, rfl⟩ := h
  obtain ⟨-, -, c, hc, hcw⟩ := C77_weights w w' hw
  refine ⟨?_, fun s hs => ?_⟩
  · have := (he w' hw).orthonormal 3 3
    rw [if_pos rfl] at this
    exact this
  · rw [agreement_scale hcw, agreement_scale hcw]
    exact mul_le_mul_of_nonneg_left (agreement_le (he w' hw) hs) hc.le

/-- **C77** blending depends on neither the signs of the quaternions, nor the scale of the weights, nor the order. -/
theorem C77_blend_invariant {n : Nat} (q : Fin n → Fin 4 → ℝ) (w : Fin n → ℝ) (eigh : (Fin 4 → Fin 4 → ℝ) → Eigh)
    (sign : Fin n → ℝ) (hs : ∀ i, sign i = 1 ∨ sign i = -1) (c : ℝ) (hc : 0 < c) (p : Equiv.Perm (Fin n)) :
    blendQuaternions eigh (fun i => sign i • q i) (some w) = blendQuaternions eigh q (some w) ∧
    blendQuaternions eigh q (some fun i => c * w i) = blendQuaternions eigh q (some w) ∧
    blendQuaternions eigh (fun i => q (p i)) (some fun i => w (p i)) = blendQuaternions eigh q (some w) := by
  refine ⟨?_, ?_, ?_⟩
  · unfold blendQuaternions
    congr 1
    funext v
    have : outerSum (fun i => sign i • q i) v = outerSum q v := by
      funext j k
      refine Finset.sum_congr rfl fun i _ => ?_
      simp only [Pi.smul_apply, smul_eq_mul]
      rcases hs i with h | h <;> rw [h] <;> ring
    rw [this]
  · have : checkAndNormalizeWeights (some fun i => c * w i) = checkAndNormalizeWeights (some w) := by
      unfold checkAndNormalizeWeights
      simp only [Option.getD_some]
      have hm : ∀ i, max (c * w i) 0 = c * max (w i) 0 := by
        intro i
        rw [mul_max_of_nonneg _ _ hc.le, mul_zero]
      simp only [hm, ← Finset.mul_sum, mul_eq_zero, hc.ne', false_or]
      split_ifs with hz
      · rfl
      · congr 1
        funext i
        exact mul_div_mul_left _ _ hc.ne'
    unfold blendQuaternions
    rw [this]
  · unfold blendQuaternions checkAndNormalizeWeights
    simp only [Option.getD_some]
    rw [Equiv.sum_comp p (fun i => max (w i) 0)]
    split_ifs with hz
    · rfl
    · simp only [Option.map_some]
      congr 3
      funext j k
      exact Equiv.sum_comp p (fun i => max (w i) 0 / (∑ i, max (w i) 0) * (q i j * q i k))

/-- **C77** if all quaternions with a positive weight are the same rotation, that is the result. -/
theorem C77_blend_same {n : Nat} (q : Fin n → Fin 4 → ℝ) (w : Fin n → ℝ) (eigh : (Fin 4 → Fin 4 → ℝ) → Eigh)
    (he : ∀ v, checkAndNormalizeWeights (some w) = some v → IsEigh (outerSum q v) (eigh (outerSum q v)))
    (p : Fin 4 → ℝ) (hp : IsUnit4 p)
    (hq : ∀ i, 0 < w i → q i = p ∨ q i = -p) (hw : ∃ i, 0 < w i) :
    blendQuaternions eigh q (some w) = some p ∨ blendQuaternions eigh q (some w) = some (-p) := by
  obtain ⟨w', hw'⟩ := Option.isSome_iff_exists.1 ((C77_weights_defined w).1.2 hw)
  have hb : blendQuaternions eigh q (some w) = some ((eigh (outerSum q w')).vectors 3) := by
    unfold blendQuaternions; rw [hw']; rfl
  obtain ⟨hr, hmax⟩ := C77_blend q w eigh he _ hb
  rw [hb]
  set r := (eigh (outerSum q w')).vectors 3
  have hag : ∀ s, agreement q (fun i => max (w i) 0) s = (∑ i, max (w i) 0) * dot4 p s ^ 2 := by
    intro s
    unfold agreement
    rw [Finset.sum_mul]
    refine Finset.sum_congr rfl fun i _ => ?_
    rcases le_or_gt (w i) 0 with h | h
    · have h0 : max (w i) 0 = 0 := max_eq_right h
      simp only [h0, zero_mul]
    · congr 1
      rcases hq i h with h | h
      · rw [h]
      · rw [h]
        unfold dot4
        simp only [Pi.neg_apply, neg_mul, Finset.sum_neg_distrib]
        ring
  have h1 := hmax p hp
  rw [hag, hag] at h1
  have hW : 0 < ∑ i, max (w i) 0 := by
    obtain ⟨i, hi⟩ := hw
    exact Finset.sum_pos' (fun i _ => le_max_right _ _) ⟨i, Finset.mem_univ i, lt_max_of_lt_left hi⟩
  have hpp : dot4 p p = 1 := hp
  rw [hpp] at h1
  have h2 : 1 ≤ dot4 p r ^ 2 := by
    have := le_of_mul_le_mul_left h1 hW
    linarith
  have h3 : dot4 p r ^ 2 ≤ 1 := by
    have hrr : dot4 r r = 1 := hr
    have := Finset.sum_mul_sq_le_sq_mul_sq Finset.univ p r
    simp only [sq] at this
    unfold dot4 at hpp hrr ⊢
    rw [hpp, hrr] at this
    rw [sq]
    linarith
  rcases unit_eq_or_neg hp hr (le_antisymm h3 h2) with h | h
  · exact Or.inl (by rw [h])
  · exact Or.inr (by rw [h])

/-- **C77** blending commutes with rotating: if the inputs are all multiplied with a unit quaternion, the result multiplied with it
agrees with them as well as the result of blending them. -/
theorem C77_blend_rotate {n : Nat} (q : Fin n → Fin 4 → ℝ) (w : Fin n → ℝ) (eigh : (Fin 4 → Fin 4 → ℝ) → Eigh)
    (g : Fin 4 → ℝ) (hg : IsUnit4 g)
    (he : ∀ v, checkAndNormalizeWeights (some w) = some v → IsEigh (outerSum q v) (eigh (outerSum q v)))
    (he' : ∀ v, checkAndNormalizeWeights (some w) = some v → IsEigh (outerSum (fun i => quaternionMultiply g (q i)) v)
      (eigh (outerSum (fun i => quaternionMultiply g (q i)) v))) (r r' : Fin 4 → ℝ)
    (h : blendQuaternions eigh q (some w) = some r)
    (h' : blendQuaternions eigh (fun i => quaternionMultiply g (q i)) (some w) = some r') :
    agreement (fun i => quaternionMultiply g (q i)) (fun i => max (w i) 0) (quaternionMultiply g r) =
      agreement (fun i => quaternionMultiply g (q i)) (fun i => max (w i) 0) r' := by
  have hdot : ∀ p s, dot4 (quaternionMultiply g p) (quaternionMultiply g s) = dot4 p s := by
    intro p s
    rw [IsUnit4, sum4] at hg
    unfold dot4
    rw [sum4, sum4]
    simp [quaternionMultiply, splitQuaternion, cat]
    linear_combination (p 0 * s 0 + p 1 * s 1 + p 2 * s 2 + p 3 * s 3) * hg
  have hagr : ∀ s, agreement (fun i => quaternionMultiply g (q i)) (fun i => max (w i) 0) (quaternionMultiply g s) =
      agreement q (fun i => max (w i) 0) s := by
    intro s
    unfold agreement
    simp_rw [hdot]
  obtain ⟨hr, hmax⟩ := C77_blend q w eigh he r h
  obtain ⟨hr', hmax'⟩ := C77_blend _ w eigh he' r' h'
  refine le_antisymm (hmax' _ ?_) ?_
  · exact ((C77_multiply_group g r r).2 hg hr).1
  · obtain ⟨-, hcu, -⟩ := C77_conjugate g hg
    have hback : quaternionMultiply g (quaternionMultiply (quaternionConjugate g) r') = r' := by
      rw [← (C77_multiply_group _ _ _).1]
      have h0 : g ≠ 0 := by
        rintro rfl
        simp [IsUnit4] at hg
      obtain ⟨p, hp, -, h2⟩ := (C77_inverse g).1 h0
      rw [(C77_conjugate g hg).1, Option.some.injEq] at hp
      rw [hp, h2, (C77_identity r').1]
    rw [← hback, hagr, hagr]
    exact hmax _ ((C77_multiply_group _ r' r').2 hcu hr').1

end Momentum
