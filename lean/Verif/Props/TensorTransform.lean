import Verif.Lemmas.TensorTransform
import Verif.Props.TensorQuat
import Verif.Props.Transform

/-!
# C78: skeleton states in tensors
-/

namespace Momentum

open TensorQuat TensorTransform

theorem asTransform_rotation {K : Type} (r : Fin 8 → K) : asQuat (splitSkeletonState r).2.1 = (asTransform r).rotation := rfl

theorem asTransform_injective {K : Type} {a b : Fin 8 → K} (h : asTransform a = asTransform b) : a = b := by
  simp only [asTransform, Transform.mk.injEq, Quat.mk.injEq, Vec3.mk.injEq] at h
  obtain ⟨⟨h6, h3, h4, h5⟩, ⟨h0, h1, h2⟩, h7⟩ := h
  funext k
  fin_cases k
  · exact h0
  · exact h1
  · exact h2
  · exact h3
  · exact h4
  · exact h5
  · exact h6
  · exact h7

/-- **C78** the product of two rows is the product of the transforms (`C01`), and points go through the row as through the transform. -/
theorem C78_multiply {K : Type} [CommRing K] (a b : Fin 8 → K) (p : Vec3 K) :
    asTransform (multiplyRow a b) = asTransform a * asTransform b ∧
    transformPointRow a p = (asTransform a).transformPoint p := by
  refine ⟨?_, ?_⟩
  · show _ = Transform.mul _ _
    ext <;> simp [Transform.mul, asTransform, multiplyRow, catState, splitSkeletonState, splitQuaternion, quaternionRotateVector, quaternionMultiply,
      cat, Quat.rotate, Quat.vec] <;> ring
  · ext <;> simp [transformPointRow, Transform.transformPoint, asTransform, splitSkeletonState, splitQuaternion, quaternionRotateVector, Quat.rotate,
      Quat.vec] <;> ring

/-- **C78** for unit rotations, the product transforms points by the second, then by the first; products are associative, and the
rotation of a product is a unit quaternion. -/
theorem C78_compose {K : Type} [CommRing K] (a b c : Fin 8 → K) (ha : (asTransform a).rotation.normSq = 1)
    (hb : (asTransform b).rotation.normSq = 1) (p : Vec3 K) :
    transformPointRow (multiplyRow a b) p = transformPointRow a (transformPointRow b p) ∧
    multiplyRow (multiplyRow a b) c = multiplyRow a (multiplyRow b c) ∧
    (asTransform (multiplyRow a b)).rotation.normSq = 1 := by
  refine ⟨?_, asTransform_injective ?_, ?_⟩
  · rw [(C78_multiply (multiplyRow a b) b p).2, (C78_multiply b a p).2, (C78_multiply a b _).2, (C78_multiply a b p).1]
    exact C01_transformPoint_mul _ _ ha hb p
  · rw [(C78_multiply (multiplyRow a b) c p).1, (C78_multiply a b p).1, (C78_multiply a (multiplyRow b c) p).1,
      (C78_multiply b c p).1]
    exact (C01_mul_assoc _ _ _ ha hb).1
  · rw [(C78_multiply a b p).1]
    exact (C01_mul_assoc _ _ (asTransform a) ha hb).2

/-- **C78** the identity, and the rows made of one part only. -/
theorem C78_parts {K : Type} [CommRing K] (a : Fin 8 → K) (q : Fin 4 → K) (t : Vec3 K) (s : K) (p : Vec3 K) :
    multiplyRow identitySkeletonState a = a ∧ multiplyRow a identitySkeletonState = a ∧
    transformPointRow identitySkeletonState p = p ∧
    transformPointRow (quaternionToSkeletonState q) p = quaternionRotateVector q p ∧
    transformPointRow (translationToSkeletonState t) p = t + p ∧
    transformPointRow (scaleToSkeletonState s) p = s • p ∧
    multiplyRow (translationToSkeletonState (splitSkeletonState a).1)
      (multiplyRow (quaternionToSkeletonState (splitSkeletonState a).2.1) (scaleToSkeletonState (splitSkeletonState a).2.2)) = a := by
  have hid : asTransform (identitySkeletonState : Fin 8 → K) = Transform.one := rfl
  refine ⟨asTransform_injective ?_, asTransform_injective ?_, ?_, ?_, ?_, ?_, ?_⟩
  · rw [(C78_multiply _ _ p).1, hid, (C01_identity _ p).1]
  · rw [(C78_multiply _ _ p).1, hid, (C01_identity _ p).2.1]
  · rw [(C78_multiply _ a p).2, hid, (C01_identity Transform.one p).2.2]
  · ext <;> simp [transformPointRow, quaternionToSkeletonState, splitSkeletonState, splitQuaternion, catState, quaternionRotateVector]
  · ext <;> simp [transformPointRow, translationToSkeletonState, splitSkeletonState, splitQuaternion, catState, quaternionRotateVector, quaternionIdentity]
  · ext <;> simp [transformPointRow, scaleToSkeletonState, splitSkeletonState, splitQuaternion, catState, quaternionRotateVector, quaternionIdentity]
  · apply asTransform_injective
    rw [(C78_multiply _ _ p).1, (C78_multiply _ _ p).1]
    show Transform.mul _ (Transform.mul _ _) = _
    ext <;> simp [Transform.mul, asTransform, translationToSkeletonState, quaternionToSkeletonState, scaleToSkeletonState, catState,
      splitSkeletonState, quaternionIdentity, Quat.rotate, Quat.vec]

/-- **C78** the 4x4 matrix of a row is that of the transform (`C03`): for unit rotations products become products of matrices, and
for every row points become (x, y, z, 1). -/
theorem C78_matrix {K : Type} [CommRing K] (a b : Fin 8 → K) (ha : (asTransform a).rotation.normSq = 1)
    (hb : (asTransform b).rotation.normSq = 1) (p : Vec3 K) :
    skeletonStateToTransforms a = (asTransform a).toMatrix ∧
    skeletonStateToTransforms (multiplyRow a b) = skeletonStateToTransforms a * skeletonStateToTransforms b ∧
    (skeletonStateToTransforms a).mulVec ![p.x, p.y, p.z, 1] =
      ![(transformPointRow a p).x, (transformPointRow a p).y, (transformPointRow a p).z, 1] := by
  have key : ∀ r : Fin 8 → K, skeletonStateToTransforms r = (asTransform r).toMatrix := by
    intro r
    ext i j
    fin_cases i <;> fin_cases j <;> simp [skeletonStateToTransforms, Transform.toMatrix, splitSkeletonState,
      quaternionToRotationMatrix, asTransform, Transform.toLinear, Transform.toRotationMatrix, Mat3.smul, Quat.toMat] <;> ring
  refine ⟨key a, ?_, ?_⟩
  · rw [key, key, key, (C78_multiply a b p).1, (C03_toMatrix _ _ ha hb p).1]
  · rw [key, (C78_multiply a b p).2, (C03_toMatrix _ _ ha hb p).2]

/-- **C78** the inverse of a row with a unit rotation and a scale that is not zero is two-sided, and undoes the transform of points. -/
theorem C78_inverse (a : Fin 8 → ℝ) (ha : (asTransform a).rotation.normSq = 1) (hs : (asTransform a).scale ≠ 0) :
    ∃ b, inverseSkeletonStates a = some b ∧ multiplyRow a b = identitySkeletonState ∧ multiplyRow b a = identitySkeletonState ∧
      ∀ p, transformPointRow b (transformPointRow a p) = p := by
  have hu : IsUnit4 (splitSkeletonState a).2.1 := by
    rw [isUnit4_iff, asTransform_rotation]; exact ha
  have hq := (C77_conjugate _ hu).1
  have hr : inverseSkeletonStates a = some (catState ((-(1 / a 7)) • quaternionRotateVector
      (quaternionConjugate (splitSkeletonState a).2.1) (splitSkeletonState a).1)
      (quaternionConjugate (splitSkeletonState a).2.1) (1 / a 7)) := by
    unfold inverseSkeletonStates
    simp only [hq]
    rw [if_neg (show ¬ (splitSkeletonState a).2.2 = 0 from hs)]
    rfl
  refine ⟨_, hr, ?_⟩
  have hn : (asTransform a).rotation.inverse = asQuat (quaternionConjugate (splitSkeletonState a).2.1) := by
    unfold Quat.inverse
    rw [ha, if_neg one_ne_zero]
    ext <;> simp [asTransform, asQuat, quaternionConjugate, splitSkeletonState, splitQuaternion, cat]
  have hinv : asTransform (catState ((-(1 / a 7)) • quaternionRotateVector
      (quaternionConjugate (splitSkeletonState a).2.1) (splitSkeletonState a).1)
      (quaternionConjugate (splitSkeletonState a).2.1) (1 / a 7)) = (asTransform a).inverse := by
    unfold Transform.inverse
    rw [hn]
    ext <;> simp [asTransform, catState, splitSkeletonState, splitQuaternion, quaternionConjugate, quaternionRotateVector, cat, asQuat, Quat.rotate,
      Quat.vec] <;> ring
  obtain ⟨h1, h2, h3, -⟩ := C02_inverse (asTransform a) ha hs
  refine ⟨asTransform_injective ?_, asTransform_injective ?_, fun p => ?_⟩
  · rw [(C78_multiply _ _ 0).1, hinv, h1]; rfl
  · rw [(C78_multiply _ _ 0).1, hinv, h2]; rfl
  · rw [(C78_multiply _ a _).2, hinv, (C78_multiply a a _).2, h3]

/-- **C78** the inverse is a number exactly if neither the rotation nor the scale is zero. -/
theorem C78_inverse_defined (a : Fin 8 → ℝ) :
    (inverseSkeletonStates a).isSome ↔ (splitSkeletonState a).2.1 ≠ 0 ∧ (asTransform a).scale ≠ 0 := by
  by_cases hq : (splitSkeletonState a).2.1 = 0
  · have : inverseSkeletonStates a = none := by
      unfold inverseSkeletonStates
      simp only [hq, (C77_inverse 0).2]
    simp [this, hq]
  · obtain ⟨p, hp, -⟩ := (C77_inverse _).1 hq
    unfold inverseSkeletonStates
    simp only [hp]
    by_cases hs : (splitSkeletonState a).2.2 = 0
    · have hs' : (asTransform a).scale = 0 := hs
      simp [hs, hs']
    · have hs' : (asTransform a).scale ≠ 0 := hs
      simp [hs, hs', hq]

/-- **C78** finding: if the quaternion does not have length one, the result of `inverseSkeletonStates` is not the inverse, although
the inverse of the quaternion is divided by the squared length. -/
theorem C78_inverse_wrong :
    ∃ a b : Fin 8 → ℝ, inverseSkeletonStates a = some b ∧ multiplyRow a b ≠ identitySkeletonState := by
  have hq : quaternionInverse (splitSkeletonState (![0, 1, 0, 1, 0, 0, 1, 1] : Fin 8 → ℝ)).2.1 = some ![-1 / 2, 0, 0, 1 / 2] := by
    unfold quaternionInverse
    dsimp only
    rw [sum4, if_neg (by simp [splitSkeletonState]), Option.some.injEq]
    funext k
    fin_cases k <;> simp [splitSkeletonState, quaternionConjugate, splitQuaternion, cat] <;> norm_num
  have hi : inverseSkeletonStates (![0, 1, 0, 1, 0, 0, 1, 1] : Fin 8 → ℝ) =
      some (catState ((-(1 / 1) : ℝ) • quaternionRotateVector ![-1 / 2, 0, 0, 1 / 2] ⟨0, 1, 0⟩) ![-1 / 2, 0, 0, 1 / 2] (1 / 1)) := by
    unfold inverseSkeletonStates
    simp only [hq]
    rw [if_neg (by simp [splitSkeletonState])]
    rfl
  refine ⟨_, _, hi, fun h => ?_⟩
  have h1 := congrFun h 1
  simp [multiplyRow, identitySkeletonState, catState, splitSkeletonState, splitQuaternion, quaternionRotateVector,
    quaternionIdentity] at h1
  norm_num at h1

/-! ### Blending -/

theorem normalizeWeights_idem {n : Nat} {w : Option (Fin n → ℝ)} {v : Fin n → ℝ} (h : checkAndNormalizeWeights w = some v) :
    checkAndNormalizeWeights (some v) = some v := by
  have h' : checkAndNormalizeWeights (some (w.getD fun _ => 1)) = some v := h
  obtain ⟨h0, h1, -⟩ := C77_weights _ v h'
  unfold checkAndNormalizeWeights
  have hm : ∀ i, max (v i) 0 = v i := fun i => max_eq_left (h0 i)
  simp only [Option.getD_some, hm, h1, one_ne_zero, if_false, div_one]

/-- **C78** a blend of skeleton states: the translations and scales are averaged with the normalised weights and the rotations are
blended with the given weights (`C77`). -/
theorem C78_blend (eigh : (Fin 4 → Fin 4 → ℝ) → Eigh) {n : Nat} (rows : Fin n → Fin 8 → ℝ) (w v : Fin n → ℝ)
    (hw : checkAndNormalizeWeights (some w) = some v) :
    ∃ r, blendSkeletonStates eigh rows (some w) = some r ∧
      (asTransform r).translation.x = ∑ i, v i * (asTransform (rows i)).translation.x ∧
      (asTransform r).translation.y = ∑ i, v i * (asTransform (rows i)).translation.y ∧
      (asTransform r).translation.z = ∑ i, v i * (asTransform (rows i)).translation.z ∧
      (asTransform r).scale = ∑ i, v i * (asTransform (rows i)).scale ∧
      blendQuaternions eigh (fun i => (splitSkeletonState (rows i)).2.1) (some w) = some (splitSkeletonState r).2.1 := by
  have hq : ∀ q : Fin n → Fin 4 → ℝ, blendQuaternions eigh q (some v) = some ((eigh (outerSum q v)).vectors 3) ∧
      blendQuaternions eigh q (some w) = some ((eigh (outerSum q v)).vectors 3) := by
    intro q
    unfold blendQuaternions
    rw [normalizeWeights_idem hw, hw]
    exact ⟨rfl, rfl⟩
  have hb : blendSkeletonStates eigh rows (some w) = some (catState ⟨∑ i, v i * (splitSkeletonState (rows i)).1.x,
      ∑ i, v i * (splitSkeletonState (rows i)).1.y, ∑ i, v i * (splitSkeletonState (rows i)).1.z⟩
      ((eigh (outerSum (fun i => (splitSkeletonState (rows i)).2.1) v)).vectors 3)
      (∑ i, v i * (splitSkeletonState (rows i)).2.2)) := by
    unfold blendSkeletonStates
    rw [hw]
    simp only [(hq _).1, Option.map_some]
  refine ⟨_, hb, rfl, rfl, rfl, rfl, ?_⟩
  rw [(hq _).2]
  congr 1
  funext k
  fin_cases k <;> rfl

/-- **C78** the blend is a number exactly if a weight is positive. -/
theorem C78_blend_defined (eigh : (Fin 4 → Fin 4 → ℝ) → Eigh) {n : Nat} (rows : Fin n → Fin 8 → ℝ) (w : Fin n → ℝ) :
    (blendSkeletonStates eigh rows (some w)).isSome ↔ ∃ i, 0 < w i := by
  rw [← (C77_weights_defined w).1]
  cases hw : checkAndNormalizeWeights (some w) with
  | none =>
    unfold blendSkeletonStates
    rw [hw]
    exact Iff.rfl
  | some v =>
    obtain ⟨r, hr, -⟩ := C78_blend eigh rows w v hw
    rw [hr]
    rfl

/-- **C78** the scale of the blend, and likewise each coordinate, is between the bounds of those with a positive weight. -/
theorem C78_blend_between (eigh : (Fin 4 → Fin 4 → ℝ) → Eigh) {n : Nat} (rows : Fin n → Fin 8 → ℝ) (w : Fin n → ℝ) (lo hi : ℝ)
    (r : Fin 8 → ℝ) (h : blendSkeletonStates eigh rows (some w) = some r) :
    ((∀ i, 0 < w i → lo ≤ (asTransform (rows i)).scale ∧ (asTransform (rows i)).scale ≤ hi) →
      lo ≤ (asTransform r).scale ∧ (asTransform r).scale ≤ hi) ∧
    ((∀ i, 0 < w i → lo ≤ (asTransform (rows i)).translation.x ∧ (asTransform (rows i)).translation.x ≤ hi) →
      lo ≤ (asTransform r).translation.x ∧ (asTransform r).translation.x ≤ hi) ∧
    ((∀ i, 0 < w i → lo ≤ (asTransform (rows i)).translation.y ∧ (asTransform (rows i)).translation.y ≤ hi) →
      lo ≤ (asTransform r).translation.y ∧ (asTransform r).translation.y ≤ hi) ∧
    ((∀ i, 0 < w i → lo ≤ (asTransform (rows i)).translation.z ∧ (asTransform (rows i)).translation.z ≤ hi) →
      lo ≤ (asTransform r).translation.z ∧ (asTransform r).translation.z ≤ hi) := by
  cases hw : checkAndNormalizeWeights (some w) with
  | none =>
    unfold blendSkeletonStates at h
    rw [hw] at h
    cases h
  | some v =>
    obtain ⟨r', hr, hx, hy, hz, hs, -⟩ := C78_blend eigh rows w v hw
    rw [h, Option.some.injEq] at hr
    subst hr
    obtain ⟨h0, h1, c, hc, hcw⟩ := C77_weights w v hw
    have key : ∀ f : Fin n → ℝ, (∀ i, 0 < w i → lo ≤ f i ∧ f i ≤ hi) → lo ≤ ∑ i, v i * f i ∧ ∑ i, v i * f i ≤ hi := by
      intro f hf
      have hv : ∀ i, v i * lo ≤ v i * f i ∧ v i * f i ≤ v i * hi := by
        intro i
        rcases le_or_gt (w i) 0 with hi' | hi'
        · have : v i = 0 := by
            have h2 := hcw i
            rw [max_eq_right hi'] at h2
            exact (mul_eq_zero.1 h2.symm).resolve_left hc.ne'
          rw [this]
          simp
        · exact ⟨mul_le_mul_of_nonneg_left (hf i hi').1 (h0 i), mul_le_mul_of_nonneg_left (hf i hi').2 (h0 i)⟩
      have hl := Finset.sum_le_sum fun i (_ : i ∈ Finset.univ) => (hv i).1
      have hh := Finset.sum_le_sum fun i (_ : i ∈ Finset.univ) => (hv i).2
      rw [← Finset.sum_mul, h1, one_mul] at hl hh
      exact ⟨hl, hh⟩
    rw [hx, hy, hz, hs]
    exact ⟨key _, key _, key _, key _⟩

/-- **C78** the blend of equal states, with unit rotations of either sign, is that state. -/
theorem C78_blend_same (eigh : (Fin 4 → Fin 4 → ℝ) → Eigh) {n : Nat} (rows : Fin n → Fin 8 → ℝ) (w : Fin n → ℝ)
    (he : ∀ v, checkAndNormalizeWeights (some w) = some v →
      IsEigh (outerSum (fun i => (splitSkeletonState (rows i)).2.1) v) (eigh (outerSum (fun i => (splitSkeletonState (rows i)).2.1) v)))
    (a : Fin 8 → ℝ) (ha : (asTransform a).rotation.normSq = 1)
    (hrows : ∀ i, 0 < w i → (splitSkeletonState (rows i)).1 = (splitSkeletonState a).1 ∧ rows i 7 = a 7 ∧
      ((splitSkeletonState (rows i)).2.1 = (splitSkeletonState a).2.1 ∨ (splitSkeletonState (rows i)).2.1 = -(splitSkeletonState a).2.1))
    (hw : ∃ i, 0 < w i) :
    ∃ r, blendSkeletonStates eigh rows (some w) = some r ∧ ∀ p, transformPointRow r p = transformPointRow a p := by
  obtain ⟨v, hv⟩ := Option.isSome_iff_exists.1 ((C77_weights_defined w).1.2 hw)
  obtain ⟨r, hr, -, -, -, -, hq⟩ := C78_blend eigh rows w v hv
  have hu : IsUnit4 (splitSkeletonState a).2.1 := by
    rw [isUnit4_iff, asTransform_rotation]; exact ha
  have hsame := C77_blend_same _ w eigh he _ hu (fun i hi => (hrows i hi).2.2) hw
  have hb := fun lo => C78_blend_between eigh rows w lo lo r hr
  have hx := (hb (a 0)).2.1 fun i hi => by
    have : (rows i) 0 = a 0 := congrArg Vec3.x (hrows i hi).1
    exact ⟨this.symm.le, this.le⟩
  have hy := (hb (a 1)).2.2.1 fun i hi => by
    have : (rows i) 1 = a 1 := congrArg Vec3.y (hrows i hi).1
    exact ⟨this.symm.le, this.le⟩
  have hz := (hb (a 2)).2.2.2 fun i hi => by
    have : (rows i) 2 = a 2 := congrArg Vec3.z (hrows i hi).1
    exact ⟨this.symm.le, this.le⟩
  have hs := (hb (a 7)).1 fun i hi => by
    have : (rows i) 7 = a 7 := (hrows i hi).2.1
    exact ⟨this.symm.le, this.le⟩
  refine ⟨r, hr, fun p => ?_⟩
  have ht : (splitSkeletonState r).1 = (splitSkeletonState a).1 := by
    ext
    · exact le_antisymm hx.2 hx.1
    · exact le_antisymm hy.2 hy.1
    · exact le_antisymm hz.2 hz.1
  have hs' : (splitSkeletonState r).2.2 = (splitSkeletonState a).2.2 := le_antisymm hs.2 hs.1
  unfold transformPointRow
  dsimp only
  rw [ht, hs', (C77_rotate _ _).1, (C77_rotate (splitSkeletonState a).2.1 _).1]
  rcases hsame with h | h
  · rw [hq, Option.some.injEq] at h
    rw [h]
  · rw [hq, Option.some.injEq] at h
    rw [h, (C77_matrix _).2]

/-! ### Leading dimensions -/

/-- **C78** products of tensors: defined exactly if the left tensor can be repeated to the dimensions of the right one; then the
result has the dimensions of the right tensor, and each row is the product of the row of the left tensor, repeated where there is
one only, and of the row at the same index of the right tensor. -/
theorem C78_multiply_tensors {K : Type} [CommRing K] (a b : Rows (Fin 8 → K)) :
    ((multiplySkeletonStates a b).isSome ↔ Repeats a.shape b.shape) ∧
    ∀ c, multiplySkeletonStates a b = some c → c.shape = b.shape ∧ ∀ idx, InRange b.shape idx →
      InRange a.shape (repeatedIndex a.shape idx) ∧
      asTransform (c.get idx) = asTransform (a.get (repeatedIndex a.shape idx)) * asTransform (b.get idx) := by
  obtain ⟨h1, h2⟩ := matchLeading_spec a b
  unfold multiplySkeletonStates
  refine ⟨by rw [Option.isSome_map, h1], fun c hc => ?_⟩
  obtain ⟨t, ht, rfl⟩ := Option.map_eq_some_iff.1 hc
  obtain ⟨h3, h4⟩ := h2 t ht
  refine ⟨h3, fun idx hidx => ⟨repeatedIndex_inRange (h1.1 (by rw [ht]; rfl)) hidx, ?_⟩⟩
  show asTransform (multiplyRow _ _) = _
  rw [(C78_multiply _ _ 0).1, h4 idx hidx.length_eq]

/-- **C78** points transformed by tensors: the same. -/
theorem C78_transform_tensors {K : Type} [CommRing K] (a : Rows (Fin 8 → K)) (p : Rows (Vec3 K)) :
    ((transformPointsWithSkeletonState a p).isSome ↔ Repeats a.shape p.shape) ∧
    ∀ c, transformPointsWithSkeletonState a p = some c → c.shape = p.shape ∧ ∀ idx, InRange p.shape idx →
      InRange a.shape (repeatedIndex a.shape idx) ∧
      c.get idx = (asTransform (a.get (repeatedIndex a.shape idx))).transformPoint (p.get idx) := by
  obtain ⟨h1, h2⟩ := matchLeading_spec a p
  unfold transformPointsWithSkeletonState
  refine ⟨by rw [Option.isSome_map, h1], fun c hc => ?_⟩
  obtain ⟨t, ht, rfl⟩ := Option.map_eq_some_iff.1 hc
  obtain ⟨h3, h4⟩ := h2 t ht
  refine ⟨h3, fun idx hidx => ⟨repeatedIndex_inRange (h1.1 (by rw [ht]; rfl)) hidx, ?_⟩⟩
  show transformPointRow _ _ = _
  rw [(C78_multiply _ (b := fun _ => 0) _).2, h4 idx hidx.length_eq]

end Momentum
