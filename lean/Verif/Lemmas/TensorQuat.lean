import Verif.Spec.TensorQuat
import Verif.Spec.Euler
import Verif.Lemmas.Euler
import Verif.Lemmas.TensorState
import Mathlib.LinearAlgebra.Matrix.NonsingularInverse

/-!
# Lemmas about rows of four numbers as quaternions
-/

namespace Momentum.TensorQuat

theorem sum4 {K : Type} [CommRing K] (f : Fin 4 → K) : ∑ k, f k = f 0 + f 1 + f 2 + f 3 := Fin.sum_univ_four f

theorem isUnit4_iff {K : Type} [CommRing K] (q : Fin 4 → K) : IsUnit4 q ↔ (asQuat q).normSq = 1 := by
  unfold IsUnit4 asQuat Quat.normSq
  rw [sum4]
  constructor <;> intro h <;> linear_combination h

theorem toRotationMatrix_eq {K : Type} [CommRing K] (q : Fin 4 → K) :
    quaternionToRotationMatrix q = (asQuat q).toMat := by
  ext <;> simp [quaternionToRotationMatrix, asQuat, Quat.toMat] <;> ring

theorem asQuat_coeffs {K : Type} (q : Quat K) : asQuat (coeffs q) = q := rfl

theorem asQuat_cat {K : Type} (v : Vec3 K) (r : K) : asQuat ![v.x, v.y, v.z, r] = ⟨r, v.x, v.y, v.z⟩ := rfl

theorem asQuat_injective {K : Type} {p q : Fin 4 → K} (h : asQuat p = asQuat q) : p = q := by
  simp only [asQuat, Quat.mk.injEq] at h
  funext k
  fin_cases k
  · exact h.2.1
  · exact h.2.2.1
  · exact h.2.2.2
  · exact h.1

/-! ### From a rotation matrix to a quaternion -/

/-- A unit vector that does not move is on the axis. -/
theorem on_axis {w : ℝ} {u a : Vec3 ℝ} (hq : w * w + u.sqNorm = 1) (ha : a.sqNorm = 1)
    (hf : (Quat.toMat ⟨w, u.x, u.y, u.z⟩).mulVec a = a) : u = u.dot a • a := by
  have hx := congrArg Vec3.x hf
  have hy := congrArg Vec3.y hf
  have hz := congrArg Vec3.z hf
  simp only [Quat.toMat, Mat3.mulVec] at hx hy hz
  simp only [Vec3.sqNorm, Vec3.dot] at hq ha
  -- the cross product `c` of `u` and `a` has `w c + u × c = 0`
  set cx := u.y * a.z - u.z * a.y with ecx
  set cy := u.z * a.x - u.x * a.z with ecy
  set cz := u.x * a.y - u.y * a.x with ecz
  have ex : w * cx + (u.y * cz - u.z * cy) = 0 := by rw [ecx, ecy, ecz]; linear_combination hx / 2
  have ey : w * cy + (u.z * cx - u.x * cz) = 0 := by rw [ecx, ecy, ecz]; linear_combination hy / 2
  have ez : w * cz + (u.x * cy - u.y * cx) = 0 := by rw [ecx, ecy, ecz]; linear_combination hz / 2
  have hperp : u.x * cx + u.y * cy + u.z * cz = 0 := by rw [ecx, ecy, ecz]; ring
  have hzero : cx * cx + cy * cy + cz * cz = 0 := by
    have : (w * w + (u.x * u.x + u.y * u.y + u.z * u.z)) * (cx * cx + cy * cy + cz * cz) = 0 := by
      linear_combination (w * cx + (u.y * cz - u.z * cy)) * ex + (w * cy + (u.z * cx - u.x * cz)) * ey +
        (w * cz + (u.x * cy - u.y * cx)) * ez + (u.x * cx + u.y * cy + u.z * cz) * hperp
    rw [hq, one_mul] at this
    exact this
  have c0x : cx = 0 := by nlinarith [mul_self_nonneg cx, mul_self_nonneg cy, mul_self_nonneg cz]
  have c0y : cy = 0 := by nlinarith [mul_self_nonneg cx, mul_self_nonneg cy, mul_self_nonneg cz]
  have c0z : cz = 0 := by nlinarith [mul_self_nonneg cx, mul_self_nonneg cy, mul_self_nonneg cz]
  rw [ecx] at c0x
  rw [ecy] at c0y
  rw [ecz] at c0z
  ext <;> simp only [Vec3.dot, Vec3.smul_x, Vec3.smul_y, Vec3.smul_z]
  · linear_combination (-u.x) * ha + a.y * c0z - a.z * c0y
  · linear_combination (-u.y) * ha - a.x * c0z + a.z * c0x
  · linear_combination (-u.z) * ha + a.x * c0y - a.y * c0x

/-- Every rotation matrix belongs to a unit quaternion with a scalar that is not negative. -/
theorem exists_quat {m : Mat3 ℝ} (hm : IsRotation m) :
    ∃ (w : ℝ) (u : Vec3 ℝ), 0 ≤ w ∧ w * w + u.sqNorm = 1 ∧ Quat.toMat ⟨w, u.x, u.y, u.z⟩ = m := by
  obtain ⟨h1, h2⟩ := quatOfMat_spec hm
  generalize quatOfMat m = p at h1 h2
  by_cases hw : 0 ≤ p.w
  · refine ⟨p.w, ⟨p.x, p.y, p.z⟩, hw, ?_, h1⟩
    simp only [Vec3.sqNorm, Vec3.dot]
    simp only [Quat.normSq] at h2
    linarith
  · refine ⟨-p.w, ⟨-p.x, -p.y, -p.z⟩, by linarith, ?_, ?_⟩
    · simp only [Vec3.sqNorm, Vec3.dot]
      simp only [Quat.normSq] at h2
      linarith
    · rw [← h1]
      ext <;> simp [Quat.toMat]

/-- The quaternion for a unit vector that the rotation keeps. -/
theorem signedQuaternion_spec {m : Mat3 ℝ} (hm : IsRotation m) {a : Vec3 ℝ} (ha : a.sqNorm = 1) (hf : m.mulVec a = a) :
    IsUnit4 (signedQuaternion m a) ∧ 0 ≤ signedQuaternion m a 3 ∧ quaternionToRotationMatrix (signedQuaternion m a) = m := by
  obtain ⟨w, u, hw, hq, rfl⟩ := exists_quat hm
  have hu := on_axis hq ha hf
  set k := u.dot a with hk
  have hs : u.sqNorm = k * k := by
    have : u.sqNorm = (k • a).sqNorm := by rw [← hu]
    rw [this]
    have h1 : (k • a).sqNorm = k * k * a.sqNorm := by simp only [Vec3.sqNorm, Vec3.dot, Vec3.smul_x, Vec3.smul_y, Vec3.smul_z]; ring
    rw [h1, ha, mul_one]
  have hcos : Real.sqrt (max ((1 + (((1 - (2 * u.y * u.y + 2 * u.z * u.z)) + (1 - (2 * u.x * u.x + 2 * u.z * u.z)) +
      (1 - (2 * u.x * u.x + 2 * u.y * u.y)) - 1) / 2)) / 2) 0) = w := by
    have : (1 + (((1 - (2 * u.y * u.y + 2 * u.z * u.z)) + (1 - (2 * u.x * u.x + 2 * u.z * u.z)) +
      (1 - (2 * u.x * u.x + 2 * u.y * u.y)) - 1) / 2)) / 2 = w * w := by
      simp only [Vec3.sqNorm, Vec3.dot] at hq
      linear_combination -hq
    rw [this, max_eq_left (mul_self_nonneg w), Real.sqrt_mul_self hw]
  have hsin : Real.sqrt (max ((1 - (((1 - (2 * u.y * u.y + 2 * u.z * u.z)) + (1 - (2 * u.x * u.x + 2 * u.z * u.z)) +
      (1 - (2 * u.x * u.x + 2 * u.y * u.y)) - 1) / 2)) / 2) 0) = |k| := by
    have : (1 - (((1 - (2 * u.y * u.y + 2 * u.z * u.z)) + (1 - (2 * u.x * u.x + 2 * u.z * u.z)) +
      (1 - (2 * u.x * u.x + 2 * u.y * u.y)) - 1) / 2)) / 2 = k * k := by
      rw [← hs]
      simp only [Vec3.sqNorm, Vec3.dot]
      ring
    rw [this, max_eq_left (mul_self_nonneg k), Real.sqrt_mul_self_eq_abs]
  have hqv : |k| • a = u ∨ |k| • a = -u := by
    rcases abs_choice k with h | h
    · left; rw [h, ← hu]
    · right; rw [h, neg_smul, ← hu]
  have hq' : u.x * u.x + u.y * u.y + u.z * u.z + w * w = 1 := by
    simp only [Vec3.sqNorm, Vec3.dot] at hq; linarith
  unfold signedQuaternion
  simp only [Quat.toMat, hcos, hsin]
  have hz : ∀ v : Vec3 ℝ, v.sqNorm = 0 → v.x = 0 ∧ v.y = 0 ∧ v.z = 0 := by
    intro v hv
    simp only [Vec3.sqNorm, Vec3.dot] at hv
    refine ⟨?_, ?_, ?_⟩ <;> nlinarith [mul_self_nonneg v.x, mul_self_nonneg v.y, mul_self_nonneg v.z]
  rcases hqv with h | h
  · rw [h]
    split_ifs with hc
    · refine ⟨?_, hw, ?_⟩
      · rw [IsUnit4, sum4]; simp only [cat]; simpa using hq'
      · rw [toRotationMatrix_eq]; rfl
    · -- both signs fit
      have hneg : ∀ p n : Vec3 ℝ, p.sqNorm = 0 → ¬ Real.sqrt p.sqNorm < Real.sqrt n.sqNorm → n.sqNorm = 0 := by
        intro p n hp hn
        rw [hp, Real.sqrt_zero, not_lt] at hn
        have h0 : 0 ≤ n.sqNorm := by
          simp only [Vec3.sqNorm, Vec3.dot]
          nlinarith [mul_self_nonneg n.x, mul_self_nonneg n.y, mul_self_nonneg n.z]
        exact (Real.sqrt_eq_zero h0).1 (le_antisymm hn (Real.sqrt_nonneg _))
      have := hz _ (hneg _ _ (by simp only [Vec3.sqNorm, Vec3.dot, Vec3.add_x, Vec3.add_y, Vec3.add_z, Vec3.smul_x,
        Vec3.smul_y, Vec3.smul_z]; ring) hc)
      simp only [Vec3.sub_x, Vec3.sub_y, Vec3.sub_z, Vec3.smul_x, Vec3.smul_y, Vec3.smul_z] at this
      obtain ⟨e1, e2, e3⟩ := this
      refine ⟨?_, hw, ?_⟩
      · rw [IsUnit4, sum4]; simp only [cat]; simpa using hq'
      · rw [toRotationMatrix_eq]
        ext <;> simp [Quat.toMat, asQuat, cat] <;> linarith
  · rw [h]
    have hc : ¬ ∀ p n : Vec3 ℝ, n.sqNorm = 0 → Real.sqrt p.sqNorm < Real.sqrt n.sqNorm := by
      intro hall
      have := hall 0 0 (by simp [Vec3.sqNorm, Vec3.dot])
      exact lt_irrefl _ this
    have hc2 : ∀ p n : Vec3 ℝ, n.sqNorm = 0 → ¬ Real.sqrt p.sqNorm < Real.sqrt n.sqNorm := by
      intro p n hn
      rw [hn, Real.sqrt_zero, not_lt]
      exact Real.sqrt_nonneg _
    rw [if_neg (hc2 _ _ (by simp only [Vec3.sqNorm, Vec3.dot, Vec3.sub_x, Vec3.sub_y, Vec3.sub_z, Vec3.smul_x,
        Vec3.smul_y, Vec3.smul_z, Vec3.neg_x, Vec3.neg_y, Vec3.neg_z]; ring)), neg_neg]
    refine ⟨?_, hw, ?_⟩
    · rw [IsUnit4, sum4]; simp only [cat]; simpa using hq'
    · rw [toRotationMatrix_eq]; rfl

theorem maxIndex_spec (f : Fin 3 → ℝ) (i : Fin 3) : f i ≤ f (maxIndex f) := by
  unfold maxIndex
  split_ifs with h h2
  · fin_cases i
    · exact le_rfl
    · exact h.1
    · exact h.2
  · rw [not_and_or, not_le, not_le] at h
    fin_cases i
    · show f 0 ≤ f 1
      rcases h with h | h <;> linarith
    · exact le_rfl
    · exact h2
  · rw [not_and_or, not_le, not_le] at h
    rw [not_le] at h2
    fin_cases i
    · show f 0 ≤ f 2
      rcases h with h | h <;> linarith
    · exact h2.le
    · exact le_rfl

/-- A rotation matrix keeps the length of a complex vector. -/
theorem normSq_mulVec {m : Mat3 ℝ} (hm : IsRotation m) (v : Vec3 ℂ) :
    Complex.normSq ((toComplex m).mulVec v).x + Complex.normSq ((toComplex m).mulVec v).y +
      Complex.normSq ((toComplex m).mulVec v).z = Complex.normSq v.x + Complex.normSq v.y + Complex.normSq v.z := by
  obtain ⟨w, u, -, hq, rfl⟩ := exists_quat hm
  have key : ∀ a : Vec3 ℝ, ((Quat.toMat ⟨w, u.x, u.y, u.z⟩).mulVec a).sqNorm = a.sqNorm := by
    intro a
    simp only [Vec3.sqNorm, Vec3.dot] at hq ⊢
    simp only [Quat.toMat, Mat3.mulVec]
    linear_combination (4 * ((u.y * a.z - u.z * a.y) ^ 2 + (u.z * a.x - u.x * a.z) ^ 2 + (u.x * a.y - u.y * a.x) ^ 2)) * hq
  have kr := key ⟨v.x.re, v.y.re, v.z.re⟩
  have ki := key ⟨v.x.im, v.y.im, v.z.im⟩
  simp only [Vec3.sqNorm, Vec3.dot, Mat3.mulVec] at kr ki
  simp only [Complex.normSq_apply, toComplex, Mat3.mulVec, Complex.add_re, Complex.add_im, Complex.re_ofReal_mul,
    Complex.im_ofReal_mul]
  linarith

/-- The index that is chosen belongs to the eigenvalue one. -/
theorem max_eigenvalue {m : Mat3 ℝ} (hm : IsRotation m) {e : Eig} (he : IsEig m e) :
    e.values (maxIndex fun i => (e.values i).re) = 1 := by
  have hone : ∃ i, e.values i = 1 := by
    obtain ⟨w, u, hw, hq, rfl⟩ := exists_quat hm
    by_cases hu : u = 0
    · refine he.all 1 ⟨1, 0, 0⟩ (fun h => one_ne_zero (congrArg Vec3.x h)) ?_
      subst hu
      ext <;> simp [toComplex, Mat3.mulVec, Quat.toMat]
    · refine he.all 1 ⟨u.x, u.y, u.z⟩ ?_ ?_
      · intro h
        apply hu
        have h1 := congrArg Vec3.x h
        have h2 := congrArg Vec3.y h
        have h3 := congrArg Vec3.z h
        simp only [Vec3.zero_x, Vec3.zero_y, Vec3.zero_z, Complex.ofReal_eq_zero] at h1 h2 h3
        ext
        · exact h1
        · exact h2
        · exact h3
      · rw [one_smul]
        ext <;> simp [toComplex, Mat3.mulVec, Quat.toMat] <;> ring
  obtain ⟨i, hi⟩ := hone
  set j := maxIndex fun i => (e.values i).re with hj
  have h1 : 1 ≤ (e.values j).re := by
    have := maxIndex_spec (fun i => (e.values i).re) i
    simp only [hi, Complex.one_re] at this
    exact this
  have h2 : Complex.normSq (e.values j) = 1 := by
    have := normSq_mulVec hm (e.vectors j)
    rw [he.pair j] at this
    simp only [Vec3.smul_x, Vec3.smul_y, Vec3.smul_z, Complex.normSq_mul] at this
    rw [← mul_add, ← mul_add, he.unit j, mul_one] at this
    exact this
  rw [Complex.normSq_apply] at h2
  have him : (e.values j).im = 0 := by nlinarith [mul_self_nonneg (e.values j).im]
  have hre : (e.values j).re = 1 := by nlinarith [mul_self_nonneg (e.values j).im]
  exact Complex.ext hre him

theorem rotationMatrixToQuaternion_spec {m : Mat3 ℝ} (hm : IsRotation m) {eig : Mat3 ℝ → Eig} (he : IsEig m (eig m)) :
    IsUnit4 (rotationMatrixToQuaternion eig m) ∧ 0 ≤ rotationMatrixToQuaternion eig m 3 ∧
      quaternionToRotationMatrix (rotationMatrixToQuaternion eig m) = m := by
  unfold rotationMatrixToQuaternion
  have h1 := max_eigenvalue hm he
  dsimp only
  generalize maxIndex (fun i => ((eig m).values i).re) = j at h1 ⊢
  have hp := he.pair j
  obtain ⟨r1, r2, r3⟩ := he.real j (by rw [h1]; rfl)
  have hu := he.unit j
  rw [h1, one_smul] at hp
  refine signedQuaternion_spec hm ?_ ?_
  · simp only [Complex.normSq_apply, r1, r2, r3, mul_zero, add_zero] at hu
    exact hu
  · have hx := congrArg (fun v => (Vec3.x v).re) hp
    have hy := congrArg (fun v => (Vec3.y v).re) hp
    have hz := congrArg (fun v => (Vec3.z v).re) hp
    simp only [toComplex, Mat3.mulVec, Complex.add_re, Complex.re_ofReal_mul] at hx hy hz
    ext
    · exact hx
    · exact hy
    · exact hz

/-! ### Euler angles -/

theorem xyzEulerToQuat_eq (e : Fin 3 → ℝ) : xyzEulerToQuat e = eulerToQuatIntr ⟨e 2, e 1, e 0⟩ 2 1 0 := by
  unfold xyzEulerToQuat eulerToQuatIntr
  simp only [List.foldl]
  ext <;> simp [Quat.one] <;> ring

theorem atan2_scaled {c t : ℝ} (hc : 0 < c) (h1 : -Real.pi < t) (h2 : t ≤ Real.pi) :
    atan2 (c * Real.sin t) (c * Real.cos t) = t := by
  have := Complex.arg_mul_cos_add_sin_mul_I hc (θ := t) ⟨h1, h2⟩
  unfold atan2
  refine Eq.trans (congrArg Complex.arg ?_) this
  apply Complex.ext <;> simp [Complex.cos_ofReal_re, Complex.sin_ofReal_re]

/-! ### Blending -/

theorem agreement_eq {n : Nat} (q : Fin n → Fin 4 → ℝ) (w : Fin n → ℝ) (r : Fin 4 → ℝ) :
    agreement q w r = ∑ j, r j * ∑ k, outerSum q w j k * r k := by
  unfold agreement outerSum dot4
  have h1 : ∀ i, w i * (∑ k, q i k * r k) ^ 2 = ∑ j, ∑ k, r j * (w i * (q i j * q i k) * r k) := by
    intro i
    rw [sq, Finset.sum_mul_sum, Finset.mul_sum]
    refine Finset.sum_congr rfl fun j _ => ?_
    rw [Finset.mul_sum]
    exact Finset.sum_congr rfl fun k _ => by ring
  simp_rw [h1, Finset.sum_mul, Finset.mul_sum]
  rw [Finset.sum_comm]
  refine Finset.sum_congr rfl fun j _ => ?_
  rw [Finset.sum_comm]

/-- Four orthonormal rows are a basis. -/
theorem basis_complete {e : Eigh} (h : ∀ i j, dot4 (e.vectors i) (e.vectors j) = if i = j then 1 else 0) (k l : Fin 4) :
    ∑ i, e.vectors i k * e.vectors i l = if k = l then 1 else 0 := by
  let V : Matrix (Fin 4) (Fin 4) ℝ := fun i k => e.vectors i k
  have h1 : V * V.transpose = 1 := by
    ext i j
    rw [Matrix.mul_apply, Matrix.one_apply]
    exact h i j
  have h2 : V.transpose * V = 1 := mul_eq_one_comm.1 h1
  have := congrFun (congrFun h2 k) l
  rw [Matrix.mul_apply, Matrix.one_apply] at this
  exact this

theorem sum_delta (f : Fin 4 → ℝ) (l : Fin 4) : ∑ k, f k * (if k = l then 1 else 0) = f l := by
  simp

/-- The agreement in terms of the eigenvectors. -/
theorem agreement_eigh {n : Nat} {q : Fin n → Fin 4 → ℝ} {w : Fin n → ℝ} {e : Eigh} (he : IsEigh (outerSum q w) e)
    (s : Fin 4 → ℝ) : agreement q w s = ∑ i, e.values i * dot4 (e.vectors i) s ^ 2 := by
  have hc := basis_complete he.orthonormal
  have hM : ∀ j l, outerSum q w j l = ∑ i, e.values i * e.vectors i j * e.vectors i l := by
    intro j l
    rw [← sum_delta (fun k => outerSum q w j k) l]
    simp_rw [← hc, Finset.mul_sum]
    rw [Finset.sum_comm]
    refine Finset.sum_congr rfl fun i _ => ?_
    rw [← he.pair i j, Finset.sum_mul]
    exact Finset.sum_congr rfl fun k _ => by ring
  rw [agreement_eq]
  simp_rw [hM, dot4, sq, Finset.sum_mul_sum, Finset.sum_mul, Finset.mul_sum]
  rw [Finset.sum_comm (γ := Fin 4) (f := fun i j => ∑ k, e.values i * (e.vectors i j * s j * (e.vectors i k * s k)))]
  refine Finset.sum_congr rfl fun j _ => ?_
  rw [Finset.sum_comm]
  exact Finset.sum_congr rfl fun i _ => Finset.sum_congr rfl fun k _ => by ring

theorem length_eigh {m : Fin 4 → Fin 4 → ℝ} {e : Eigh} (he : IsEigh m e) (s : Fin 4 → ℝ) :
    dot4 s s = ∑ i, dot4 (e.vectors i) s ^ 2 := by
  have hc := basis_complete he.orthonormal
  simp_rw [dot4, sq, Finset.sum_mul_sum]
  rw [Finset.sum_comm]
  refine Finset.sum_congr rfl fun k _ => ?_
  rw [Finset.sum_comm]
  have : ∀ l : Fin 4, ∑ i, e.vectors i k * s k * (e.vectors i l * s l) = (s k * s l) * (if l = k then 1 else 0) := by
    intro l
    rw [← hc l k, Finset.mul_sum]
    exact Finset.sum_congr rfl fun i _ => by ring
  simp_rw [this]
  rw [sum_delta (fun l => s k * s l) k]

/-- The last eigenvector agrees best. -/
theorem agreement_le {n : Nat} {q : Fin n → Fin 4 → ℝ} {w : Fin n → ℝ} {e : Eigh} (he : IsEigh (outerSum q w) e)
    {s : Fin 4 → ℝ} (hs : IsUnit4 s) : agreement q w s ≤ agreement q w (e.vectors 3) := by
  have h3 : agreement q w (e.vectors 3) = e.values 3 := by
    rw [agreement_eigh he]
    simp_rw [he.orthonormal]
    simp
  rw [h3, agreement_eigh he]
  calc ∑ i, e.values i * dot4 (e.vectors i) s ^ 2 ≤ ∑ i, e.values 3 * dot4 (e.vectors i) s ^ 2 :=
        Finset.sum_le_sum fun i _ => mul_le_mul_of_nonneg_right (he.sorted (Fin.le_last i)) (sq_nonneg _)
    _ = e.values 3 * dot4 s s := by rw [← Finset.mul_sum, ← length_eigh he]
    _ = e.values 3 := by rw [show dot4 s s = 1 from hs, mul_one]

theorem unit_eq_or_neg {p r : Fin 4 → ℝ} (hp : IsUnit4 p) (hr : IsUnit4 r) (h : dot4 p r ^ 2 = 1) : r = p ∨ r = -p := by
  simp only [IsUnit4, dot4, sum4] at hp hr h
  have hz : ∀ a b c d : ℝ, a * a + b * b + c * c + d * d = 0 → a = 0 ∧ b = 0 ∧ c = 0 ∧ d = 0 := by
    intro a b c d hh
    refine ⟨?_, ?_, ?_, ?_⟩ <;> nlinarith [mul_self_nonneg a, mul_self_nonneg b, mul_self_nonneg c, mul_self_nonneg d]
  rcases mul_self_eq_one_iff.1 ((sq _).symm.trans h) with h | h
  · left
    obtain ⟨a, b, c, d⟩ := hz (r 0 - p 0) (r 1 - p 1) (r 2 - p 2) (r 3 - p 3) (by linear_combination hp + hr - 2 * h)
    funext k
    fin_cases k <;> simp <;> linarith
  · right
    obtain ⟨a, b, c, d⟩ := hz (r 0 + p 0) (r 1 + p 1) (r 2 + p 2) (r 3 + p 3) (by linear_combination hp + hr + 2 * h)
    funext k
    fin_cases k <;> simp <;> linarith

/-- Unit quaternions with the same matrix are equal up to sign. -/
theorem same_matrix {p r : Fin 4 → ℝ} (hp : IsUnit4 p) (hr : IsUnit4 r)
    (h : quaternionToRotationMatrix p = quaternionToRotationMatrix r) : r = p ∨ r = -p := by
  refine unit_eq_or_neg hp hr ?_
  simp only [IsUnit4, sum4] at hp hr
  simp only [dot4, sum4]
  simp only [quaternionToRotationMatrix, Mat3.mk.injEq] at h
  obtain ⟨h00, h01, h02, h10, h11, h12, h20, h21, h22⟩ := h
  have xy : p 0 * p 1 = r 0 * r 1 := by linear_combination (h01 + h10) / 4
  have zw : p 2 * p 3 = r 2 * r 3 := by linear_combination (h10 - h01) / 4
  have xz : p 0 * p 2 = r 0 * r 2 := by linear_combination (h02 + h20) / 4
  have yw : p 1 * p 3 = r 1 * r 3 := by linear_combination (h02 - h20) / 4
  have yz : p 1 * p 2 = r 1 * r 2 := by linear_combination (h12 + h21) / 4
  have xw : p 0 * p 3 = r 0 * r 3 := by linear_combination (h21 - h12) / 4
  have xx : p 0 * p 0 = r 0 * r 0 := by linear_combination (h00 - h11 - h22) / 4
  have yy : p 1 * p 1 = r 1 * r 1 := by linear_combination (h11 - h00 - h22) / 4
  have zz : p 2 * p 2 = r 2 * r 2 := by linear_combination (h22 - h00 - h11) / 4
  have ww : p 3 * p 3 = r 3 * r 3 := by linear_combination hp - hr - xx - yy - zz
  have e : (p 0 * r 0 + p 1 * r 1 + p 2 * r 2 + p 3 * r 3) ^ 2 = (r 0 * r 0 + r 1 * r 1 + r 2 * r 2 + r 3 * r 3) ^ 2 := by
    linear_combination r 0 * r 0 * xx + r 1 * r 1 * yy + r 2 * r 2 * zz + r 3 * r 3 * ww + 2 * r 0 * r 1 * xy +
      2 * r 0 * r 2 * xz + 2 * r 0 * r 3 * xw + 2 * r 1 * r 2 * yz + 2 * r 1 * r 3 * yw + 2 * r 2 * r 3 * zw
  rw [e, hr, one_pow]

end Momentum.TensorQuat
