import Verif.Model.Transform

namespace Momentum
variable {K : Type*}

namespace Quat
variable [CommRing K]

theorem mul_assoc' (a b c : Quat K) : a * b * c = a * (b * c) := by
  ext <;> simp <;> ring

theorem one_mul' (a : Quat K) : one * a = a := by ext <;> simp [one]
theorem mul_one' (a : Quat K) : a * one = a := by ext <;> simp [one]

theorem normSq_mul (a b : Quat K) : (a * b).normSq = a.normSq * b.normSq := by
  simp only [normSq, mul_w, mul_x, mul_y, mul_z]; ring

@[simp] theorem normSq_one : (one : Quat K).normSq = 1 := by simp [normSq, one]

@[simp] theorem rotate_one (v : Vec3 K) : (one : Quat K).rotate v = v := by
  ext <;> simp [rotate, one, vec]

/-- `q v q*`. -/
def sandwich (q : Quat K) (v : Vec3 K) : Vec3 K := q.rotate v + (q.normSq - 1) • v

theorem sandwich_mul (a b : Quat K) (v : Vec3 K) :
    (a * b).sandwich v = a.sandwich (b.sandwich v) := by
  ext <;> simp [sandwich, rotate, vec, normSq] <;> ring

theorem sandwich_of_unit {q : Quat K} (h : q.normSq = 1) (v : Vec3 K) :
    q.sandwich v = q.rotate v := by simp [sandwich, h]

theorem rotate_mul {a b : Quat K} (ha : a.normSq = 1) (hb : b.normSq = 1) (v : Vec3 K) :
    (a * b).rotate v = a.rotate (b.rotate v) := by
  rw [← sandwich_of_unit ha, ← sandwich_of_unit hb, ← sandwich_of_unit, sandwich_mul]
  rw [normSq_mul, ha, hb, one_mul]

theorem rotate_add (q : Quat K) (u v : Vec3 K) : q.rotate (u + v) = q.rotate u + q.rotate v := by
  ext <;> simp [rotate, vec] <;> ring

theorem rotate_smul (q : Quat K) (s : K) (v : Vec3 K) : q.rotate (s • v) = s • q.rotate v := by
  ext <;> simp [rotate, vec] <;> ring

theorem rotate_zero (q : Quat K) : q.rotate 0 = 0 := by
  ext <;> simp [rotate, vec]

theorem rotate_neg (q : Quat K) (v : Vec3 K) : q.rotate (-v) = -q.rotate v := by
  ext <;> simp [rotate, vec] <;> ring

theorem rotate_sub (q : Quat K) (u v : Vec3 K) : q.rotate (u - v) = q.rotate u - q.rotate v := by
  ext <;> simp [rotate, vec] <;> ring

theorem toMat_mulVec (q : Quat K) (v : Vec3 K) : q.toMat.mulVec v = q.rotate v := by
  ext <;> simp [rotate, vec, toMat, Mat3.mulVec] <;> ring

theorem dot_rotate {q : Quat K} (h : q.normSq = 1) (u v : Vec3 K) :
    (q.rotate u).dot (q.rotate v) = u.dot v := by
  have key : (q.sandwich u).dot (q.sandwich v) = q.normSq ^ 2 * u.dot v := by
    simp [sandwich, rotate, vec, normSq, Vec3.dot]; ring
  rw [sandwich_of_unit h, sandwich_of_unit h, h] at key
  simpa using key

theorem cross_rotate {q : Quat K} (h : q.normSq = 1) (u v : Vec3 K) :
    (q.rotate u).cross (q.rotate v) = q.rotate (u.cross v) := by
  have key : (q.sandwich u).cross (q.sandwich v) = q.normSq • q.sandwich (u.cross v) := by
    ext <;> simp [sandwich, rotate, vec, normSq] <;> ring
  simp only [sandwich_of_unit h, h, one_smul] at key
  exact key

end Quat

theorem Mat3.ext_mulVec [CommRing K] {a b : Mat3 K} (h : ∀ v, a.mulVec v = b.mulVec v) : a = b := by
  have h1 := h ⟨1, 0, 0⟩
  have h2 := h ⟨0, 1, 0⟩
  have h3 := h ⟨0, 0, 1⟩
  simp [Mat3.mulVec] at h1 h2 h3
  ext <;> tauto

theorem Mat3.mul_mulVec [CommRing K] (a b : Mat3 K) (v : Vec3 K) :
    (a.mul b).mulVec v = a.mulVec (b.mulVec v) := by
  ext <;> simp [Mat3.mulVec, Mat3.mul] <;> ring

namespace Quat

theorem toMat_mul [CommRing K] {a b : Quat K} (ha : a.normSq = 1) (hb : b.normSq = 1) :
    (a * b).toMat = a.toMat.mul b.toMat := by
  apply Mat3.ext_mulVec
  intro v
  rw [Mat3.mul_mulVec, toMat_mulVec, toMat_mulVec, toMat_mulVec, rotate_mul ha hb]

variable [Field K] [DecidableEq K]

theorem inverse_of_unit {q : Quat K} (h : q.normSq = 1) :
    q.inverse = ⟨q.w, -q.x, -q.y, -q.z⟩ := by
  simp [inverse, h]

theorem normSq_inverse {q : Quat K} (h : q.normSq = 1) : q.inverse.normSq = 1 := by
  rw [inverse_of_unit h, ← h]; simp [normSq]

theorem mul_inverse {q : Quat K} (h : q.normSq = 1) : q * q.inverse = one := by
  rw [inverse_of_unit h]
  ext <;> simp only [one, mul_w, mul_x, mul_y, mul_z]
  · rw [← h]; simp only [normSq]; ring
  all_goals ring

theorem inverse_mul {q : Quat K} (h : q.normSq = 1) : q.inverse * q = one := by
  rw [inverse_of_unit h]
  ext <;> simp only [one, mul_w, mul_x, mul_y, mul_z]
  · rw [← h]; simp only [normSq]; ring
  all_goals ring

theorem inverse_rotate_rotate {q : Quat K} (h : q.normSq = 1) (v : Vec3 K) :
    q.inverse.rotate (q.rotate v) = v := by
  rw [← rotate_mul (normSq_inverse h) h, inverse_mul h, rotate_one]

theorem rotate_inverse_rotate {q : Quat K} (h : q.normSq = 1) (v : Vec3 K) :
    q.rotate (q.inverse.rotate v) = v := by
  rw [← rotate_mul h (normSq_inverse h), mul_inverse h, rotate_one]

end Quat

namespace Transform
variable [CommRing K]

@[simp] theorem mul_translation (a b : Transform K) :
    (a * b).translation = a.translation + a.rotation.rotate (a.scale • b.translation) := rfl
@[simp] theorem mul_rotation (a b : Transform K) : (a * b).rotation = a.rotation * b.rotation := rfl
@[simp] theorem mul_scale (a b : Transform K) : (a * b).scale = a.scale * b.scale := rfl

theorem one_mul' (a : Transform K) : one * a = a := by
  ext1
  · simp [one, Quat.one_mul']
  · simp [one]
  · simp [one]

theorem mul_one' (a : Transform K) : a * one = a := by
  ext1
  · simp [one, Quat.mul_one']
  · simp [one, Quat.rotate_zero]
  · simp [one]

theorem mul_assoc' {a b : Transform K} (ha : a.rotation.normSq = 1) (hb : b.rotation.normSq = 1)
    (c : Transform K) : a * b * c = a * (b * c) := by
  ext1
  · simp [Quat.mul_assoc']
  · simp [Quat.rotate_mul ha hb, Quat.rotate_add, Quat.rotate_smul, smul_add, add_assoc, mul_smul]
  · simp [mul_assoc]

theorem transformPoint_mul {a b : Transform K} (ha : a.rotation.normSq = 1)
    (hb : b.rotation.normSq = 1) (p : Vec3 K) :
    (a * b).transformPoint p = a.transformPoint (b.transformPoint p) := by
  simp [transformPoint, Quat.rotate_mul ha hb, Quat.rotate_add, Quat.rotate_smul, smul_add,
    add_assoc, mul_smul]

theorem normSq_mul {a b : Transform K} (ha : a.rotation.normSq = 1)
    (hb : b.rotation.normSq = 1) : (a * b).rotation.normSq = 1 := by
  simp [Quat.normSq_mul, ha, hb]

theorem toLinear_mulVec (a : Transform K) (v : Vec3 K) :
    a.toLinear.mulVec v = a.rotation.rotate (a.scale • v) := by
  rw [← Quat.toMat_mulVec]
  ext <;> simp [toLinear, toRotationMatrix, Mat3.mulVec, Mat3.smul] <;> ring

theorem toLinear_mul {a b : Transform K} (ha : a.rotation.normSq = 1)
    (hb : b.rotation.normSq = 1) : (a * b).toLinear = a.toLinear.mul b.toLinear := by
  apply Mat3.ext_mulVec
  intro v
  rw [Mat3.mul_mulVec, toLinear_mulVec, toLinear_mulVec, toLinear_mulVec]
  simp [Quat.rotate_mul ha hb, Quat.rotate_smul, mul_smul]

theorem mul_inverse {K : Type*} [Field K] [DecidableEq K] {a : Transform K}
    (ha : a.rotation.normSq = 1) (hs : a.scale ≠ 0) : a * a.inverse = one := by
  ext1
  · exact Quat.mul_inverse ha
  · simp [inverse, one, Quat.rotate_neg, Quat.rotate_inverse_rotate ha, smul_smul, hs]
  · simp [inverse, one, hs]

theorem inverse_mul {K : Type*} [Field K] [DecidableEq K] {a : Transform K}
    (ha : a.rotation.normSq = 1) (hs : a.scale ≠ 0) : a.inverse * a = one := by
  ext1
  · exact Quat.inverse_mul ha
  · simp [inverse, one, Quat.rotate_smul]
  · simp [inverse, one, hs]

theorem normSq_inverse {K : Type*} [Field K] [DecidableEq K] {a : Transform K}
    (ha : a.rotation.normSq = 1) : a.inverse.rotation.normSq = 1 := Quat.normSq_inverse ha

end Transform
end Momentum
