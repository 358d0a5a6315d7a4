import Verif.Model.Vec
import Mathlib.Algebra.Order.Field.Basic
import Mathlib.Tactic.Linarith

/-!
# The square of the length of a vector
-/

namespace Momentum

variable {K : Type} [Field K] [LinearOrder K] [IsStrictOrderedRing K]

theorem vec_sqNorm_nonneg (v : Vec3 K) : 0 ≤ v.sqNorm := by
  simp only [Vec3.sqNorm, Vec3.dot]
  nlinarith [mul_self_nonneg v.x, mul_self_nonneg v.y, mul_self_nonneg v.z]

theorem vec_eq_zero_of_sqNorm {v : Vec3 K} (h : v.sqNorm = 0) : v = 0 := by
  simp only [Vec3.sqNorm, Vec3.dot] at h
  have sx := mul_self_nonneg v.x
  have sy := mul_self_nonneg v.y
  have sz := mul_self_nonneg v.z
  ext
  · exact mul_self_eq_zero.mp (by linarith)
  · exact mul_self_eq_zero.mp (by linarith)
  · exact mul_self_eq_zero.mp (by linarith)

end Momentum
