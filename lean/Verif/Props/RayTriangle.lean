import Verif.Model.RayTriangle
import Verif.Spec.Geometry
import Mathlib.Tactic.Linarith
import Mathlib.Tactic.NormNum.Basic

/-!
# C42: the intersection of a ray and a triangle
-/

namespace Momentum

/-- The point of the plane with the barycentric coordinates `1 - u - v`, `u`, `v`. -/
def baryPoint (p0 p1 p2 : Vec3 ℝ) (u v : ℝ) : Vec3 ℝ := (1 - u - v) • p0 + u • p1 + v • p2

/-- The length of a vector. -/
noncomputable def len (v : Vec3 ℝ) : ℝ := Real.sqrt (v.x * v.x + v.y * v.y + v.z * v.z)

/-- The line is far enough from parallel to the triangle's plane for a tolerance `eps`: its direction is not parallel to
the edge `p0 p2`, and the angle between the other edge and their common normal is not too close to a right one. -/
def Transversal (eps : ℝ) (d p0 p1 p2 : Vec3 ℝ) : Prop :=
  eps ≤ len (d.cross (p2 - p0)) ∧
  eps * (len (p1 - p0) * len (d.cross (p2 - p0))) ≤ |(p1 - p0).dot (d.cross (p2 - p0))| ∧
  (p1 - p0).dot (d.cross (p2 - p0)) ≠ 0

theorem norm_eq_len (v : Vec3 ℝ) : v.norm = len v := rfl

theorem len_nonneg (v : Vec3 ℝ) : 0 ≤ len v := Real.sqrt_nonneg _

theorem len_sq (v : Vec3 ℝ) : len v * len v = v.sqNorm := by
  unfold len
  exact Real.mul_self_sqrt (by nlinarith [mul_self_nonneg v.x, mul_self_nonneg v.y, mul_self_nonneg v.z])

theorem sqNorm_eq_zero' {v : Vec3 ℝ} (h : ¬0 < v.sqNorm) : v = 0 := by
  have h1 : v.sqNorm ≤ 0 := not_lt.1 h
  simp only [Vec3.sqNorm, Vec3.dot] at h1
  have hx := mul_self_nonneg v.x
  have hy := mul_self_nonneg v.y
  have hz := mul_self_nonneg v.z
  ext
  · exact mul_self_eq_zero.mp (by linarith)
  · exact mul_self_eq_zero.mp (by linarith)
  · exact mul_self_eq_zero.mp (by linarith)

/-- The product of the normalised vectors, cleared of the lengths. -/
theorem normalized_dot (a b : Vec3 ℝ) : len a * len b * a.normalized.dot b.normalized = a.dot b := by
  by_cases ha : 0 < a.sqNorm
  · by_cases hb : 0 < b.sqNorm
    · have ha' : len a ≠ 0 := fun h => by have := len_sq a; rw [h] at this; linarith
      have hb' : len b ≠ 0 := fun h => by have := len_sq b; rw [h] at this; linarith
      simp only [Vec3.normalized, if_pos ha, if_pos hb, norm_eq_len, Vec3.dot, Vec3.smul_x, Vec3.smul_y, Vec3.smul_z]
      field_simp
    · have := sqNorm_eq_zero' hb
      subst this
      simp [Vec3.normalized, Vec3.sqNorm, Vec3.dot]
  · have := sqNorm_eq_zero' ha
    subst this
    simp [Vec3.normalized, Vec3.sqNorm, Vec3.dot]

/-- The three numbers of the Möller-Trumbore test solve the equations of the intersection. -/
theorem moller_trumbore {o d p0 p1 p2 : Vec3 ℝ} {i : ℝ} (hi : (p1 - p0).dot (d.cross (p2 - p0)) * i = 1) :
    o + ((p2 - p0).dot ((o - p0).cross (p1 - p0)) * i) • d =
      baryPoint p0 p1 p2 ((o - p0).dot (d.cross (p2 - p0)) * i) (d.dot ((o - p0).cross (p1 - p0)) * i) := by
  simp only [baryPoint]
  ext
  · simp only [Vec3.dot, Vec3.cross, Vec3.sub_x, Vec3.sub_y, Vec3.sub_z, Vec3.add_x, Vec3.smul_x] at *
    linear_combination (p0.x - o.x) * hi
  · simp only [Vec3.dot, Vec3.cross, Vec3.sub_x, Vec3.sub_y, Vec3.sub_z, Vec3.add_y, Vec3.smul_y] at *
    linear_combination (p0.y - o.y) * hi
  · simp only [Vec3.dot, Vec3.cross, Vec3.sub_x, Vec3.sub_y, Vec3.sub_z, Vec3.add_z, Vec3.smul_z] at *
    linear_combination (p0.z - o.z) * hi

/-- The solution is unique. -/
theorem moller_trumbore_unique {o d p0 p1 p2 : Vec3 ℝ} {i t u v : ℝ}
    (hi : (p1 - p0).dot (d.cross (p2 - p0)) * i = 1) (h : o + t • d = baryPoint p0 p1 p2 u v) :
    t = (p2 - p0).dot ((o - p0).cross (p1 - p0)) * i ∧ u = (o - p0).dot (d.cross (p2 - p0)) * i ∧
      v = d.dot ((o - p0).cross (p1 - p0)) * i := by
  have hx := congrArg Vec3.x h
  have hy := congrArg Vec3.y h
  have hz := congrArg Vec3.z h
  simp only [baryPoint, Vec3.add_x, Vec3.add_y, Vec3.add_z, Vec3.smul_x, Vec3.smul_y, Vec3.smul_z] at hx hy hz
  have ox : o.x = (1 - u - v) * p0.x + u * p1.x + v * p2.x - t * d.x := by linarith
  have oy : o.y = (1 - u - v) * p0.y + u * p1.y + v * p2.y - t * d.y := by linarith
  have oz : o.z = (1 - u - v) * p0.z + u * p1.z + v * p2.z - t * d.z := by linarith
  simp only [Vec3.dot, Vec3.cross, Vec3.sub_x, Vec3.sub_y, Vec3.sub_z] at *
  rw [ox, oy, oz]
  refine ⟨?_, ?_, ?_⟩
  · linear_combination (-t) * hi
  · linear_combination (-u) * hi
  · linear_combination (-v) * hi

theorem det_ne_zero_of {eps : ℝ} (heps : 0 < eps) {d p0 p1 p2 : Vec3 ℝ} (h1 : ¬(d.cross (p2 - p0)).norm < eps)
    (h2 : ¬|(p1 - p0).normalized.dot (d.cross (p2 - p0)).normalized| < eps) :
    (p1 - p0).dot (d.cross (p2 - p0)) ≠ 0 := by
  rw [← normalized_dot]
  have h3 : (p1 - p0).normalized.dot (d.cross (p2 - p0)).normalized ≠ 0 := by
    intro h; rw [h, abs_zero] at h2; exact h2 heps
  have h4 : len (d.cross (p2 - p0)) ≠ 0 := by
    intro h; rw [norm_eq_len, h] at h1; exact h1 heps
  have h5 : len (p1 - p0) ≠ 0 := by
    intro h
    apply h3
    have : ¬0 < (p1 - p0).sqNorm := by rw [← len_sq, h]; simp
    rw [sqNorm_eq_zero' this]
    simp [Vec3.normalized, Vec3.sqNorm, Vec3.dot]
  exact mul_ne_zero (mul_ne_zero h5 h4) h3

/-- **C42**, soundness: the reported point lies on the line at the reported parameter, it is the point of the triangle's
plane with the reported barycentric coordinates, and these are in range up to the tolerance. -/
theorem C42_sound (eps : ℝ) (heps : 0 < eps) (o d p0 p1 p2 x : Vec3 ℝ) (t u v : ℝ)
    (h : rayTriangleIntersect eps o d p0 p1 p2 = some (x, t, u, v)) :
    x = o + t • d ∧ x = baryPoint p0 p1 p2 u v ∧ -eps ≤ u ∧ u ≤ 1 + eps ∧ -eps ≤ v ∧ u + v ≤ 1 + eps := by
  unfold rayTriangleIntersect at h
  dsimp only at h
  split_ifs at h with h1 h2 h3 h4
  have hdet := det_ne_zero_of heps h1 h2
  simp only [Option.some.injEq, Prod.mk.injEq] at h
  obtain ⟨rfl, rfl, rfl, rfl⟩ := h
  rw [not_or, not_lt, not_lt] at h3 h4
  exact ⟨rfl, moller_trumbore (mul_one_div_cancel hdet), h3.1, h3.2, h4.1, h4.2⟩

/-- **C42**, completeness: whenever the line meets the triangle (or the range up to the tolerance) and is not too close
to parallel, the hit is reported with its parameters. -/
theorem C42_complete (eps : ℝ) (heps : 0 < eps) (o d p0 p1 p2 : Vec3 ℝ) (t u v : ℝ)
    (htr : Transversal eps d p0 p1 p2) (hx : o + t • d = baryPoint p0 p1 p2 u v)
    (hu : -eps ≤ u) (hu1 : u ≤ 1 + eps) (hv : -eps ≤ v) (huv : u + v ≤ 1 + eps) :
    rayTriangleIntersect eps o d p0 p1 p2 = some (o + t • d, t, u, v) := by
  obtain ⟨h1, h2, h3⟩ := htr
  obtain ⟨et, eu, ev⟩ := moller_trumbore_unique (mul_one_div_cancel h3) hx
  unfold rayTriangleIntersect
  dsimp only
  have hl : 0 < len (p1 - p0) * len (d.cross (p2 - p0)) := by
    refine mul_pos ?_ (lt_of_lt_of_le heps h1)
    rcases lt_or_eq_of_le (len_nonneg (p1 - p0)) with h | h
    · exact h
    · exfalso; apply h3; rw [← normalized_dot, ← h]; simp
  have hn : ¬|(p1 - p0).normalized.dot (d.cross (p2 - p0)).normalized| < eps := by
    intro hlt
    rw [← normalized_dot, abs_mul, abs_of_pos hl] at h2
    nlinarith
  rw [norm_eq_len, if_neg (not_lt.2 h1), if_neg hn, ← eu, if_neg (by rw [not_or, not_lt, not_lt]; exact ⟨hu, hu1⟩), ← ev,
    if_neg (by rw [not_or, not_lt, not_lt]; exact ⟨hv, huv⟩), ← et]

/-- **C42**, for triangles in the proper sense: a line that meets the triangle and is not too close to parallel is
reported to hit it, at that point. -/
theorem C42_hit (eps : ℝ) (heps : 0 < eps) (o d p0 p1 p2 : Vec3 ℝ) (t : ℝ) (htr : Transversal eps d p0 p1 p2)
    (hx : InTriangle p0 p1 p2 (o + t • d)) :
    ∃ u v, rayTriangleIntersect eps o d p0 p1 p2 = some (o + t • d, t, u, v) := by
  obtain ⟨u, v, w, hu, hv, hw, hs, e⟩ := hx
  refine ⟨v, w, C42_complete eps heps o d p0 p1 p2 t v w htr ?_ (by linarith) (by linarith) (by linarith) (by linarith)⟩
  rw [e, show u = 1 - v - w by linarith]; rfl

/-- The smaller the tolerance, the more lines count as transversal; with a positive determinant some tolerance does. -/
example : Transversal (1 / 10 ^ 6) ⟨0, 0, -2⟩ ⟨0, 0, 0⟩ ⟨4, 0, 0⟩ ⟨0, 4, 0⟩ := by
  have e : (⟨0, 0, -2⟩ : Vec3 ℝ).cross ((⟨0, 4, 0⟩ : Vec3 ℝ) - ⟨0, 0, 0⟩) = ⟨8, 0, 0⟩ := by
    ext <;> simp
    norm_num
  have l1 : len (⟨8, 0, 0⟩ : Vec3 ℝ) = 8 := by
    unfold len; rw [show (8 : ℝ) * 8 + 0 * 0 + 0 * 0 = 8 ^ 2 by norm_num]; exact Real.sqrt_sq (by norm_num)
  have l2 : len ((⟨4, 0, 0⟩ : Vec3 ℝ) - ⟨0, 0, 0⟩) = 4 := by
    unfold len
    rw [show ∀ x y z : ℝ, x * x + y * y + z * z = x * x + y * y + z * z from fun _ _ _ => rfl]
    simp only [Vec3.sub_x, Vec3.sub_y, Vec3.sub_z]
    rw [show ((4 : ℝ) - 0) * (4 - 0) + (0 - 0) * (0 - 0) + (0 - 0) * (0 - 0) = 4 ^ 2 by norm_num]
    exact Real.sqrt_sq (by norm_num)
  refine ⟨?_, ?_, ?_⟩ <;> rw [e]
  · rw [l1]; norm_num
  · rw [l1, l2]; simp only [Vec3.dot, Vec3.sub_x, Vec3.sub_y, Vec3.sub_z]; norm_num
  · simp [Vec3.dot]

/-- Beside C42: the first test compares the length of `direction × edge` with the tolerance itself.  However well the
line crosses the triangle, it is not reported when the direction vector is too short. -/
theorem C42_short_direction_counterexample (eps : ℝ) (heps : 0 < eps) :
    InTriangle (⟨-1, -1, 0⟩ : Vec3 ℝ) ⟨1, -1, 0⟩ ⟨-1, 1, 0⟩ (⟨-1/2, -1/2, -1⟩ + (4 / eps) • ⟨0, 0, eps / 4⟩) ∧
    rayTriangleIntersect eps ⟨-1/2, -1/2, -1⟩ ⟨0, 0, eps / 4⟩ ⟨-1, -1, 0⟩ ⟨1, -1, 0⟩ ⟨-1, 1, 0⟩ = none := by
  constructor
  · refine ⟨1 / 2, 1 / 4, 1 / 4, by norm_num, by norm_num, by norm_num, by norm_num, ?_⟩
    have he : eps ≠ 0 := heps.ne'
    ext <;> simp <;> field_simp <;> norm_num
  · have e : (⟨0, 0, eps / 4⟩ : Vec3 ℝ).cross ((⟨-1, 1, 0⟩ : Vec3 ℝ) - ⟨-1, -1, 0⟩) = ⟨-(eps / 2), 0, 0⟩ := by
      ext <;> simp
      ring
    unfold rayTriangleIntersect
    dsimp only
    rw [e, norm_eq_len]
    have l : len ⟨-(eps / 2), 0, 0⟩ = eps / 2 := by
      unfold len
      rw [show -(eps / 2) * -(eps / 2) + 0 * 0 + 0 * 0 = (eps / 2) ^ 2 by ring]
      exact Real.sqrt_sq (by linarith)
    rw [l, if_pos (by linarith)]

end Momentum
