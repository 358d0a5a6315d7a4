import Verif.Model.TriangleProjection
import Verif.Spec.Geometry
import Verif.Lemmas.Vec
import Mathlib.Tactic.Linarith
import Mathlib.Data.Rat.Cast.Order

/-!
# C41: the projection to a triangle
-/

namespace Momentum

variable {K : Type} [Field K] [LinearOrder K] [IsStrictOrderedRing K]

/-- Cauchy-Schwarz, strict for a triangle with area. -/
theorem gram_pos {a b c : Vec3 K} (h : Nondegenerate a b c) :
    0 < (b - a).dot (b - a) * (c - a).dot (c - a) - (b - a).dot (c - a) * (b - a).dot (c - a) := by
  have e : (b - a).dot (b - a) * (c - a).dot (c - a) - (b - a).dot (c - a) * (b - a).dot (c - a)
      = ((b - a).cross (c - a)).dot ((b - a).cross (c - a)) := by
    simp only [Vec3.dot, Vec3.cross]; ring
  rw [e]
  have h' : (b - a).cross (c - a) ≠ 0 := h
  generalize (b - a).cross (c - a) = n at h'
  simp only [Vec3.dot]
  rcases lt_or_eq_of_le (show 0 ≤ n.x * n.x + n.y * n.y + n.z * n.z by
    nlinarith [mul_self_nonneg n.x, mul_self_nonneg n.y, mul_self_nonneg n.z]) with h1 | h1
  · exact h1
  · exfalso; apply h'
    have hx : n.x * n.x = 0 := by nlinarith [mul_self_nonneg n.x, mul_self_nonneg n.y, mul_self_nonneg n.z]
    have hy : n.y * n.y = 0 := by nlinarith [mul_self_nonneg n.x, mul_self_nonneg n.y, mul_self_nonneg n.z]
    have hz : n.z * n.z = 0 := by nlinarith [mul_self_nonneg n.x, mul_self_nonneg n.y, mul_self_nonneg n.z]
    ext
    · exact mul_self_eq_zero.mp hx
    · exact mul_self_eq_zero.mp hy
    · exact mul_self_eq_zero.mp hz

/-- The variational inequality at the corners makes a point of the triangle the closest one. -/
theorem closest_of_corners {a b c p q : Vec3 K} (hq : InTriangle a b c q) (ha : (p - q).dot (a - q) ≤ 0)
    (hb : (p - q).dot (b - q) ≤ 0) (hc : (p - q).dot (c - q) ≤ 0) : IsClosest (InTriangle a b c) p q := by
  refine ⟨hq, fun q' hq' => ?_⟩
  obtain ⟨u, v, w, hu, hv, hw, hs, rfl⟩ := hq'
  have hu1 : u = 1 - v - w := by linarith
  have key : (p - q).dot (u • a + v • b + w • c - q) ≤ 0 := by
    have e : (p - q).dot (u • a + v • b + w • c - q)
        = u * (p - q).dot (a - q) + v * (p - q).dot (b - q) + w * (p - q).dot (c - q) := by
      subst hu1
      simp only [Vec3.dot, Vec3.sub_x, Vec3.sub_y, Vec3.sub_z, Vec3.add_x, Vec3.add_y, Vec3.add_z, Vec3.smul_x,
        Vec3.smul_y, Vec3.smul_z]; ring
    rw [e]
    nlinarith [mul_nonneg hu (neg_nonneg.2 ha), mul_nonneg hv (neg_nonneg.2 hb), mul_nonneg hw (neg_nonneg.2 hc)]
  generalize u • a + v • b + w • c = r at key
  have h0 := vec_sqNorm_nonneg (r - q)
  simp only [sqDist, Vec3.sqNorm, Vec3.dot, Vec3.sub_x, Vec3.sub_y, Vec3.sub_z] at *
  nlinarith

/-- The closest point of a triangle is unique. -/
theorem closest_triangle_unique {a b c p q q' : Vec3 K} (h : IsClosest (InTriangle a b c) p q)
    (h' : IsClosest (InTriangle a b c) p q') : q = q' := by
  have hm : InTriangle a b c ((1 / 2 : K) • q + (1 / 2 : K) • q') := by
    obtain ⟨u, v, w, hu, hv, hw, hs, rfl⟩ := h.1
    obtain ⟨u', v', w', hu', hv', hw', hs', rfl⟩ := h'.1
    refine ⟨(u + u') / 2, (v + v') / 2, (w + w') / 2, by linarith, by linarith, by linarith, by linarith, ?_⟩
    ext <;> simp <;> ring
  have h1 := h.2 _ hm
  have h2 := h'.2 _ hm
  simp only [sqDist, Vec3.sqNorm, Vec3.dot, Vec3.sub_x, Vec3.sub_y, Vec3.sub_z, Vec3.add_x, Vec3.add_y, Vec3.add_z,
    Vec3.smul_x, Vec3.smul_y, Vec3.smul_z] at h1 h2
  have h3 : (q.x - q'.x) * (q.x - q'.x) + (q.y - q'.y) * (q.y - q'.y) + (q.z - q'.z) * (q.z - q'.z) ≤ 0 := by
    nlinarith
  have sx := mul_self_nonneg (q.x - q'.x)
  have sy := mul_self_nonneg (q.y - q'.y)
  have sz := mul_self_nonneg (q.z - q'.z)
  ext
  · exact sub_eq_zero.mp (mul_self_eq_zero.mp (by linarith))
  · exact sub_eq_zero.mp (mul_self_eq_zero.mp (by linarith))
  · exact sub_eq_zero.mp (mul_self_eq_zero.mp (by linarith))

section regions
variable {a b c p : Vec3 K}

theorem regionA (h1 : (b - a).dot (p - a) ≤ 0) (h2 : (c - a).dot (p - a) ≤ 0) :
    IsClosest (InTriangle a b c) p a := by
  refine closest_of_corners ⟨1, 0, 0, by simp, by simp, by simp, by simp, by ext <;> simp⟩ ?_ ?_ ?_
  · simp [Vec3.dot]
  · simp only [Vec3.dot, Vec3.sub_x, Vec3.sub_y, Vec3.sub_z] at *; linarith
  · simp only [Vec3.dot, Vec3.sub_x, Vec3.sub_y, Vec3.sub_z] at *; linarith

theorem regionB (h1 : (b - a).dot (p - b) ≥ 0) (h2 : (c - a).dot (p - b) ≤ (b - a).dot (p - b)) :
    IsClosest (InTriangle a b c) p b := by
  refine closest_of_corners ⟨0, 1, 0, by simp, by simp, by simp, by simp, by ext <;> simp⟩ ?_ ?_ ?_
  · simp only [Vec3.dot, Vec3.sub_x, Vec3.sub_y, Vec3.sub_z] at *; linarith
  · simp [Vec3.dot]
  · simp only [Vec3.dot, Vec3.sub_x, Vec3.sub_y, Vec3.sub_z] at *; linarith

theorem regionC (h1 : (c - a).dot (p - c) ≥ 0) (h2 : (b - a).dot (p - c) ≤ (c - a).dot (p - c)) :
    IsClosest (InTriangle a b c) p c := by
  refine closest_of_corners ⟨0, 0, 1, by simp, by simp, by simp, by simp, by ext <;> simp⟩ ?_ ?_ ?_
  · simp only [Vec3.dot, Vec3.sub_x, Vec3.sub_y, Vec3.sub_z] at *; linarith
  · simp only [Vec3.dot, Vec3.sub_x, Vec3.sub_y, Vec3.sub_z] at *; linarith
  · simp [Vec3.dot]

theorem dot_bp (a b p : Vec3 K) : (b - a).dot (p - b) = (b - a).dot (p - a) - (b - a).dot (b - a) := by
  simp only [Vec3.dot, Vec3.sub_x, Vec3.sub_y, Vec3.sub_z]; ring
theorem dot_bp' (a b c p : Vec3 K) : (c - a).dot (p - b) = (c - a).dot (p - a) - (b - a).dot (c - a) := by
  simp only [Vec3.dot, Vec3.sub_x, Vec3.sub_y, Vec3.sub_z]; ring
theorem dot_cp (a b c p : Vec3 K) : (b - a).dot (p - c) = (b - a).dot (p - a) - (b - a).dot (c - a) := by
  simp only [Vec3.dot, Vec3.sub_x, Vec3.sub_y, Vec3.sub_z]; ring
theorem dot_cp' (a c p : Vec3 K) : (c - a).dot (p - c) = (c - a).dot (p - a) - (c - a).dot (c - a) := by
  simp only [Vec3.dot, Vec3.sub_x, Vec3.sub_y, Vec3.sub_z]; ring

/-- The dot products at a point given by its coordinates in the plane. -/
theorem corner_dots (v w : K) (q : Vec3 K) (hq : q = a + v • (b - a) + w • (c - a)) :
    (b - a).dot (p - q) = (b - a).dot (p - a) - v * (b - a).dot (b - a) - w * (b - a).dot (c - a) ∧
    (c - a).dot (p - q) = (c - a).dot (p - a) - v * (b - a).dot (c - a) - w * (c - a).dot (c - a) ∧
    (p - q).dot (a - q) = -(v * (b - a).dot (p - q)) - w * (c - a).dot (p - q) ∧
    (p - q).dot (b - q) = (1 - v) * (b - a).dot (p - q) - w * (c - a).dot (p - q) ∧
    (p - q).dot (c - q) = -(v * (b - a).dot (p - q)) + (1 - w) * (c - a).dot (p - q) := by
  subst hq
  simp only [Vec3.dot, Vec3.sub_x, Vec3.sub_y, Vec3.sub_z, Vec3.add_x, Vec3.add_y, Vec3.add_z, Vec3.smul_x,
    Vec3.smul_y, Vec3.smul_z]
  refine ⟨by ring, by ring, by ring, by ring, by ring⟩

theorem inTriangle_of {v w : K} (hv : 0 ≤ v) (hw : 0 ≤ w) (h : v + w ≤ 1) :
    InTriangle a b c (a + v • (b - a) + w • (c - a)) :=
  ⟨1 - v - w, v, w, by linarith, hv, hw, by ring, by ext <;> simp <;> ring⟩

/-- A point of the triangle with the coordinates `v`, `w`, and the dot products `x`, `y` of the edges with the rest. -/
theorem closest_of_coords {v w : K} {q : Vec3 K} (hq : q = a + v • (b - a) + w • (c - a)) (hv : 0 ≤ v) (hw : 0 ≤ w)
    (h : v + w ≤ 1) (ha : 0 ≤ v * (b - a).dot (p - q) + w * (c - a).dot (p - q))
    (hb : (b - a).dot (p - q) ≤ v * (b - a).dot (p - q) + w * (c - a).dot (p - q))
    (hc : (c - a).dot (p - q) ≤ v * (b - a).dot (p - q) + w * (c - a).dot (p - q)) :
    IsClosest (InTriangle a b c) p q := by
  obtain ⟨_, _, e1, e2, e3⟩ := corner_dots (p := p) v w q hq
  refine closest_of_corners (hq ▸ inTriangle_of hv hw h) ?_ ?_ ?_
  · rw [e1]; linarith
  · rw [e2]; linarith
  · rw [e3]; linarith

end regions

/-- The numbers of the region tests. -/
structure Regions (A C g d1 d2 : K) : Prop where
  area : 0 < A * C - g * g
  A0 : 0 < A
  C0 : 0 < C
  E0 : 0 < A + C - 2 * g

theorem regions_of {a b c : Vec3 K} (h : Nondegenerate a b c) (d1 d2 : K) :
    Regions ((b - a).dot (b - a)) ((c - a).dot (c - a)) ((b - a).dot (c - a)) d1 d2 := by
  have h0 := gram_pos h
  have hA := vec_sqNorm_nonneg (b - a)
  have hC := vec_sqNorm_nonneg (c - a)
  have hE := vec_sqNorm_nonneg (c - b)
  have e : (c - b).sqNorm = (b - a).dot (b - a) + (c - a).dot (c - a) - 2 * (b - a).dot (c - a) := by
    simp only [Vec3.sqNorm, Vec3.dot, Vec3.sub_x, Vec3.sub_y, Vec3.sub_z]; ring
  rw [e] at hE
  simp only [Vec3.sqNorm] at hA hC
  generalize (b - a).dot (b - a) = A at *
  generalize (c - a).dot (c - a) = C at *
  generalize (b - a).dot (c - a) = g at *
  have gg := mul_self_nonneg g
  have A0 : 0 < A := by
    rcases lt_or_eq_of_le hA with h | h
    · exact h
    · subst h; nlinarith
  have C0 : 0 < C := by
    rcases lt_or_eq_of_le hC with h | h
    · exact h
    · subst h; nlinarith
  refine ⟨h0, A0, C0, ?_⟩
  rcases lt_or_eq_of_le hE with h | h
  · exact h
  · exfalso
    have hg : g = (A + C) / 2 := by linarith
    subst hg
    nlinarith [mul_self_nonneg (A - C)]

/-- One edge, seen from one of its ends. -/
theorem edge_from_end {A C g d1 d2 : K} (hN : 0 < A * C - g * g) (hA : 0 < A) (hC : 0 < C) (h0 : A * d2 - g * d1 ≤ 0)
    (h1 : d1 < 0) (h2 : 0 < d2) (h3 : C * d1 - g * d2 ≤ 0 → d2 ≤ C → False) (h4 : C ≤ d2 → d2 - C < d1 - g) : False := by
  rcases le_or_gt C d2 with h | h
  · have h5 := h4 h
    have hg : g < d1 := by linarith
    nlinarith [mul_nonneg hA.le (sub_nonneg.2 h), mul_pos (show (0 : K) < -g by linarith) (sub_pos.2 hg)]
  · have h5 : 0 < C * d1 - g * d2 := by
      by_contra hc
      exact h3 (not_lt.1 hc) h.le
    have hg : g < 0 := by
      by_contra hc
      nlinarith [mul_nonneg (not_lt.1 hc) h2.le, mul_pos hC (neg_pos.2 h1)]
    nlinarith [mul_pos (neg_pos.2 hg) h5, mul_nonneg hC.le (sub_nonneg.2 h0), mul_pos hN h2]

/-- When no region of a corner or an edge applies, the three areas are positive. -/
theorem face_region {A C g d1 d2 : K} (R : Regions A C g d1 d2) (n1 : ¬(d1 ≤ 0 ∧ d2 ≤ 0))
    (n2 : ¬(d1 - A ≥ 0 ∧ d2 - g ≤ d1 - A))
    (n3 : ¬(A * d2 - g * d1 ≤ 0 ∧ d1 ≥ 0 ∧ d1 - A ≤ 0))
    (n4 : ¬(d2 - C ≥ 0 ∧ d1 - g ≤ d2 - C))
    (n5 : ¬(C * d1 - g * d2 ≤ 0 ∧ d2 ≥ 0 ∧ d2 - C ≤ 0))
    (n6 : ¬(A * C - g * g - (A * d2 - g * d1) - (C * d1 - g * d2) ≤ 0 ∧ d2 - g - (d1 - A) ≥ 0 ∧
      d1 - g - (d2 - C) ≥ 0)) :
    0 < A * d2 - g * d1 ∧ 0 < C * d1 - g * d2 ∧
      0 < A * C - g * g - (A * d2 - g * d1) - (C * d1 - g * d2) := by
  obtain ⟨hN, hA, hC, hE⟩ := R
  refine ⟨?_, ?_, ?_⟩
  · by_contra hc
    have hc := not_lt.1 hc
    rcases lt_or_ge d1 0 with h1 | h1
    · have h2 : 0 < d2 := by by_contra h; exact n1 ⟨h1.le, not_lt.1 h⟩
      exact edge_from_end hN hA hC hc h1 h2 (fun x y => n5 ⟨x, h2.le, by linarith⟩)
        (fun x => by by_contra h; exact n4 ⟨by linarith, not_lt.1 h⟩)
    · have h3 : A < d1 := by by_contra h; exact n3 ⟨hc, h1, by linarith⟩
      have h2 : 0 < d2 - g - (d1 - A) := by by_contra h; exact n2 ⟨by linarith, by linarith⟩
      refine edge_from_end (A := A) (C := A + C - 2 * g) (g := A - g) (d1 := A - d1) (d2 := d2 - g - (d1 - A))
        (by linarith) hA hE (by linarith) (by linarith) h2 (fun x y => n6 ⟨by linarith, h2.le, by linarith⟩)
        (fun x => by by_contra h; exact n4 ⟨by linarith, by linarith⟩)
  · by_contra hc
    have hc := not_lt.1 hc
    rcases lt_or_ge d2 0 with h1 | h1
    · have h2 : 0 < d1 := by by_contra h; exact n1 ⟨not_lt.1 h, h1.le⟩
      exact edge_from_end (A := C) (C := A) (g := g) (d1 := d2) (d2 := d1) (by linarith) hC hA hc h1 h2
        (fun x y => n3 ⟨x, h2.le, by linarith⟩)
        (fun x => by by_contra h; exact n2 ⟨by linarith, not_lt.1 h⟩)
    · have h3 : C < d2 := by by_contra h; exact n5 ⟨hc, h1, by linarith⟩
      have h2 : 0 < d1 - g - (d2 - C) := by by_contra h; exact n4 ⟨by linarith, by linarith⟩
      refine edge_from_end (A := C) (C := A + C - 2 * g) (g := C - g) (d1 := C - d2) (d2 := d1 - g - (d2 - C))
        (by linarith) hC hE (by linarith) (by linarith) h2 (fun x y => n6 ⟨by linarith, by linarith, by linarith⟩)
        (fun x => by by_contra h; exact n2 ⟨by linarith, by linarith⟩)
  · by_contra hc
    have hc := not_lt.1 hc
    rcases lt_or_ge (d2 - g - (d1 - A)) 0 with h1 | h1
    · have h2 : 0 < A - d1 := by by_contra h; exact n2 ⟨by linarith, by linarith⟩
      exact edge_from_end (A := A + C - 2 * g) (C := A) (g := A - g) (d1 := d2 - g - (d1 - A)) (d2 := A - d1)
        (by linarith) hE hA (by linarith) h1 h2 (fun x y => n3 ⟨by linarith, by linarith, by linarith⟩)
        (fun x => by by_contra h; exact n1 ⟨by linarith, by linarith⟩)
    · have h3 : d1 - g - (d2 - C) < 0 := by by_contra h; exact n6 ⟨hc, h1, not_lt.1 h⟩
      have h2 : 0 < C - d2 := by by_contra h; exact n4 ⟨by linarith, by linarith⟩
      exact edge_from_end (A := A + C - 2 * g) (C := C) (g := C - g) (d1 := d1 - g - (d2 - C)) (d2 := C - d2)
        (by linarith) hE hC (by linarith) h3 h2 (fun x y => n5 ⟨by linarith, by linarith, by linarith⟩)
        (fun x => by by_contra h; exact n1 ⟨by linarith, by linarith⟩)

section regions
variable {a b c p : Vec3 K}

theorem regionAB (hn : Nondegenerate a b c) (h1 : (b - a).dot (p - a) * (c - a).dot (p - b) -
      (b - a).dot (p - b) * (c - a).dot (p - a) ≤ 0) (h2 : (b - a).dot (p - a) ≥ 0) (h3 : (b - a).dot (p - b) ≤ 0) :
    ∃ v, divOr ((b - a).dot (p - a)) ((b - a).dot (p - a) - (b - a).dot (p - b)) = some v ∧
      IsClosest (InTriangle a b c) p (a + v • (b - a)) := by
  obtain ⟨hN, hA, hC, hE⟩ := regions_of hn 0 0
  have e : (b - a).dot (p - a) - (b - a).dot (p - b) = (b - a).dot (b - a) := by rw [dot_bp a b p]; ring
  rw [e]
  refine ⟨_, if_neg hA.ne', ?_⟩
  rw [dot_bp a b p, dot_bp' a b c p] at h1
  rw [dot_bp a b p] at h3
  obtain ⟨e1, e2, -⟩ := corner_dots (a := a) (b := b) (c := c) (p := p)
    ((b - a).dot (p - a) / (b - a).dot (b - a)) 0 (a + ((b - a).dot (p - a) / (b - a).dot (b - a)) • (b - a))
    (by rw [zero_smul, add_zero])
  have hv : (b - a).dot (p - a) / (b - a).dot (b - a) * (b - a).dot (b - a) = (b - a).dot (p - a) :=
    div_mul_cancel₀ _ hA.ne'
  have hv0 : 0 ≤ (b - a).dot (p - a) / (b - a).dot (b - a) := div_nonneg h2 hA.le
  have hv1 : (b - a).dot (p - a) / (b - a).dot (b - a) ≤ 1 := (div_le_one hA).2 (by linarith)
  have x0 : (b - a).dot (p - (a + ((b - a).dot (p - a) / (b - a).dot (b - a)) • (b - a))) = 0 := by
    rw [e1]; linarith
  have y0 : (c - a).dot (p - (a + ((b - a).dot (p - a) / (b - a).dot (b - a)) • (b - a))) ≤ 0 := by
    rw [e2]
    generalize (b - a).dot (p - a) / (b - a).dot (b - a) = v at *
    generalize (b - a).dot (b - a) = A at *
    generalize (c - a).dot (c - a) = C at *
    generalize (b - a).dot (c - a) = g at *
    generalize (b - a).dot (p - a) = d1 at *
    generalize (c - a).dot (p - a) = d2 at *
    subst hv
    by_contra hc
    nlinarith [mul_pos hA (not_le.1 hc)]
  refine closest_of_coords (v := (b - a).dot (p - a) / (b - a).dot (b - a)) (w := 0) (by rw [zero_smul, add_zero])
    hv0 le_rfl (by linarith) ?_ ?_ ?_ <;> rw [x0] <;> linarith

theorem regionAC (hn : Nondegenerate a b c) (h1 : (b - a).dot (p - c) * (c - a).dot (p - a) -
      (b - a).dot (p - a) * (c - a).dot (p - c) ≤ 0) (h2 : (c - a).dot (p - a) ≥ 0) (h3 : (c - a).dot (p - c) ≤ 0) :
    ∃ w, divOr ((c - a).dot (p - a)) ((c - a).dot (p - a) - (c - a).dot (p - c)) = some w ∧
      IsClosest (InTriangle a b c) p (a + w • (c - a)) := by
  obtain ⟨hN, hA, hC, hE⟩ := regions_of hn 0 0
  have e : (c - a).dot (p - a) - (c - a).dot (p - c) = (c - a).dot (c - a) := by rw [dot_cp' a c p]; ring
  rw [e]
  refine ⟨_, if_neg hC.ne', ?_⟩
  rw [dot_cp a b c p, dot_cp' a c p] at h1
  rw [dot_cp' a c p] at h3
  obtain ⟨e1, e2, -⟩ := corner_dots (a := a) (b := b) (c := c) (p := p) 0
    ((c - a).dot (p - a) / (c - a).dot (c - a)) (a + ((c - a).dot (p - a) / (c - a).dot (c - a)) • (c - a))
    (by rw [zero_smul, add_zero])
  have hv : (c - a).dot (p - a) / (c - a).dot (c - a) * (c - a).dot (c - a) = (c - a).dot (p - a) :=
    div_mul_cancel₀ _ hC.ne'
  have hv0 : 0 ≤ (c - a).dot (p - a) / (c - a).dot (c - a) := div_nonneg h2 hC.le
  have hv1 : (c - a).dot (p - a) / (c - a).dot (c - a) ≤ 1 := (div_le_one hC).2 (by linarith)
  have y0 : (c - a).dot (p - (a + ((c - a).dot (p - a) / (c - a).dot (c - a)) • (c - a))) = 0 := by
    rw [e2]; linarith
  have x0 : (b - a).dot (p - (a + ((c - a).dot (p - a) / (c - a).dot (c - a)) • (c - a))) ≤ 0 := by
    rw [e1]
    generalize (c - a).dot (p - a) / (c - a).dot (c - a) = v at *
    generalize (b - a).dot (b - a) = A at *
    generalize (c - a).dot (c - a) = C at *
    generalize (b - a).dot (c - a) = g at *
    generalize (b - a).dot (p - a) = d1 at *
    generalize (c - a).dot (p - a) = d2 at *
    subst hv
    by_contra hc
    nlinarith [mul_pos hC (not_le.1 hc)]
  refine closest_of_coords (v := 0) (w := (c - a).dot (p - a) / (c - a).dot (c - a)) (by rw [zero_smul, add_zero])
    le_rfl hv0 (by linarith) ?_ ?_ ?_ <;> rw [y0] <;> linarith

theorem regionBC (hn : Nondegenerate a b c) (h1 : (b - a).dot (p - b) * (c - a).dot (p - c) -
      (b - a).dot (p - c) * (c - a).dot (p - b) ≤ 0) (h2 : (c - a).dot (p - b) - (b - a).dot (p - b) ≥ 0)
    (h3 : (b - a).dot (p - c) - (c - a).dot (p - c) ≥ 0) :
    ∃ w, divOr ((c - a).dot (p - b) - (b - a).dot (p - b))
        (((c - a).dot (p - b) - (b - a).dot (p - b)) + ((b - a).dot (p - c) - (c - a).dot (p - c))) = some w ∧
      IsClosest (InTriangle a b c) p (b + w • (c - b)) := by
  obtain ⟨hN, hA, hC, hE⟩ := regions_of hn 0 0
  rw [dot_bp a b p, dot_bp' a b c p, dot_cp a b c p, dot_cp' a c p] at h1
  rw [dot_bp a b p, dot_bp' a b c p] at h2
  rw [dot_cp a b c p, dot_cp' a c p] at h3
  rw [dot_bp a b p, dot_bp' a b c p, dot_cp a b c p, dot_cp' a c p]
  have e : ((c - a).dot (p - a) - (b - a).dot (c - a) - ((b - a).dot (p - a) - (b - a).dot (b - a))) +
      ((b - a).dot (p - a) - (b - a).dot (c - a) - ((c - a).dot (p - a) - (c - a).dot (c - a)))
      = (b - a).dot (b - a) + (c - a).dot (c - a) - 2 * (b - a).dot (c - a) := by ring
  rw [e]
  refine ⟨_, if_neg hE.ne', ?_⟩
  generalize hw : ((c - a).dot (p - a) - (b - a).dot (c - a) - ((b - a).dot (p - a) - (b - a).dot (b - a))) /
    ((b - a).dot (b - a) + (c - a).dot (c - a) - 2 * (b - a).dot (c - a)) = w
  have hw' : w * ((b - a).dot (b - a) + (c - a).dot (c - a) - 2 * (b - a).dot (c - a)) =
      (c - a).dot (p - a) - (b - a).dot (c - a) - ((b - a).dot (p - a) - (b - a).dot (b - a)) := by
    rw [← hw]; exact div_mul_cancel₀ _ hE.ne'
  have hw0 : 0 ≤ w := by rw [← hw]; exact div_nonneg h2 hE.le
  have hw1 : w ≤ 1 := by rw [← hw]; exact (div_le_one hE).2 (by linarith)
  have hq : b + w • (c - b) = a + (1 - w) • (b - a) + w • (c - a) := by ext <;> simp <;> ring
  obtain ⟨e1, e2, -⟩ := corner_dots (p := p) (1 - w) w _ hq
  have exy : (c - a).dot (p - (b + w • (c - b))) = (b - a).dot (p - (b + w • (c - b))) := by
    rw [e1, e2]; linarith
  have x0 : 0 ≤ (b - a).dot (p - (b + w • (c - b))) := by
    rw [e1]
    generalize (b - a).dot (b - a) = A at *
    generalize (c - a).dot (c - a) = C at *
    generalize (b - a).dot (c - a) = g at *
    generalize (b - a).dot (p - a) = d1 at *
    generalize (c - a).dot (p - a) = d2 at *
    have hd2 : d2 = w * (A + C - 2 * g) + g + d1 - A := by linarith
    subst hd2
    by_contra hc
    nlinarith [mul_pos hE (neg_pos.2 (not_le.1 hc))]
  refine closest_of_coords hq (by linarith) hw0 (by linarith) ?_ ?_ ?_ <;> rw [exy] <;> linarith

/-- The coordinates of a point whose rest is orthogonal to both edges. -/
theorem coords_of_projection {v w : K} {q : Vec3 K} (hq : q = a + v • (b - a) + w • (c - a))
    (h1 : (b - a).dot (p - q) = 0) (h2 : (c - a).dot (p - q) = 0) :
    (b - a).dot (p - a) = v * (b - a).dot (b - a) + w * (b - a).dot (c - a) ∧
    (c - a).dot (p - a) = v * (b - a).dot (c - a) + w * (c - a).dot (c - a) := by
  obtain ⟨e1, e2, -⟩ := corner_dots (p := p) v w q hq
  exact ⟨by linarith, by linarith⟩

theorem regionFace (hn : Nondegenerate a b c) (n1 : ¬((b - a).dot (p - a) ≤ 0 ∧ (c - a).dot (p - a) ≤ 0))
    (n2 : ¬((b - a).dot (p - b) ≥ 0 ∧ (c - a).dot (p - b) ≤ (b - a).dot (p - b)))
    (n3 : ¬((b - a).dot (p - a) * (c - a).dot (p - b) - (b - a).dot (p - b) * (c - a).dot (p - a) ≤ 0 ∧
      (b - a).dot (p - a) ≥ 0 ∧ (b - a).dot (p - b) ≤ 0))
    (n4 : ¬((c - a).dot (p - c) ≥ 0 ∧ (b - a).dot (p - c) ≤ (c - a).dot (p - c)))
    (n5 : ¬((b - a).dot (p - c) * (c - a).dot (p - a) - (b - a).dot (p - a) * (c - a).dot (p - c) ≤ 0 ∧
      (c - a).dot (p - a) ≥ 0 ∧ (c - a).dot (p - c) ≤ 0))
    (n6 : ¬((b - a).dot (p - b) * (c - a).dot (p - c) - (b - a).dot (p - c) * (c - a).dot (p - b) ≤ 0 ∧
      (c - a).dot (p - b) - (b - a).dot (p - b) ≥ 0 ∧ (b - a).dot (p - c) - (c - a).dot (p - c) ≥ 0)) :
    ∃ d v w, divOr 1 (((b - a).dot (p - b) * (c - a).dot (p - c) - (b - a).dot (p - c) * (c - a).dot (p - b)) +
        ((b - a).dot (p - c) * (c - a).dot (p - a) - (b - a).dot (p - a) * (c - a).dot (p - c)) +
        ((b - a).dot (p - a) * (c - a).dot (p - b) - (b - a).dot (p - b) * (c - a).dot (p - a))) = some d ∧
      v = ((b - a).dot (p - c) * (c - a).dot (p - a) - (b - a).dot (p - a) * (c - a).dot (p - c)) * d ∧
      w = ((b - a).dot (p - a) * (c - a).dot (p - b) - (b - a).dot (p - b) * (c - a).dot (p - a)) * d ∧
      0 < v ∧ 0 < w ∧ v + w < 1 ∧
      (b - a).dot (p - (a + v • (b - a) + w • (c - a))) = 0 ∧
      (c - a).dot (p - (a + v • (b - a) + w • (c - a))) = 0 := by
  have R := regions_of hn ((b - a).dot (p - a)) ((c - a).dot (p - a))
  have hN := R.area
  rw [dot_bp a b p, dot_bp' a b c p] at n2
  rw [dot_bp a b p, dot_bp' a b c p] at n3
  rw [dot_cp a b c p, dot_cp' a c p] at n4
  rw [dot_cp a b c p, dot_cp' a c p] at n5
  rw [dot_bp a b p, dot_bp' a b c p, dot_cp a b c p, dot_cp' a c p] at n6
  rw [dot_bp a b p, dot_bp' a b c p, dot_cp a b c p, dot_cp' a c p]
  have hx : ∀ v w : K, _ := fun v w => corner_dots (a := a) (b := b) (c := c) (p := p) v w _ rfl
  have e : ∀ A C g d1 d2 : K, ((d1 - A) * (d2 - C) - (d1 - g) * (d2 - g)) + ((d1 - g) * d2 - d1 * (d2 - C)) +
      (d1 * (d2 - g) - (d1 - A) * d2) = A * C - g * g := by intros; ring
  have e3 : ∀ A g d1 d2 : K, d1 * (d2 - g) - (d1 - A) * d2 = A * d2 - g * d1 := by intros; ring
  have e5 : ∀ C g d1 d2 : K, (d1 - g) * d2 - d1 * (d2 - C) = C * d1 - g * d2 := by intros; ring
  have e6 : ∀ A C g d1 d2 : K, (d1 - A) * (d2 - C) - (d1 - g) * (d2 - g) =
      A * C - g * g - (A * d2 - g * d1) - (C * d1 - g * d2) := by intros; ring
  rw [e]
  rw [e3] at n3
  rw [e5] at n5
  rw [e6] at n6
  rw [e3, e5]
  obtain ⟨pc, pb, pa⟩ := face_region R n1 n2 n3 n4 n5 n6
  have hd : (0 : K) < 1 / ((b - a).dot (b - a) * (c - a).dot (c - a) - (b - a).dot (c - a) * (b - a).dot (c - a)) :=
    one_div_pos.2 hN
  have hd1 : ((b - a).dot (b - a) * (c - a).dot (c - a) - (b - a).dot (c - a) * (b - a).dot (c - a)) *
      (1 / ((b - a).dot (b - a) * (c - a).dot (c - a) - (b - a).dot (c - a) * (b - a).dot (c - a))) = 1 :=
    mul_one_div_cancel hN.ne'
  refine ⟨_, _, _, if_neg hN.ne', rfl, rfl, mul_pos pb hd, mul_pos pc hd, ?_, ?_, ?_⟩
  · have := mul_pos pa hd
    linarith
  · rw [(hx _ _).1]
    generalize 1 / _ = d at *
    linear_combination (-(b - a).dot (p - a)) * hd1
  · rw [(hx _ _).2.1]
    generalize 1 / _ = d at *
    linear_combination (-(c - a).dot (p - a)) * hd1

end regions

theorem not_corner {A C g v w : K} (hN : 0 < A * C - g * g) (hA : 0 < A) (hv : 0 < v) (hw : 0 < w)
    (h1 : v * A + w * g ≤ 0) (h2 : v * g + w * C ≤ 0) : False := by
  have h3 : v * (v * A + w * g) + w * (v * g + w * C) ≤ 0 := by
    nlinarith [mul_nonneg hv.le (sub_nonneg.2 h1), mul_nonneg hw.le (sub_nonneg.2 h2)]
  nlinarith [mul_nonneg hA.le (sub_nonneg.2 h3), mul_self_nonneg (v * A + w * g), mul_pos hN (mul_pos hw hw)]

/-- When the orthogonal projection lies inside, no region of a corner or an edge applies. -/
theorem interior_regions {a b c p q : Vec3 K} (hn : Nondegenerate a b c) (hp : IsPlaneProjection a b c p q)
    (hq : InTriangleInterior a b c q) :
    ¬((b - a).dot (p - a) ≤ 0 ∧ (c - a).dot (p - a) ≤ 0) ∧
    ¬((b - a).dot (p - b) ≥ 0 ∧ (c - a).dot (p - b) ≤ (b - a).dot (p - b)) ∧
    ¬((b - a).dot (p - a) * (c - a).dot (p - b) - (b - a).dot (p - b) * (c - a).dot (p - a) ≤ 0 ∧
      (b - a).dot (p - a) ≥ 0 ∧ (b - a).dot (p - b) ≤ 0) ∧
    ¬((c - a).dot (p - c) ≥ 0 ∧ (b - a).dot (p - c) ≤ (c - a).dot (p - c)) ∧
    ¬((b - a).dot (p - c) * (c - a).dot (p - a) - (b - a).dot (p - a) * (c - a).dot (p - c) ≤ 0 ∧
      (c - a).dot (p - a) ≥ 0 ∧ (c - a).dot (p - c) ≤ 0) ∧
    ¬((b - a).dot (p - b) * (c - a).dot (p - c) - (b - a).dot (p - c) * (c - a).dot (p - b) ≤ 0 ∧
      (c - a).dot (p - b) - (b - a).dot (p - b) ≥ 0 ∧ (b - a).dot (p - c) - (c - a).dot (p - c) ≥ 0) := by
  obtain ⟨u, v, w, hu, hv, hw, hs, hq⟩ := hq
  obtain ⟨-, h1, h2⟩ := hp
  have hu1 : u = 1 - v - w := by linarith
  have hq' : q = a + v • (b - a) + w • (c - a) := by
    rw [hq, hu1]; ext <;> simp <;> ring
  obtain ⟨e1, e2⟩ := coords_of_projection hq' h1 h2
  obtain ⟨hN, hA, hC, hE⟩ := regions_of hn 0 0
  rw [dot_bp a b p, dot_bp' a b c p, dot_cp a b c p, dot_cp' a c p, e1, e2]
  generalize (b - a).dot (b - a) = A at *
  generalize (c - a).dot (c - a) = C at *
  generalize (b - a).dot (c - a) = g at *
  refine ⟨fun h => ?_, fun h => ?_, fun h => ?_, fun h => ?_, fun h => ?_, fun h => ?_⟩
  · exact not_corner hN hA hv hw h.1 h.2
  · exact not_corner (A := A) (C := A + C - 2 * g) (g := A - g) (v := u) (w := w) (by linarith) hA hu hw
      (by rw [hu1]; linarith [h.1]) (by rw [hu1]; linarith [h.2])
  · nlinarith [h.1, mul_pos hN hw]
  · exact not_corner (A := C) (C := A + C - 2 * g) (g := C - g) (v := u) (w := v) (by linarith) hC hu hv
      (by rw [hu1]; linarith [h.1]) (by rw [hu1]; linarith [h.2])
  · nlinarith [h.1, mul_pos hN hv]
  · have h6 := h.1
    have := mul_pos hN hu
    rw [hu1] at this
    nlinarith

theorem interior_of_coords {a b c : Vec3 K} {v w : K} (hv : 0 < v) (hw : 0 < w) (h : v + w < 1) :
    InTriangleInterior a b c (a + v • (b - a) + w • (c - a)) :=
  ⟨1 - v - w, v, w, by linarith, hv, hw, by ring, by ext <;> simp <;> ring⟩

/-- **C41.**  For every triangle with area and every point, `projectOnTriangle` returns the point of the triangle that
is closest, and its flag says whether the orthogonal projection to the plane lies inside the triangle (off its
edges). -/
theorem C41_closest (a b c p : Vec3 K) (hn : Nondegenerate a b c) :
    ∃ q flag, projectOnTriangle p a b c = some (q, flag) ∧ IsClosest (InTriangle a b c) p q ∧
      (flag = true ↔ ∃ q₀, IsPlaneProjection a b c p q₀ ∧ InTriangleInterior a b c q₀) := by
  unfold projectOnTriangle
  dsimp only
  split_ifs with h1 h2 h3 h4 h5 h6
  · exact ⟨_, _, rfl, regionA h1.1 h1.2, by simp, fun ⟨q, x, y⟩ => absurd h1 (interior_regions hn x y).1⟩
  · exact ⟨_, _, rfl, regionB h2.1 h2.2, by simp, fun ⟨q, x, y⟩ => absurd h2 (interior_regions hn x y).2.1⟩
  · obtain ⟨v, e, hc⟩ := regionAB hn h3.1 h3.2.1 h3.2.2
    exact ⟨_, _, by rw [e]; rfl, hc, by simp, fun ⟨q, x, y⟩ => absurd h3 (interior_regions hn x y).2.2.1⟩
  · exact ⟨_, _, rfl, regionC h4.1 h4.2, by simp, fun ⟨q, x, y⟩ => absurd h4 (interior_regions hn x y).2.2.2.1⟩
  · obtain ⟨v, e, hc⟩ := regionAC hn h5.1 h5.2.1 h5.2.2
    exact ⟨_, _, by rw [e]; rfl, hc, by simp, fun ⟨q, x, y⟩ => absurd h5 (interior_regions hn x y).2.2.2.2.1⟩
  · obtain ⟨v, e, hc⟩ := regionBC hn h6.1 h6.2.1 h6.2.2
    exact ⟨_, _, by rw [e]; rfl, hc, by simp, fun ⟨q, x, y⟩ => absurd h6 (interior_regions hn x y).2.2.2.2.2⟩
  · obtain ⟨d, v, w, e, rfl, rfl, hv, hw, hs, x0, y0⟩ := regionFace hn h1 h2 h3 h4 h5 h6
    refine ⟨_, _, by rw [e]; rfl, ?_, ?_⟩
    · refine closest_of_coords rfl hv.le hw.le hs.le ?_ ?_ ?_ <;> rw [x0, y0] <;> simp
    · exact ⟨fun _ => ⟨_, ⟨⟨_, _, rfl⟩, x0, y0⟩, interior_of_coords hv hw hs⟩, fun _ => rfl⟩

theorem select_step {P : Vec3 K → Prop} {o : Bool} {c : Prop} [Decidable c] {q X : Option (Vec3 K)}
    (h : o = true → ∃ r, q = some r ∧ P r) (hX : c → ∃ r, X = some r ∧ P r) :
    (o || decide c) = true → ∃ r, (if decide c = true then X else q) = some r ∧ P r := by
  intro ho
  by_cases hc : c
  · simpa [hc] using hX hc
  · simp only [hc, decide_false, Bool.or_false] at ho
    simpa [hc] using h ho

theorem select_final {P : Vec3 K → Prop} {o flag : Bool} {Q X : Option (Vec3 K)} {q : Vec3 K}
    (h : o = true → ∃ r, Q = some r ∧ P r) (hu : ∀ r, P r → r = q) (h1 : o = true → flag = false)
    (h2 : o = false → X = some q ∧ flag = true) : ((if o = true then Q else X), !o) = (some q, flag) := by
  cases o
  · obtain ⟨e1, e2⟩ := h2 rfl
    simp [e1, e2]
  · obtain ⟨r, e1, e2⟩ := h rfl
    simp [e1, hu r e2, h1 rfl]

/-- **C41.**  The packet version returns, in every lane, the same point and the same flag as the scalar version. -/
theorem C41_packet (a b c p : Vec3 K) (hn : Nondegenerate a b c) (q₀ : Option (Vec3 K)) :
    ∃ q flag, projectOnTriangleLane p a b c q₀ = (some q, flag) ∧ projectOnTriangle p a b c = some (q, flag) := by
  obtain ⟨q, flag, e, hq, hf⟩ := C41_closest a b c p hn
  refine ⟨q, flag, ?_, e⟩
  have s1 : decide ((b - a).dot (p - a) ≤ 0 ∧ (c - a).dot (p - a) ≤ 0) = true →
      ∃ r, (if decide ((b - a).dot (p - a) ≤ 0 ∧ (c - a).dot (p - a) ≤ 0) = true then some a else q₀) = some r ∧
        IsClosest (InTriangle a b c) p r := by
    intro h
    rw [if_pos h]
    have h' := of_decide_eq_true h
    exact ⟨_, rfl, regionA h'.1 h'.2⟩
  have s2 := select_step s1 (c := (b - a).dot (p - b) ≥ 0 ∧ (c - a).dot (p - b) ≤ (b - a).dot (p - b)) (X := some b)
    fun h => ⟨_, rfl, regionB h.1 h.2⟩
  have s3 := select_step s2
    (c := (b - a).dot (p - a) * (c - a).dot (p - b) - (b - a).dot (p - b) * (c - a).dot (p - a) ≤ 0 ∧
      (b - a).dot (p - a) ≥ 0 ∧ (b - a).dot (p - b) ≤ 0)
    (X := (divOr ((b - a).dot (p - a)) ((b - a).dot (p - a) - (b - a).dot (p - b))).map fun v => a + v • (b - a))
    fun h => by
      obtain ⟨v, e, hc⟩ := regionAB hn h.1 h.2.1 h.2.2
      exact ⟨_, by rw [e]; rfl, hc⟩
  have s4 := select_step s3 (c := (c - a).dot (p - c) ≥ 0 ∧ (b - a).dot (p - c) ≤ (c - a).dot (p - c)) (X := some c)
    fun h => ⟨_, rfl, regionC h.1 h.2⟩
  have s5 := select_step s4
    (c := (b - a).dot (p - c) * (c - a).dot (p - a) - (b - a).dot (p - a) * (c - a).dot (p - c) ≤ 0 ∧
      (c - a).dot (p - a) ≥ 0 ∧ (c - a).dot (p - c) ≤ 0)
    (X := (divOr ((c - a).dot (p - a)) ((c - a).dot (p - a) - (c - a).dot (p - c))).map fun w => a + w • (c - a))
    fun h => by
      obtain ⟨v, e, hc⟩ := regionAC hn h.1 h.2.1 h.2.2
      exact ⟨_, by rw [e]; rfl, hc⟩
  have s6 := select_step s5
    (c := (b - a).dot (p - b) * (c - a).dot (p - c) - (b - a).dot (p - c) * (c - a).dot (p - b) ≤ 0 ∧
      (c - a).dot (p - b) - (b - a).dot (p - b) ≥ 0 ∧ (b - a).dot (p - c) - (c - a).dot (p - c) ≥ 0)
    (X := (divOr ((c - a).dot (p - b) - (b - a).dot (p - b))
        (((c - a).dot (p - b) - (b - a).dot (p - b)) + ((b - a).dot (p - c) - (c - a).dot (p - c)))).map
          fun w => b + w • (c - b))
    fun h => by
      obtain ⟨v, e, hc⟩ := regionBC hn h.1 h.2.1 h.2.2
      exact ⟨_, by rw [e]; rfl, hc⟩
  unfold projectOnTriangleLane
  dsimp only
  refine select_final s6 (fun r hr => closest_triangle_unique hr hq) (fun ho => ?_) (fun ho => ?_)
  · rw [← Bool.not_eq_true, hf]
    rintro ⟨q', x, y⟩
    obtain ⟨n1, n2, n3, n4, n5, n6⟩ := interior_regions hn x y
    rw [decide_eq_false n1, decide_eq_false n2, decide_eq_false n3, decide_eq_false n4, decide_eq_false n5,
      decide_eq_false n6] at ho
    cases ho
  · simp only [Bool.or_eq_false_iff, decide_eq_false_iff_not] at ho
    obtain ⟨⟨⟨⟨⟨n1, n2⟩, n3⟩, n4⟩, n5⟩, n6⟩ := ho
    obtain ⟨d, v, w, e', rfl, rfl, hv, hw, hs, x0, y0⟩ := regionFace hn n1 n2 n3 n4 n5 n6
    constructor
    · rw [e']
      refine congrArg some (closest_triangle_unique ?_ hq)
      refine closest_of_coords rfl hv.le hw.le hs.le ?_ ?_ ?_ <;> rw [x0, y0] <;> simp
    · exact hf.2 ⟨_, ⟨⟨_, _, rfl⟩, x0, y0⟩, interior_of_coords hv hw hs⟩

/-- A triangle with area. -/
example : Nondegenerate (⟨0, 0, 0⟩ : Vec3 ℚ) ⟨4, 0, 0⟩ ⟨0, 4, 0⟩ := by
  intro h
  have := congrArg Vec3.z h
  simp at this

/-- One point over the face, one beyond an edge, one beyond a corner. -/
example : projectOnTriangle (⟨1, 1, 5⟩ : Vec3 ℚ) ⟨0, 0, 0⟩ ⟨4, 0, 0⟩ ⟨0, 4, 0⟩ = some (⟨1, 1, 0⟩, true) := by
  decide +kernel
example : projectOnTriangle (⟨3, 3, 5⟩ : Vec3 ℚ) ⟨0, 0, 0⟩ ⟨4, 0, 0⟩ ⟨0, 4, 0⟩ = some (⟨2, 2, 0⟩, false) := by
  decide +kernel
example : projectOnTriangle (⟨9, -3, 5⟩ : Vec3 ℚ) ⟨0, 0, 0⟩ ⟨4, 0, 0⟩ ⟨0, 4, 0⟩ = some (⟨4, 0, 0⟩, false) := by
  decide +kernel

/-- Beside C41: when the first two corners coincide, the result comes out of a division by zero. -/
theorem C41_degenerate_counterexample :
    projectOnTriangle (⟨0, 1, 0⟩ : Vec3 ℚ) ⟨0, 0, 0⟩ ⟨0, 0, 0⟩ ⟨0, 4, 0⟩ = none := by
  decide +kernel

end Momentum
