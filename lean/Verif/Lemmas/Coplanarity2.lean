import Verif.Lemmas.Coplanarity
import Verif.Props.Segments
import Verif.Props.TriangleProjection

namespace Momentum

/-! ### A plane through four points -/

theorem perpendicular (u : Vec3 ℝ) : ∃ n : Vec3 ℝ, n ≠ 0 ∧ n.dot u = 0 := by
  by_cases hx : u.x = 0
  · exact ⟨⟨1, 0, 0⟩, by simp [Vec3.ext_iff], by simp [Vec3.dot, hx]⟩
  · exact ⟨⟨u.y, -u.x, 0⟩, by simp [Vec3.ext_iff, hx], by simp [Vec3.dot]; ring⟩

theorem cross_zero_dot {u v n : Vec3 ℝ} (hu : u ≠ 0) (h : u.cross v = 0) (hn : n.dot u = 0) : n.dot v = 0 := by
  have hx := congrArg Vec3.x h
  have hy := congrArg Vec3.y h
  have hz := congrArg Vec3.z h
  simp only [Vec3.cross_x, Vec3.cross_y, Vec3.cross_z, Vec3.zero_x, Vec3.zero_y, Vec3.zero_z] at hx hy hz
  simp only [Vec3.dot] at hn ⊢
  by_contra hc
  apply hu
  ext
  · have : u.x * (n.x * v.x + n.y * v.y + n.z * v.z) = 0 := by linear_combination v.x * hn + n.y * hz - n.z * hy
    exact (mul_eq_zero.1 this).resolve_right hc
  · have : u.y * (n.x * v.x + n.y * v.y + n.z * v.z) = 0 := by linear_combination v.y * hn + n.z * hx - n.x * hz
    exact (mul_eq_zero.1 this).resolve_right hc
  · have : u.z * (n.x * v.x + n.y * v.y + n.z * v.z) = 0 := by linear_combination v.z * hn + n.x * hy - n.y * hx
    exact (mul_eq_zero.1 this).resolve_right hc

theorem normal_of_volume {u v w : Vec3 ℝ} (h : (u.cross v).dot w = 0) :
    ∃ n : Vec3 ℝ, n ≠ 0 ∧ n.dot u = 0 ∧ n.dot v = 0 ∧ n.dot w = 0 := by
  by_cases h1 : u.cross v = 0
  · by_cases h2 : u.cross w = 0
    · by_cases hu : u = 0
      · by_cases h3 : v.cross w = 0
        · by_cases hv : v = 0
          · obtain ⟨n, hn, hw⟩ := perpendicular w
            exact ⟨n, hn, by rw [hu]; simp [Vec3.dot], by rw [hv]; simp [Vec3.dot], hw⟩
          · obtain ⟨n, hn, hw⟩ := perpendicular v
            exact ⟨n, hn, by rw [hu]; simp [Vec3.dot], hw, cross_zero_dot hv h3 hw⟩
        · exact ⟨v.cross w, h3, by rw [hu]; simp [Vec3.dot], by simp only [Vec3.dot, Vec3.cross]; ring,
            by simp only [Vec3.dot, Vec3.cross]; ring⟩
      · obtain ⟨n, hn, hw⟩ := perpendicular u
        exact ⟨n, hn, hw, cross_zero_dot hu h1 hw, cross_zero_dot hu h2 hw⟩
    · refine ⟨u.cross w, h2, by simp only [Vec3.dot, Vec3.cross]; ring, ?_, by simp only [Vec3.dot, Vec3.cross]; ring⟩
      simp only [Vec3.dot, Vec3.cross] at h ⊢
      linarith
  · exact ⟨u.cross v, h1, by simp only [Vec3.dot, Vec3.cross]; ring, by simp only [Vec3.dot, Vec3.cross]; ring, h⟩

theorem volume_of_normal {u v w n : Vec3 ℝ} (hn : n ≠ 0) (h1 : n.dot u = 0) (h2 : n.dot v = 0) (h3 : n.dot w = 0) :
    (u.cross v).dot w = 0 := by
  by_contra hc
  apply hn
  have e : ∀ c : ℝ, (u.cross v).dot w * c = 0 → c = 0 := fun c h => (mul_eq_zero.1 h).resolve_left hc
  simp only [Vec3.dot, Vec3.cross] at h1 h2 h3 e
  ext
  · apply e
    linear_combination h1 * (v.y * w.z - v.z * w.y) + h2 * (w.y * u.z - w.z * u.y) + h3 * (u.y * v.z - u.z * v.y)
  · apply e
    linear_combination h1 * (v.z * w.x - v.x * w.z) + h2 * (w.z * u.x - w.x * u.z) + h3 * (u.z * v.x - u.x * v.z)
  · apply e
    linear_combination h1 * (v.x * w.y - v.y * w.x) + h2 * (w.x * u.y - w.y * u.x) + h3 * (u.x * v.y - u.y * v.x)

theorem coplanar_iff (y : FourPoints) : y.Coplanar ↔ y.volume = 0 := by
  have hs : ∀ n a b : Vec3 ℝ, n.dot (a - b) = n.dot a - n.dot b := by
    intro n a b; simp only [Vec3.dot, Vec3.sub_x, Vec3.sub_y, Vec3.sub_z]; ring
  constructor
  · rintro ⟨n, h, hn, h1, h2, h3, h4⟩
    exact volume_of_normal hn (by rw [hs]; linarith) (by rw [hs]; linarith) (by rw [hs]; linarith)
  · intro h
    obtain ⟨n, hn, h2, h3, h4⟩ := normal_of_volume h
    rw [hs] at h2 h3 h4
    exact ⟨n, n.dot y.p1, hn, rfl, by linarith, by linarith, by linarith⟩

theorem coplanar_of_meet {y : FourPoints} (h : y.EdgesMeet) : y.Coplanar := by
  obtain ⟨s, t, -, -, h⟩ := h
  have hx := congrArg Vec3.x h
  have hy := congrArg Vec3.y h
  have hz := congrArg Vec3.z h
  rw [coplanar_iff]
  simp only [segPoint, FourPoints.volume, Vec3.dot, Vec3.cross, Vec3.sub_x, Vec3.sub_y, Vec3.sub_z, Vec3.add_x, Vec3.add_y, Vec3.add_z,
    Vec3.smul_x, Vec3.smul_y, Vec3.smul_z] at hx hy hz ⊢
  obtain ⟨⟨a1, a2, a3⟩, ⟨b1, b2, b3⟩, ⟨c1, c2, c3⟩, ⟨d1, d2, d3⟩⟩ := y
  simp only at hx hy hz ⊢
  linear_combination
    -hx * ((d2 - a2) * (b3 - a3) - (d3 - a3) * (b2 - a2) + ((b2 - a2) * (c3 - a3) - (b3 - a3) * (c2 - a2))) -
    hy * ((d3 - a3) * (b1 - a1) - (d1 - a1) * (b3 - a3) + ((b3 - a3) * (c1 - a1) - (b1 - a1) * (c3 - a3))) -
    hz * ((d1 - a1) * (b2 - a2) - (d2 - a2) * (b1 - a1) + ((b1 - a1) * (c2 - a2) - (b2 - a2) * (c1 - a1)))

theorem coplanar_of_inside {y : FourPoints} (h : InTriangleInterior y.p1 y.p2 y.p3 y.p4) : y.Coplanar := by
  obtain ⟨u, v, w, -, -, -, hs, h⟩ := h
  rw [coplanar_iff]
  have hu : u = 1 - v - w := by linarith
  simp only [FourPoints.volume, h, hu, Vec3.dot, Vec3.cross, Vec3.sub_x, Vec3.sub_y, Vec3.sub_z, Vec3.add_x, Vec3.add_y, Vec3.add_z,
    Vec3.smul_x, Vec3.smul_y, Vec3.smul_z]
  ring

/-! ### The tests at one time -/

theorem coefTol_pos : 0 < coefTol := by unfold coefTol; positivity

theorem rootTol_pos : 0 < rootTol := by unfold rootTol; positivity

theorem edgeTol_pos : 0 < edgeTol := by unfold edgeTol; positivity

theorem edgeEdgeClose_sound {y : FourPoints} {r : ℝ} (h : edgeEdgeClose y r = true) :
    y.EdgesWithin r ∧ (edgeTol < (y.p2 - y.p1).sqNorm ∨ edgeTol < (y.p4 - y.p3).sqNorm) := by
  unfold edgeEdgeClose at h
  simp only [Bool.and_eq_true, decide_eq_true_eq] at h
  obtain ⟨h1, h2⟩ := h
  obtain ⟨hd0, hd, hf⟩ := C43_edge_distance edgeTol edgeTol_pos y.p1 y.p2 y.p3 y.p4
  refine ⟨⟨(distanceEdgeEdge edgeTol y.p1 y.p2 y.p3 y.p4).1, (distanceEdgeEdge edgeTol y.p1 y.p2 y.p3 y.p4).2.1, ?_, ?_, ?_⟩,
    hf.1 h1⟩
  · have := (C43_edge_range edgeTol y.p1 y.p2 y.p3 y.p4).1
    unfold distanceEdgeEdge
    simp only
    split <;> exact this
  · have := (C43_edge_range edgeTol y.p1 y.p2 y.p3 y.p4).2
    unfold distanceEdgeEdge
    simp only
    split <;> exact this
  · rw [← hd, Real.sqrt_sq hd0]
    exact h2

theorem edgeEdgeClose_complete {y : FourPoints} {r : ℝ} (hw : y.EdgesWithin r)
    (h0 : edgeTol < (y.p2 - y.p1).sqNorm ∨ edgeTol < (y.p4 - y.p3).sqNorm)
    (h1 : y.p2 = y.p1 ∨ edgeTol < (y.p2 - y.p1).sqNorm) (h2 : y.p4 = y.p3 ∨ edgeTol < (y.p4 - y.p3).sqNorm)
    (h12 : (y.p2 - y.p1).cross (y.p4 - y.p3) = 0 ∨ edgeTol < ((y.p2 - y.p1).cross (y.p4 - y.p3)).sqNorm) :
    edgeEdgeClose y r = true := by
  obtain ⟨s, t, hs, ht, hr⟩ := hw
  obtain ⟨-, -, hc⟩ := C43_edge_edge edgeTol edgeTol_pos y.p1 y.p2 y.p3 y.p4 h1 h2 h12
  obtain ⟨hd0, hd, hf⟩ := C43_edge_distance edgeTol edgeTol_pos y.p1 y.p2 y.p3 y.p4
  have e1 : (distanceEdgeEdge edgeTol y.p1 y.p2 y.p3 y.p4).1 = (edgeEdgeParams edgeTol y.p1 y.p2 y.p3 y.p4).1 := by
    unfold distanceEdgeEdge; simp only; split <;> rfl
  have e2 : (distanceEdgeEdge edgeTol y.p1 y.p2 y.p3 y.p4).2.1 = (edgeEdgeParams edgeTol y.p1 y.p2 y.p3 y.p4).2 := by
    unfold distanceEdgeEdge; simp only; split <;> rfl
  unfold edgeEdgeClose
  simp only [Bool.and_eq_true, decide_eq_true_eq]
  refine ⟨hf.2 h0, ?_⟩
  have h3 := hc s t hs.1 hs.2 ht.1 ht.2
  rw [← e1, ← e2, ← hd] at h3
  calc _ = Real.sqrt ((distanceEdgeEdge edgeTol y.p1 y.p2 y.p3 y.p4).2.2.1 ^ 2) := (Real.sqrt_sq hd0).symm
    _ ≤ _ := Real.sqrt_le_sqrt h3
    _ < r := hr

/-- A reported inside means a triangle with area. -/
theorem project_inside_nondegenerate {p a b c q : Vec3 ℝ} (h : projectOnTriangle p a b c = some (q, true)) :
    Nondegenerate a b c := by
  intro hc
  have key : (b - a).dot (p - b) * (c - a).dot (p - c) - (b - a).dot (p - c) * (c - a).dot (p - b) +
      ((b - a).dot (p - c) * (c - a).dot (p - a) - (b - a).dot (p - a) * (c - a).dot (p - c)) +
      ((b - a).dot (p - a) * (c - a).dot (p - b) - (b - a).dot (p - b) * (c - a).dot (p - a)) = ((b - a).cross (c - a)).sqNorm := by
    rw [dot_bp, dot_bp', dot_cp, dot_cp']
    simp only [Vec3.sqNorm, Vec3.dot, Vec3.cross, Vec3.sub_x, Vec3.sub_y, Vec3.sub_z]
    ring
  rw [hc] at key
  unfold projectOnTriangle at h
  dsimp only at h
  rw [key] at h
  have hz : (0 : Vec3 ℝ).sqNorm = 0 := by simp [Vec3.sqNorm, Vec3.dot]
  rw [hz] at h
  have hd : divOr (1 : ℝ) 0 = none := by simp [divOr]
  rw [hd] at h
  have hf : ∀ (o : Option ℝ) (f : ℝ → Vec3 ℝ), o.map (fun v => (f v, false)) ≠ some (q, true) := by
    intro o f
    cases o <;> simp
  split_ifs at h <;> first | (simp at h; done) | exact hf _ _ h

/-- The interior point of a plane through a triangle that a point projects to is its closest point. -/
theorem projection_closest {a b c p q : Vec3 ℝ} (hq : IsPlaneProjection a b c p q) (hi : InTriangleInterior a b c q) :
    IsClosest (InTriangle a b c) p q := by
  obtain ⟨u, v, w, hu, hv, hw, hs, he⟩ := hi
  have hq' : q = a + v • (b - a) + w • (c - a) := by
    rw [he, show u = 1 - v - w by linarith]
    ext <;> simp <;> ring
  exact closest_of_coords hq' hv.le hw.le (by linarith) (by rw [hq.2.1, hq.2.2]; simp) (by rw [hq.2.1, hq.2.2]; simp)
    (by rw [hq.2.1, hq.2.2]; simp)

theorem vertexTriangleClose_iff (y : FourPoints) (r : ℝ) : vertexTriangleClose y r = true ↔
    Nondegenerate y.p1 y.p2 y.p3 ∧ ∃ q, IsPlaneProjection y.p1 y.p2 y.p3 y.p4 q ∧ InTriangleInterior y.p1 y.p2 y.p3 q ∧
      sqDist y.p4 q < r ^ 2 := by
  constructor
  · intro h
    unfold vertexTriangleClose at h
    split at h
    · rename_i q flag e
      simp only [Bool.and_eq_true, decide_eq_true_eq] at h
      obtain ⟨rfl, h⟩ := h
      have hn := project_inside_nondegenerate e
      obtain ⟨q', flag', e', hc, hf⟩ := C41_closest y.p1 y.p2 y.p3 y.p4 hn
      rw [e] at e'
      simp only [Option.some.injEq, Prod.mk.injEq] at e'
      obtain ⟨rfl, rfl⟩ := e'
      obtain ⟨q0, hq0, hi⟩ := hf.1 rfl
      have : q = q0 := closest_triangle_unique hc (projection_closest hq0 hi)
      subst this
      exact ⟨hn, q, hq0, hi, by rw [pow_two]; exact h⟩
    · exact absurd h (by simp)
  · rintro ⟨hn, q0, hq0, hi, hd⟩
    obtain ⟨q', flag', e', hc, hf⟩ := C41_closest y.p1 y.p2 y.p3 y.p4 hn
    have hfl := hf.2 ⟨q0, hq0, hi⟩
    have : q' = q0 := closest_triangle_unique hc (projection_closest hq0 hi)
    subst this
    unfold vertexTriangleClose
    rw [e', hfl]
    simp only [Bool.true_and, decide_eq_true_eq]
    rw [← pow_two]; exact hd

end Momentum
