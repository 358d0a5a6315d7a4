import Verif.Lemmas.Coplanarity2

/-!
# C76: times of coplanarity and continuous collision detection
-/

namespace Momentum

/-! ### The cubic equation -/

/-- **C76**: every real root of the cubic polynomial is reported. -/
theorem C76_cubic_complete (a b c x : ℝ) (hx : x ^ 3 + a * x ^ 2 + b * x + c = 0) : x ∈ solveP3 a b c := by
  rw [depressed] at hx
  unfold solveP3
  simp only
  split
  · rename_i h
    exact (cubicTrig_mem h x).2 hx
  · rename_i h
    obtain ⟨h1, h2⟩ := cubicAB (not_lt.1 h)
    exact cubicOne_complete h1 h2 hx

/-- **C76**: what is reported is the real part of a root whose imaginary part is less than 1e-14. -/
theorem C76_cubic_sound (a b c x : ℝ) (hx : x ∈ solveP3 a b c) :
    ∃ z : ℂ, z ^ 3 + a * z ^ 2 + b * z + c = 0 ∧ z.re = x ∧ |z.im| < 1 / 10 ^ 14 := by
  have real : x ^ 3 + a * x ^ 2 + b * x + c = 0 →
      ∃ z : ℂ, z ^ 3 + a * z ^ 2 + b * z + c = 0 ∧ z.re = x ∧ |z.im| < 1 / 10 ^ 14 := by
    intro h
    refine ⟨x, ?_, Complex.ofReal_re x, by rw [Complex.ofReal_im, abs_zero]; positivity⟩
    exact_mod_cast h
  unfold solveP3 at hx
  simp only at hx
  split at hx
  · rename_i h
    exact real (by rw [depressed]; exact (cubicTrig_mem h x).1 hx)
  · rename_i h
    obtain ⟨h1, h2⟩ := cubicAB (not_lt.1 h)
    rcases cubicOne_sound h1 h2 hx with h3 | ⟨h3, h4⟩
    · exact real (by rw [depressed]; exact h3)
    · set q := (a * a - 3 * b) * (1 / 9) with hq
      set r := (a * (2 * (a * a) - 9 * b) + 27 * c) * (1 / 54) with hr
      set A := cubicA q r
      set B := cubicB q A
      have hx' : x = -(1 / 2) * (A + B) - a / 3 := by linarith
      refine ⟨⟨x, 1 / 2 * Real.sqrt 3 * (A - B)⟩, ?_, rfl, h4⟩
      have hs : Real.sqrt 3 * Real.sqrt 3 = 3 := Real.mul_self_sqrt (by norm_num)
      have eb : b = a ^ 2 / 3 - 3 * (A * B) := by rw [h1, hq]; ring
      have ec : c = 2 * r - 2 * a ^ 3 / 27 + a * b / 3 := by rw [hr]; ring
      have er : r = -(A ^ 3 + B ^ 3) / 2 := by linarith
      rw [Complex.ext_iff]
      simp only [pow_succ, pow_zero, one_mul, Complex.add_re, Complex.mul_re, Complex.mul_im, Complex.add_im, Complex.ofReal_re,
        Complex.ofReal_im, Complex.zero_re, Complex.zero_im]
      set g := Real.sqrt 3
      have hg2 : g ^ 2 = 3 := by rw [pow_two]; exact hs
      rw [hx', ec, er, eb]
      constructor
      · ring_nf
        rw [hg2]
        ring
      · ring_nf
        rw [show g ^ 3 = g * g ^ 2 by ring, hg2]
        ring

/-- **C76**: there are one or three solutions of a cubic equation. -/
theorem C76_cubic_count (a b c : ℝ) : (solveP3 a b c).length = 1 ∨ (solveP3 a b c).length = 3 := by
  unfold solveP3 cubicTrig cubicOne
  simp only
  split
  · right; rfl
  · split
    · right; rfl
    · left; rfl

/-! ### The quadratic equation -/

/-- **C76**: the solutions of a quadratic equation are the roots, if the discriminant is not between 0 and 1e-9. -/
theorem C76_quadratic (a b c : ℝ) (ha : a ≠ 0) (h : b ^ 2 - 4 * a * c ≤ 0 ∨ 1 / 10 ^ 9 ≤ b ^ 2 - 4 * a * c) (x : ℝ) :
    x ∈ solveP2 a b c ↔ a * x ^ 2 + b * x + c = 0 := by
  have e : 4 * a * (a * x ^ 2 + b * x + c) = (2 * a * x + b) ^ 2 - (b * b - 4 * a * c) := by ring
  have e' : a * x ^ 2 + b * x + c = 0 ↔ (2 * a * x + b) ^ 2 - (b * b - 4 * a * c) = 0 := by
    rw [← e]
    simp [ha]
  rw [e']
  have h2a : 2 * a ≠ 0 := mul_ne_zero two_ne_zero ha
  rw [pow_two b] at h
  unfold solveP2 coefTol
  simp only
  split_ifs with h1 h2
  · simp only [List.not_mem_nil, false_iff]
    nlinarith [sq_nonneg (2 * a * x + b)]
  · have h0 : b * b - 4 * a * c = 0 := by
      rcases h with h | h <;> linarith
    rw [h0, sub_zero, List.mem_singleton, eq_div_iff h2a, pow_eq_zero_iff two_ne_zero]
    constructor <;> intro h <;> linarith
  · have hs : Real.sqrt (b * b - 4 * a * c) ^ 2 = b * b - 4 * a * c := Real.sq_sqrt (not_lt.1 h1)
    set s := Real.sqrt (b * b - 4 * a * c)
    rw [← hs]
    have : (2 * a * x + b) ^ 2 - s ^ 2 = (x * (2 * a) - (-b + s)) * (x * (2 * a) - (-b - s)) := by ring
    rw [this, mul_eq_zero, sub_eq_zero, sub_eq_zero]
    simp only [List.mem_cons, List.not_mem_nil, or_false, eq_div_iff h2a]

/-- **C76**: in any case, near every root of a quadratic equation there is a solution. -/
theorem C76_quadratic_near (a b c : ℝ) (ha : a ≠ 0) (x : ℝ) (hx : a * x ^ 2 + b * x + c = 0) :
    ∃ x' ∈ solveP2 a b c, |x - x'| ≤ Real.sqrt (1 / 10 ^ 9) / (2 * |a|) := by
  have e : (2 * a * x + b) ^ 2 = b * b - 4 * a * c := by linear_combination 4 * a * hx
  by_cases h : b ^ 2 - 4 * a * c ≤ 0 ∨ 1 / 10 ^ 9 ≤ b ^ 2 - 4 * a * c
  · exact ⟨x, (C76_quadratic a b c ha h x).2 hx, by rw [sub_self, abs_zero]; positivity⟩
  · obtain ⟨h1, h2⟩ := not_or.1 h
    have h1 := not_le.1 h1
    have h2 := not_le.1 h2
    rw [pow_two b] at h1 h2
    refine ⟨-b / (2 * a), ?_, ?_⟩
    · unfold solveP2 coefTol
      simp only
      rw [if_neg (not_lt.2 h1.le), if_pos h2]
      simp
    · have h3 : x - -b / (2 * a) = (2 * a * x + b) / (2 * a) := by field_simp; ring
      rw [h3, abs_div, abs_mul, abs_two]
      apply div_le_div_of_nonneg_right _ (by positivity)
      rw [← Real.sqrt_sq_eq_abs, e]
      exact Real.sqrt_le_sqrt h2.le

/-- **C76 fails**: a quadratic equation with a small discriminant, the roots of which are apart by more than 2, is said to have one
root, half way between them. -/
theorem C76_quadratic_wrong : solveP2 (1 / 10 ^ 5) 0 (-2 / 10 ^ 5) = [0] ∧
    (∀ x : ℝ, 1 / 10 ^ 5 * x ^ 2 + 0 * x + -2 / 10 ^ 5 = 0 ↔ x ^ 2 = 2) := by
  constructor
  · unfold solveP2 coefTol
    norm_num
  · intro x
    constructor <;> intro h <;> linarith

/-! ### Times of coplanarity -/

/-- **C76**: four points in uniform motion lie in a plane exactly at the roots of the polynomial. -/
theorem C76_polynomial (avx : Bool) (x v : FourPoints) (t : ℝ) : (x.at v t).Coplanar ↔
    (coplanarCubic avx x v).d * t ^ 3 + (coplanarCubic avx x v).a * t ^ 2 + (coplanarCubic avx x v).b * t +
      (coplanarCubic avx x v).c = 0 := by
  rw [coplanar_iff, volume_at avx]

/-- **C76**: the AVX coefficients are the others. -/
theorem C76_avx (x v : FourPoints) : coplanarCubic true x v = coplanarCubic false x v := by
  unfold coplanarCubic
  simp only [if_true, avx_eq_scalar]
  rfl

theorem Cubic.roots_complete {k : Cubic} (hk : k.Clear) {t : ℝ} (h : k.d * t ^ 3 + k.a * t ^ 2 + k.b * t + k.c = 0) :
    t ∈ k.roots := by
  unfold Cubic.roots
  rcases hk with hk | ⟨h0, hk⟩
  · have hd : k.d ≠ 0 := by
      intro h0
      rw [h0, abs_zero] at hk
      linarith [coefTol_pos]
    rw [if_neg (not_lt.2 hk)]
    apply C76_cubic_complete
    field_simp
    linarith
  · rw [h0, zero_mul, zero_add] at h
    rw [h0, abs_zero, if_pos coefTol_pos]
    rcases hk with ⟨ha, hd⟩ | ⟨ha, hb⟩
    · have ha0 : k.a ≠ 0 := by
        intro h0
        rw [h0, abs_zero] at ha
        linarith [coefTol_pos]
      rw [if_neg (not_lt.2 ha)]
      exact (C76_quadratic _ _ _ ha0 (by rw [pow_two]; exact hd) t).2 h
    · have hb0 : k.b ≠ 0 := by
        intro h0
        rw [h0, abs_zero] at hb
        linarith [coefTol_pos]
      rw [ha, abs_zero, if_pos coefTol_pos, if_pos hb, List.mem_singleton, eq_div_iff hb0]
      rw [ha] at h
      linarith

/-- **C76**: outside the tolerances, every time at which the points lie in a plane is reported. -/
theorem C76_times_complete (avx : Bool) (x v : FourPoints) (hk : (coplanarCubic avx x v).Clear) (t : ℝ)
    (h : (x.at v t).Coplanar) : t ∈ timesCoplanar avx x v :=
  Cubic.roots_complete hk ((C76_polynomial avx x v t).1 h)

/-- **C76**: outside the tolerances, what is reported is such a time, or, when the polynomial is cubic, the real part of a root whose
imaginary part is less than 1e-14. -/
theorem C76_times_sound (avx : Bool) (x v : FourPoints) (hk : (coplanarCubic avx x v).Clear) (t : ℝ)
    (h : t ∈ timesCoplanar avx x v) : (x.at v t).Coplanar ∨
      ∃ z : ℂ, (coplanarCubic avx x v).d * z ^ 3 + (coplanarCubic avx x v).a * z ^ 2 + (coplanarCubic avx x v).b * z +
        (coplanarCubic avx x v).c = 0 ∧ z.re = t ∧ |z.im| < 1 / 10 ^ 14 := by
  rw [C76_polynomial avx]
  unfold timesCoplanar Cubic.roots at h
  generalize coplanarCubic avx x v = k at *
  rcases hk with hk | ⟨h0, hk⟩
  · have hd : k.d ≠ 0 := by
      intro h0
      rw [h0, abs_zero] at hk
      linarith [coefTol_pos]
    rw [if_neg (not_lt.2 hk)] at h
    obtain ⟨z, hz, h1, h2⟩ := C76_cubic_sound _ _ _ _ h
    refine .inr ⟨z, ?_, h1, h2⟩
    have hd' : (k.d : ℂ) ≠ 0 := by exact_mod_cast hd
    push_cast at hz
    field_simp at hz
    linear_combination hz
  · left
    rw [h0, abs_zero, if_pos coefTol_pos] at h
    rw [h0, zero_mul, zero_add]
    rcases hk with ⟨ha, hd⟩ | ⟨ha, hb⟩
    · have ha0 : k.a ≠ 0 := by
        intro h0
        rw [h0, abs_zero] at ha
        linarith [coefTol_pos]
      rw [if_neg (not_lt.2 ha)] at h
      exact (C76_quadratic _ _ _ ha0 (by rw [pow_two]; exact hd) t).1 h
    · have hb0 : k.b ≠ 0 := by
        intro h0
        rw [h0, abs_zero] at hb
        linarith [coefTol_pos]
      rw [ha, abs_zero, if_pos coefTol_pos, if_pos hb, List.mem_singleton, eq_div_iff hb0] at h
      rw [ha]
      linarith

/-- **C76**: at most three times are written, so that the fourth place is left for the end of the step. -/
theorem C76_times_count (avx : Bool) (x v : FourPoints) : (timesCoplanar avx x v).length ≤ 3 := by
  unfold timesCoplanar Cubic.roots
  split
  · split
    · split <;> simp
    · unfold solveP2
      simp only
      split_ifs <;> simp
  · rcases C76_cubic_count ((coplanarCubic avx x v).a / (coplanarCubic avx x v).d)
      ((coplanarCubic avx x v).b / (coplanarCubic avx x v).d) ((coplanarCubic avx x v).c / (coplanarCubic avx x v).d) with h | h <;>
      rw [h] <;> norm_num

/-! ### Collisions -/

/-- **C76**: a reported collision of a vertex with a triangle takes place: at some time of the step the foot of the perpendicular from
the vertex lies inside the triangle, and the vertex is closer to it than the threshold. -/
theorem C76_vertex_sound (avx : Bool) (x v : FourPoints) (threshold dt : ℝ)
    (h : ccdVertexTriangle avx x v threshold dt = true) :
    ∃ t, 0 < t ∧ t ≤ dt ∧ Nondegenerate (x.at v t).p1 (x.at v t).p2 (x.at v t).p3 ∧
      ∃ q, IsPlaneProjection (x.at v t).p1 (x.at v t).p2 (x.at v t).p3 (x.at v t).p4 q ∧
        InTriangleInterior (x.at v t).p1 (x.at v t).p2 (x.at v t).p3 q ∧ sqDist (x.at v t).p4 q < threshold ^ 2 := by
  unfold ccdVertexTriangle at h
  rw [List.any_eq_true] at h
  obtain ⟨t, -, h⟩ := h
  split_ifs at h with ht
  obtain ⟨h1, h2⟩ := not_or.1 ht
  exact ⟨t, not_le.1 h1, not_lt.1 h2, (vertexTriangleClose_iff _ _).1 h⟩

/-- **C76, in part**: a vertex that passes through the inside of a triangle during the step is reported, outside the tolerances.
What is missing: motions with a coefficient or discriminant below 1e-9 (`C76_in_plane_missed`, `C76_small_missed`), and hits on
the boundary of the triangle (`C76_boundary_missed`). -/
theorem C76_vertex_complete_partial (avx : Bool) (x v : FourPoints) (threshold dt t : ℝ) (hr : threshold ≠ 0)
    (h0 : 0 < t) (h1 : t ≤ dt) (hk : (coplanarCubic avx x v).Clear)
    (hn : Nondegenerate (x.at v t).p1 (x.at v t).p2 (x.at v t).p3)
    (hi : InTriangleInterior (x.at v t).p1 (x.at v t).p2 (x.at v t).p3 (x.at v t).p4) :
    ccdVertexTriangle avx x v threshold dt = true := by
  unfold ccdVertexTriangle
  rw [List.any_eq_true]
  refine ⟨t, List.mem_append_left _ (C76_times_complete avx x v hk t (coplanar_of_inside hi)), ?_⟩
  rw [if_neg (not_or.2 ⟨not_le.2 h0, not_lt.2 h1⟩)]
  refine (vertexTriangleClose_iff _ _).2 ⟨hn, _, ⟨?_, ?_, ?_⟩, hi, ?_⟩
  · obtain ⟨a, b, c, -, -, -, hs, he⟩ := hi
    refine ⟨b, c, ?_⟩
    rw [he, show a = 1 - b - c by linarith]
    ext <;> simp <;> ring
  · simp [Vec3.dot]
  · simp [Vec3.dot]
  · have : sqDist (x.at v t).p4 (x.at v t).p4 = 0 := by simp [sqDist, Vec3.sqNorm, Vec3.dot]
    rw [this]
    positivity

/-- **C76**: a vertex that is over the inside of the triangle at the end of the step, and closer to it than the threshold, is
reported. -/
theorem C76_vertex_end (avx : Bool) (x v : FourPoints) (threshold dt : ℝ) (h0 : 0 < dt) (q : Vec3 ℝ)
    (hn : Nondegenerate (x.at v dt).p1 (x.at v dt).p2 (x.at v dt).p3)
    (hq : IsPlaneProjection (x.at v dt).p1 (x.at v dt).p2 (x.at v dt).p3 (x.at v dt).p4 q)
    (hi : InTriangleInterior (x.at v dt).p1 (x.at v dt).p2 (x.at v dt).p3 q) (hd : sqDist (x.at v dt).p4 q < threshold ^ 2) :
    ccdVertexTriangle avx x v threshold dt = true := by
  unfold ccdVertexTriangle
  rw [List.any_eq_true]
  refine ⟨dt, List.mem_append_right _ (by simp), ?_⟩
  rw [if_neg (not_or.2 ⟨not_le.2 h0, not_lt.2 le_rfl⟩)]
  exact (vertexTriangleClose_iff _ _).2 ⟨hn, q, hq, hi, hd⟩

/-- **C76**: a reported collision of two edges takes place: at some time of the step they have points closer than the threshold. -/
theorem C76_edge_sound (avx : Bool) (x v : FourPoints) (threshold dt : ℝ) (h : ccdEdgeEdge avx x v threshold dt = true) :
    ∃ t, 0 < t ∧ t ≤ dt ∧ (x.at v t).EdgesWithin threshold := by
  unfold ccdEdgeEdge at h
  rw [List.any_eq_true] at h
  obtain ⟨t, -, h⟩ := h
  split_ifs at h with ht
  obtain ⟨h1, h2⟩ := not_or.1 ht
  exact ⟨t, not_le.1 h1, not_lt.1 h2, (edgeEdgeClose_sound h).1⟩

/-- At time `t` the edges are long enough, and far enough from parallel, for the tolerance of the distance. -/
structure EdgesClear (y : FourPoints) : Prop where
  some_edge : 1 / 10 ^ 4 < (y.p2 - y.p1).sqNorm ∨ 1 / 10 ^ 4 < (y.p4 - y.p3).sqNorm
  first : y.p2 = y.p1 ∨ 1 / 10 ^ 4 < (y.p2 - y.p1).sqNorm
  second : y.p4 = y.p3 ∨ 1 / 10 ^ 4 < (y.p4 - y.p3).sqNorm
  angle : (y.p2 - y.p1).cross (y.p4 - y.p3) = 0 ∨ 1 / 10 ^ 4 < ((y.p2 - y.p1).cross (y.p4 - y.p3)).sqNorm

/-- **C76, in part**: edges that meet during the step are reported, outside the tolerances.  What is missing: motions with a
coefficient or discriminant below 1e-9, and edges shorter than 1e-2 (`C76_short_edges`). -/
theorem C76_edge_complete_partial (avx : Bool) (x v : FourPoints) (threshold dt t : ℝ) (hr : 0 < threshold)
    (h0 : 0 < t) (h1 : t ≤ dt) (hk : (coplanarCubic avx x v).Clear) (he : EdgesClear (x.at v t))
    (hm : (x.at v t).EdgesMeet) : ccdEdgeEdge avx x v threshold dt = true := by
  unfold ccdEdgeEdge
  rw [List.any_eq_true]
  refine ⟨t, List.mem_append_left _ (C76_times_complete avx x v hk t (coplanar_of_meet hm)), ?_⟩
  rw [if_neg (not_or.2 ⟨not_le.2 h0, not_lt.2 h1⟩)]
  refine edgeEdgeClose_complete ?_ he.some_edge he.first he.second he.angle
  obtain ⟨s, u, hs, hu, e⟩ := hm
  refine ⟨s, u, hs, hu, ?_⟩
  rw [e]
  have : ∀ q : Vec3 ℝ, sqDist q q = 0 := fun q => by simp [sqDist, Vec3.sqNorm, Vec3.dot]
  rw [this, Real.sqrt_zero]
  exact hr

/-- **C76**: edges that are closer than the threshold at the end of the step are reported. -/
theorem C76_edge_end (avx : Bool) (x v : FourPoints) (threshold dt : ℝ) (h0 : 0 < dt) (he : EdgesClear (x.at v dt))
    (hw : (x.at v dt).EdgesWithin threshold) : ccdEdgeEdge avx x v threshold dt = true := by
  unfold ccdEdgeEdge
  rw [List.any_eq_true]
  refine ⟨dt, List.mem_append_right _ (by simp), ?_⟩
  rw [if_neg (not_or.2 ⟨not_le.2 h0, not_lt.2 le_rfl⟩)]
  exact edgeEdgeClose_complete hw he.some_edge he.first he.second he.angle

/-- **C76 fails**: two edges that are not longer than 1e-2 during the step are never reported, wherever they are. -/
theorem C76_short_edges (avx : Bool) (x v : FourPoints) (threshold dt : ℝ)
    (h : ∀ t, 0 < t → t ≤ dt → ((x.at v t).p2 - (x.at v t).p1).sqNorm ≤ (1 / 10 ^ 2) ^ 2 ∧
      ((x.at v t).p4 - (x.at v t).p3).sqNorm ≤ (1 / 10 ^ 2) ^ 2) : ccdEdgeEdge avx x v threshold dt = false := by
  by_contra hc
  rw [Bool.not_eq_false] at hc
  unfold ccdEdgeEdge at hc
  rw [List.any_eq_true] at hc
  obtain ⟨t, -, hc⟩ := hc
  split_ifs at hc with ht
  obtain ⟨h1, h2⟩ := not_or.1 ht
  obtain ⟨h3, h4⟩ := h t (not_le.1 h1) (not_lt.1 h2)
  have := (edgeEdgeClose_sound hc).2
  unfold edgeTol at this
  norm_num at this h3 h4
  rcases this with h5 | h5 <;> linarith

end Momentum
