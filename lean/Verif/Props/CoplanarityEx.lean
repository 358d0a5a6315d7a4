import Verif.Props.Coplanarity

/-!
# C76: cases that meet the hypotheses, and motions that are missed
-/

namespace Momentum

/-- The roots of x^3 - x are reported. -/
example : (-1 : ℝ) ∈ solveP3 0 (-1) 0 ∧ (0 : ℝ) ∈ solveP3 0 (-1) 0 ∧ (1 : ℝ) ∈ solveP3 0 (-1) 0 :=
  ⟨C76_cubic_complete _ _ _ _ (by norm_num), C76_cubic_complete _ _ _ _ (by norm_num), C76_cubic_complete _ _ _ _ (by norm_num)⟩

/-- And nothing else. -/
example : (1 / 2 : ℝ) ∉ solveP3 0 (-1) 0 := by
  intro h
  have h1 : ¬((0 : ℝ) * (2 * (0 * 0) - 9 * (-1)) + 27 * 0) * (1 / 54) * (((0 : ℝ) * (2 * (0 * 0) - 9 * (-1)) + 27 * 0) * (1 / 54)) ≥
      ((0 : ℝ) * 0 - 3 * (-1)) * (1 / 9) * (((0 : ℝ) * 0 - 3 * (-1)) * (1 / 9)) * (((0 : ℝ) * 0 - 3 * (-1)) * (1 / 9)) := by norm_num
  unfold solveP3 at h
  simp only at h
  rw [if_pos (not_le.1 h1), cubicTrig_mem (not_le.1 h1)] at h
  norm_num at h

/-- A double root. -/
example : (1 : ℝ) ∈ solveP3 0 (-3) 2 ∧ (-2 : ℝ) ∈ solveP3 0 (-3) 2 :=
  ⟨C76_cubic_complete _ _ _ _ (by norm_num), C76_cubic_complete _ _ _ _ (by norm_num)⟩

example (x : ℝ) : x ∈ solveP2 1 (-3) 2 ↔ x = 1 ∨ x = 2 := by
  rw [C76_quadratic 1 (-3) 2 one_ne_zero (.inr (by norm_num)), show (1 : ℝ) * x ^ 2 + -3 * x + 2 = (x - 1) * (x - 2) by ring,
    mul_eq_zero, sub_eq_zero, sub_eq_zero]

/-- A triangle at rest. -/
def exCcdTriangle (p : Vec3 ℝ) : FourPoints := ⟨⟨0, 0, 0⟩, ⟨4, 0, 0⟩, ⟨0, 4, 0⟩, p⟩

/-- A vertex in motion. -/
def exVertexMotion (p : Vec3 ℝ) : FourPoints := ⟨⟨0, 0, 0⟩, ⟨0, 0, 0⟩, ⟨0, 0, 0⟩, p⟩

theorem exCcdTriangle_cubic (avx : Bool) (p v : Vec3 ℝ) :
    coplanarCubic avx (exCcdTriangle p) (exVertexMotion v) = ⟨0, 0, 16 * v.z, 16 * p.z⟩ := by
  cases avx <;>
    simp only [coplanarCubic, coplanarCubicAvx, coplanarCubicScalar, exCcdTriangle, exVertexMotion, Cubic.mk.injEq, if_true,
      Bool.false_eq_true, if_false, Vec3.sub_x, Vec3.sub_y, Vec3.sub_z] <;>
    refine ⟨by ring, by ring, by ring, by ring⟩

theorem exCcdTriangle_nondegenerate (p v : Vec3 ℝ) (t : ℝ) : Nondegenerate ((exCcdTriangle p).at (exVertexMotion v) t).p1
    ((exCcdTriangle p).at (exVertexMotion v) t).p2 ((exCcdTriangle p).at (exVertexMotion v) t).p3 := by
  intro h
  have := congrArg Vec3.z h
  simp [FourPoints.at, exCcdTriangle, exVertexMotion] at this

/-- A vertex falls through the triangle. -/
example (avx : Bool) : ccdVertexTriangle avx (exCcdTriangle ⟨1, 1, 1⟩) (exVertexMotion ⟨0, 0, -1⟩) (1 / 10) 3 = true := by
  refine C76_vertex_complete_partial avx _ _ _ 3 1 (by norm_num) (by norm_num) (by norm_num) ?_ (exCcdTriangle_nondegenerate _ _ _) ?_
  · rw [exCcdTriangle_cubic]
    exact .inr ⟨rfl, .inr ⟨rfl, by unfold coefTol; norm_num⟩⟩
  · refine ⟨1 / 2, 1 / 4, 1 / 4, by norm_num, by norm_num, by norm_num, by norm_num, ?_⟩
    ext <;> simp [FourPoints.at, exCcdTriangle, exVertexMotion]

/-- The triangle grows while the vertex rises to it: the polynomial is the cubic (1 + t)^2 (t - 1). -/
example (avx : Bool) : ccdVertexTriangle avx ⟨⟨0, 0, 0⟩, ⟨1, 0, 0⟩, ⟨0, 1, 0⟩, ⟨1 / 4, 1 / 4, -1⟩⟩
    ⟨⟨0, 0, 0⟩, ⟨1, 0, 0⟩, ⟨0, 1, 0⟩, ⟨0, 0, 1⟩⟩ (1 / 10) 3 = true := by
  refine C76_vertex_complete_partial avx _ _ _ 3 1 (by norm_num) (by norm_num) (by norm_num) (.inl ?_) ?_ ?_
  · have : (coplanarCubic avx ⟨⟨0, 0, 0⟩, ⟨1, 0, 0⟩, ⟨0, 1, 0⟩, ⟨1 / 4, 1 / 4, -1⟩⟩
        ⟨⟨0, 0, 0⟩, ⟨1, 0, 0⟩, ⟨0, 1, 0⟩, ⟨0, 0, 1⟩⟩).d = 1 := by
      cases avx <;> simp [coplanarCubic, coplanarCubicAvx, coplanarCubicScalar]
    rw [this]
    unfold coefTol
    norm_num
  · intro h
    have := congrArg Vec3.z h
    norm_num [FourPoints.at] at this
  · refine ⟨3 / 4, 1 / 8, 1 / 8, by norm_num, by norm_num, by norm_num, by norm_num, ?_⟩
    ext <;> norm_num [FourPoints.at]

/-- A vertex that stops above the triangle. -/
example (avx : Bool) : ccdVertexTriangle avx (exCcdTriangle ⟨1, 1, 1⟩) (exVertexMotion ⟨0, 0, -1 / 2⟩) 1 1 = true := by
  refine C76_vertex_end avx _ _ 1 1 one_pos ⟨1, 1, 0⟩ (exCcdTriangle_nondegenerate _ _ _) ⟨⟨1 / 4, 1 / 4, ?_⟩, ?_, ?_⟩
    ⟨1 / 2, 1 / 4, 1 / 4, by norm_num, by norm_num, by norm_num, by norm_num, ?_⟩ ?_
  · ext <;> simp [FourPoints.at, exCcdTriangle, exVertexMotion]
  · simp [FourPoints.at, exCcdTriangle, exVertexMotion, Vec3.dot]
  · simp [FourPoints.at, exCcdTriangle, exVertexMotion, Vec3.dot]
  · ext <;> simp [FourPoints.at, exCcdTriangle, exVertexMotion]
  · norm_num [FourPoints.at, exCcdTriangle, exVertexMotion, sqDist, Vec3.sqNorm, Vec3.dot]

/-- An edge falls through another one. -/
example (avx : Bool) : ccdEdgeEdge avx ⟨⟨-1, 0, 0⟩, ⟨1, 0, 0⟩, ⟨0, -1, 1⟩, ⟨0, 1, 1⟩⟩
    ⟨⟨0, 0, 0⟩, ⟨0, 0, 0⟩, ⟨0, 0, -1⟩, ⟨0, 0, -1⟩⟩ (1 / 10) 3 = true := by
  refine C76_edge_complete_partial avx _ _ _ 3 1 (by norm_num) (by norm_num) (by norm_num) ?_ ⟨?_, ?_, ?_, ?_⟩ ?_
  · have : coplanarCubic avx ⟨⟨-1, 0, 0⟩, ⟨1, 0, 0⟩, ⟨0, -1, 1⟩, ⟨0, 1, 1⟩⟩
        ⟨⟨0, 0, 0⟩, ⟨0, 0, 0⟩, ⟨0, 0, -1⟩, ⟨0, 0, -1⟩⟩ = ⟨0, 0, 4, -4⟩ := by
      cases avx <;> norm_num [coplanarCubic, coplanarCubicAvx, coplanarCubicScalar]
    rw [this]
    exact .inr ⟨rfl, .inr ⟨rfl, by unfold coefTol; norm_num⟩⟩
  · left; norm_num [FourPoints.at, Vec3.sqNorm, Vec3.dot]
  · right; norm_num [FourPoints.at, Vec3.sqNorm, Vec3.dot]
  · right; norm_num [FourPoints.at, Vec3.sqNorm, Vec3.dot]
  · right; norm_num [FourPoints.at, Vec3.sqNorm, Vec3.dot]
  · refine ⟨1 / 2, 1 / 2, by norm_num, by norm_num, ?_⟩
    ext <;> norm_num [FourPoints.at, segPoint]

/-! ### What is missed -/

/-- **C76 fails**: a vertex that slides in the plane of the triangle, into it and out of it, is not reported. -/
theorem C76_in_plane_missed (avx : Bool) :
    ccdVertexTriangle avx (exCcdTriangle ⟨-1, 1, 0⟩) (exVertexMotion ⟨2, 0, 0⟩) (1 / 10) 3 = false ∧
      (0 < (1 : ℝ) ∧ (1 : ℝ) ≤ 3) ∧ InTriangleInterior ⟨0, 0, 0⟩ ⟨4, 0, 0⟩ ⟨0, 4, 0⟩
        ((exCcdTriangle ⟨-1, 1, 0⟩).at (exVertexMotion ⟨2, 0, 0⟩) 1).p4 := by
  refine ⟨?_, by norm_num, ⟨1 / 2, 1 / 4, 1 / 4, by norm_num, by norm_num, by norm_num, by norm_num, ?_⟩⟩
  · have h3 : projectOnTriangle (⟨5, 1, 0⟩ : Vec3 ℝ) ⟨0, 0, 0⟩ ⟨4, 0, 0⟩ ⟨0, 4, 0⟩ = some (⟨4, 0, 0⟩, false) := by
      unfold projectOnTriangle
      norm_num [Vec3.dot]
    have e : (exCcdTriangle ⟨-1, 1, 0⟩).at (exVertexMotion ⟨2, 0, 0⟩) 3 = ⟨⟨0, 0, 0⟩, ⟨4, 0, 0⟩, ⟨0, 4, 0⟩, ⟨5, 1, 0⟩⟩ := by
      simp only [FourPoints.at, exCcdTriangle, exVertexMotion, FourPoints.mk.injEq]
      refine ⟨?_, ?_, ?_, ?_⟩ <;> ext <;> norm_num
    have ht : timesCoplanar avx (exCcdTriangle ⟨-1, 1, 0⟩) (exVertexMotion ⟨2, 0, 0⟩) = [0] := by
      unfold timesCoplanar Cubic.roots
      rw [exCcdTriangle_cubic]
      norm_num [coefTol]
    unfold ccdVertexTriangle
    rw [ht]
    simp [e, vertexTriangleClose, h3]
  · ext <;> norm_num [FourPoints.at, exCcdTriangle, exVertexMotion]

/-- **C76 fails**: a vertex that meets an edge of the triangle is not reported. -/
theorem C76_boundary_missed (avx : Bool) :
    ccdVertexTriangle avx (exCcdTriangle ⟨2, 0, 1⟩) (exVertexMotion ⟨0, 0, -1⟩) (1 / 10) 3 = false ∧
      (0 < (1 : ℝ) ∧ (1 : ℝ) ≤ 3) ∧ InTriangle ⟨0, 0, 0⟩ ⟨4, 0, 0⟩ ⟨0, 4, 0⟩
        ((exCcdTriangle ⟨2, 0, 1⟩).at (exVertexMotion ⟨0, 0, -1⟩) 1).p4 := by
  refine ⟨?_, by norm_num, ⟨1 / 2, 1 / 2, 0, by norm_num, by norm_num, by norm_num, by norm_num, ?_⟩⟩
  · have hp : ∀ z : ℝ, projectOnTriangle (⟨2, 0, z⟩ : Vec3 ℝ) ⟨0, 0, 0⟩ ⟨4, 0, 0⟩ ⟨0, 4, 0⟩ = some (⟨2, 0, 0⟩, false) := by
      intro z
      unfold projectOnTriangle divOr
      norm_num [Vec3.dot]
      ext <;> norm_num
    have e : ∀ t, (exCcdTriangle ⟨2, 0, 1⟩).at (exVertexMotion ⟨0, 0, -1⟩) t = ⟨⟨0, 0, 0⟩, ⟨4, 0, 0⟩, ⟨0, 4, 0⟩, ⟨2, 0, 1 - t⟩⟩ := by
      intro t
      simp only [FourPoints.at, exCcdTriangle, exVertexMotion, FourPoints.mk.injEq]
      refine ⟨?_, ?_, ?_, ?_⟩ <;> ext <;> simp
      ring
    unfold ccdVertexTriangle
    rw [List.any_eq_false]
    intro t _
    split_ifs
    · simp
    · simp [e, vertexTriangleClose, hp]
  · ext <;> norm_num [FourPoints.at, exCcdTriangle, exVertexMotion]

/-- **C76 fails**: a vertex that falls through a triangle with edges of half a millimetre, in metres, is not reported. -/
theorem C76_small_missed (avx : Bool) :
    let x : FourPoints := ⟨⟨0, 0, 0⟩, ⟨5 / 10 ^ 4, 0, 0⟩, ⟨0, 5 / 10 ^ 4, 0⟩, ⟨1 / 10 ^ 4, 1 / 10 ^ 4, 1 / 10 ^ 3⟩⟩
    let v : FourPoints := exVertexMotion ⟨0, 0, -2 / 10 ^ 3⟩
    ccdVertexTriangle avx x v (1 / 10 ^ 4) 1 = false ∧ InTriangleInterior x.p1 x.p2 x.p3 (x.at v (1 / 2)).p4 := by
  intro x v
  refine ⟨?_, ⟨3 / 5, 1 / 5, 1 / 5, by norm_num, by norm_num, by norm_num, by norm_num, ?_⟩⟩
  · have ht : timesCoplanar avx x v = [0] := by
      have : coplanarCubic avx x v = ⟨0, 0, -5 / 10 ^ 10, 25 / 10 ^ 11⟩ := by
        cases avx <;> norm_num [coplanarCubic, coplanarCubicAvx, coplanarCubicScalar, x, v, exVertexMotion]
      unfold timesCoplanar Cubic.roots
      rw [this]
      norm_num [coefTol, abs_of_neg]
    have hv : vertexTriangleClose (x.at v 1) (1 / 10 ^ 4) = false := by
      rw [← Bool.not_eq_true, vertexTriangleClose_iff]
      rintro ⟨-, q, ⟨⟨a, b, rfl⟩, -, -⟩, -, h⟩
      simp only [sqDist, FourPoints.at, x, v, exVertexMotion, Vec3.sqNorm, Vec3.dot, Vec3.sub_x, Vec3.sub_y, Vec3.sub_z, Vec3.add_x,
        Vec3.add_y, Vec3.add_z, Vec3.smul_x, Vec3.smul_y, Vec3.smul_z] at h
      norm_num at h
      nlinarith [mul_self_nonneg (1 / 10000 - a * (1 / 2000)), mul_self_nonneg (1 / 10000 - b * (1 / 2000))]
    unfold ccdVertexTriangle
    rw [ht]
    simp only [List.cons_append, List.nil_append, List.any_cons, List.any_nil, hv]
    simp
  · ext <;> norm_num [FourPoints.at, x, v, exVertexMotion]

/-- **C76 fails**: short edges that fall through each other; `C76_short_edges` applies. -/
example (avx : Bool) : ccdEdgeEdge avx ⟨⟨-1 / 200, 0, 0⟩, ⟨1 / 200, 0, 0⟩, ⟨0, -1 / 200, 1⟩, ⟨0, 1 / 200, 1⟩⟩
    ⟨⟨0, 0, 0⟩, ⟨0, 0, 0⟩, ⟨0, 0, -1⟩, ⟨0, 0, -1⟩⟩ 1 3 = false := by
  apply C76_short_edges
  intro t _ _
  norm_num [FourPoints.at, Vec3.sqNorm, Vec3.dot]

end Momentum
