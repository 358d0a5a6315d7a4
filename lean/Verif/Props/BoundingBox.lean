import Verif.Lemmas.Slab
import Verif.Lemmas.BvhBuild
import Mathlib.Data.Rat.Defs
import Mathlib.Algebra.Order.Field.Rat

/-!
# C40: the ray/box tests
-/

namespace Momentum
section
variable {K : Type} [Field K] [LinearOrder K] [IsStrictOrderedRing K]

/-- A box that is not empty: `min ≤ max` in each coordinate. -/
def Box.Proper (a : Box K) : Prop := ∀ d : Fin 3, a.min.get d ≤ a.max.get d

/-- Specification: the ray from `o` in direction `d` meets the box at some parameter `t ≥ 0`. -/
def RayMeets (a : Box K) (o d : Vec3 K) : Prop := ∃ t : K, 0 ≤ t ∧ a.HasPoint (o + t • d)

/-- Specification: all components of the direction are nonzero. -/
def Vec3.AllNonzero (d : Vec3 K) : Prop := d.x ≠ 0 ∧ d.y ≠ 0 ∧ d.z ≠ 0

/-- **C40** the ray/box test is true exactly when some nonnegative ray parameter gives a point inside the box. -/
theorem C40_intersects_ray (a : Box K) (o d : Vec3 K) (ha : a.Proper) (hd : d.AllNonzero) :
    a.intersectsRay o d = true ↔ RayMeets a o d := by
  have hx : a.min.x ≤ a.max.x := by simpa [Vec3.get] using ha 0
  have hy : a.min.y ≤ a.max.y := by simpa [Vec3.get] using ha 1
  have hz : a.min.z ≤ a.max.z := by simpa [Vec3.get] using ha 2
  rw [intersectsRay_intervals]
  unfold RayMeets
  simp only [slab_eq]
  refine exists_congr fun t => and_congr_right fun _ => ?_
  rw [slab_times _ _ _ _ _ hd.1 hx, slab_times _ _ _ _ _ hd.2.1 hy, slab_times _ _ _ _ _ hd.2.2 hz, Box.hasPoint_iff]
  simp

/-- **C40** the branch-free test, given the componentwise inverse of the direction, is true exactly when some parameter in
`[0, big]` gives a point inside the box (`big` is the largest finite number). -/
theorem C40_intersects_branchless (a : Box K) (o d : Vec3 K) (big : K) (hbig : 0 ≤ big) (ha : a.Proper) (hd : d.AllNonzero) :
    a.intersectsBranchless big o d.cwiseInverse = true ↔ ∃ t : K, 0 ≤ t ∧ t ≤ big ∧ a.HasPoint (o + t • d) := by
  have hx : a.min.x ≤ a.max.x := by simpa [Vec3.get] using ha 0
  have hy : a.min.y ≤ a.max.y := by simpa [Vec3.get] using ha 1
  have hz : a.min.z ≤ a.max.z := by simpa [Vec3.get] using ha 2
  have iff3 : ∀ t, a.HasPoint (o + t • d) ↔
      (min ((a.min.x - o.x) / d.x) ((a.max.x - o.x) / d.x) ≤ t ∧ t ≤ max ((a.min.x - o.x) / d.x) ((a.max.x - o.x) / d.x)) ∧
      (min ((a.min.y - o.y) / d.y) ((a.max.y - o.y) / d.y) ≤ t ∧ t ≤ max ((a.min.y - o.y) / d.y) ((a.max.y - o.y) / d.y)) ∧
      (min ((a.min.z - o.z) / d.z) ((a.max.z - o.z) / d.z) ≤ t ∧ t ≤ max ((a.min.z - o.z) / d.z) ((a.max.z - o.z) / d.z)) := by
    intro t
    rw [slab_times _ _ _ _ _ hd.1 hx, slab_times _ _ _ _ _ hd.2.1 hy, slab_times _ _ _ _ _ hd.2.2 hz, Box.hasPoint_iff]
    simp
  constructor
  · intro h
    obtain ⟨t, h0, hb, h1, h2, h3⟩ := intersectsBranchless_intervals big hbig a o _ h
    simp only [Vec3.cwiseInverse, ← div_eq_mul_inv] at h1 h2 h3
    exact ⟨t, h0, hb, (iff3 t).mpr ⟨h1, h2, h3⟩⟩
  · rintro ⟨t, h0, hb, h⟩
    obtain ⟨h1, h2, h3⟩ := (iff3 t).mp h
    refine intersectsBranchless_of big a o _ t h0 hb ?_ ?_ ?_ <;>
      simpa only [Vec3.cwiseInverse, ← div_eq_mul_inv]

/-- **C40** a box that contains another one is hit by every ray that hits the inner box (so pruning loses nothing). -/
theorem C40_monotone (a b : Box K) (h : a.Includes b) (o d : Vec3 K) (hd : d.AllNonzero) (hb : b.Proper)
    (hit : b.intersectsRay o d = true) : a.intersectsRay o d = true := by
  have ha : a.Proper := fun i => ((h i).1.trans (hb i)).trans (h i).2
  rw [C40_intersects_ray _ _ _ ha hd]
  obtain ⟨t, h0, hp⟩ := (C40_intersects_ray _ _ _ hb hd).mp hit
  exact ⟨t, h0, fun i => ⟨(h i).1.trans (hp i).1, (hp i).2.trans (h i).2⟩⟩

omit [IsStrictOrderedRing K] in
/-- **C40** the box/box test is true exactly when two nonempty boxes share a point. -/
theorem C40_box_box (a b : Box K) (ha : a.Proper) (hb : b.Proper) : a.intersects b = true ↔ a.Overlap b := by
  have hax : a.min.x ≤ a.max.x := by simpa [Vec3.get] using ha 0
  have hay : a.min.y ≤ a.max.y := by simpa [Vec3.get] using ha 1
  have haz : a.min.z ≤ a.max.z := by simpa [Vec3.get] using ha 2
  have hbx : b.min.x ≤ b.max.x := by simpa [Vec3.get] using hb 0
  have hby : b.min.y ≤ b.max.y := by simpa [Vec3.get] using hb 1
  have hbz : b.min.z ≤ b.max.z := by simpa [Vec3.get] using hb 2
  unfold Box.intersects Box.Overlap
  simp only [decide_eq_true_iff, Box.hasPoint_iff]
  constructor
  · rintro ⟨⟨h1, h2, h3⟩, h4, h5, h6⟩
    refine ⟨⟨max a.min.x b.min.x, max a.min.y b.min.y, max a.min.z b.min.z⟩, ?_, ?_⟩ <;> simp [*]
  · rintro ⟨p, ⟨⟨a1, a2⟩, ⟨a3, a4⟩, a5, a6⟩, ⟨b1, b2⟩, ⟨b3, b4⟩, b5, b6⟩
    exact ⟨⟨a1.trans b2, a3.trans b4, a5.trans b6⟩, b1.trans a2, b3.trans a4, b5.trans a6⟩

end

/-- A ray that enters the unit box from outside, and one that points away. -/
example : (⟨⟨0, 0, 0⟩, ⟨1, 1, 1⟩, 7⟩ : Box ℚ).intersectsRay ⟨-1, -1, -1⟩ ⟨2, 3, 1⟩ = false := by decide +kernel
example : (⟨⟨0, 0, 0⟩, ⟨1, 1, 1⟩, 7⟩ : Box ℚ).intersectsRay ⟨-1, -1, -1⟩ ⟨2, 3, 2⟩ = true := by decide +kernel
example : (⟨⟨0, 0, 0⟩, ⟨1, 1, 1⟩, 7⟩ : Box ℚ).intersectsRay ⟨-1, -1, -1⟩ ⟨-2, -3, -2⟩ = false := by decide +kernel
example : (⟨⟨0, 0, 0⟩, ⟨1, 1, 1⟩, 7⟩ : Box ℚ).Proper ∧ (⟨2, 3, 2⟩ : Vec3 ℚ).AllNonzero := by
  constructor
  · intro d; fin_cases d <;> simp [Vec3.get]
  · exact ⟨by norm_num, by norm_num, by norm_num⟩

end Momentum
