import Verif.Spec.Bvh
import Mathlib.Tactic.Linarith
import Mathlib.Algebra.Order.Field.Basic
import Mathlib.Order.Lattice

/-! # Slab tests (helper lemmas for C40) -/

namespace Momentum
section
variable {K : Type} [Field K] [LinearOrder K] [IsStrictOrderedRing K]

omit [IsStrictOrderedRing K] in
theorem Box.hasPoint_iff (a : Box K) (p : Vec3 K) : a.HasPoint p ↔
    (a.min.x ≤ p.x ∧ p.x ≤ a.max.x) ∧ (a.min.y ≤ p.y ∧ p.y ≤ a.max.y) ∧ (a.min.z ≤ p.z ∧ p.z ≤ a.max.z) := by
  unfold Box.HasPoint
  simp only [Fin.forall_fin_succ, Vec3.get]
  simp

/-- The two slab times, in either order, delimit the parameters inside the slab. -/
theorem slab_times (lo hi o d t : K) (hd : d ≠ 0) (hlh : lo ≤ hi) :
    (min ((lo - o) / d) ((hi - o) / d) ≤ t ∧ t ≤ max ((lo - o) / d) ((hi - o) / d)) ↔ (lo ≤ o + t * d ∧ o + t * d ≤ hi) := by
  rcases lt_or_gt_of_ne hd with h | h
  · have h1 : (hi - o) / d ≤ (lo - o) / d := div_le_div_of_nonpos_of_le h.le (by linarith)
    rw [min_eq_right h1, max_eq_left h1, div_le_iff_of_neg h, le_div_iff_of_neg h]
    constructor
    · rintro ⟨a, b⟩; exact ⟨by linarith, by linarith⟩
    · rintro ⟨a, b⟩; exact ⟨by linarith, by linarith⟩
  · have h1 : (lo - o) / d ≤ (hi - o) / d := div_le_div_of_nonneg_right (by linarith) h.le
    rw [min_eq_left h1, max_eq_right h1, div_le_iff₀ h, le_div_iff₀ h]
    constructor
    · rintro ⟨a, b⟩; exact ⟨by linarith, by linarith⟩
    · rintro ⟨a, b⟩; exact ⟨by linarith, by linarith⟩

omit [IsStrictOrderedRing K] in
theorem slab_eq (lo hi o d : K) : Box.slab lo hi o d = (min ((lo - o) / d) ((hi - o) / d), max ((lo - o) / d) ((hi - o) / d)) := by
  unfold Box.slab
  simp only
  split_ifs with h
  · rw [min_eq_right h.le, max_eq_left h.le]
  · rw [min_eq_left (not_lt.mp h), max_eq_right (not_lt.mp h)]

omit [Field K] [IsStrictOrderedRing K] in
theorem if_max (a b : K) : (if a > b then a else b) = max b a := by
  split_ifs with h
  · rw [max_eq_right h.le]
  · rw [max_eq_left (not_lt.mp h)]

omit [Field K] [IsStrictOrderedRing K] in
theorem if_min (a b : K) : (if a < b then a else b) = min b a := by
  split_ifs with h
  · rw [min_eq_right h.le]
  · rw [min_eq_left (not_lt.mp h)]

omit [IsStrictOrderedRing K] in
/-- The control flow of the branchy test computes the intersection of three intervals with `[0, ∞)`. -/
theorem intersectsRay_intervals (a : Box K) (o d : Vec3 K) : a.intersectsRay o d = true ↔
    ∃ t, 0 ≤ t ∧ ((Box.slab a.min.x a.max.x o.x d.x).1 ≤ t ∧ t ≤ (Box.slab a.min.x a.max.x o.x d.x).2) ∧
      ((Box.slab a.min.y a.max.y o.y d.y).1 ≤ t ∧ t ≤ (Box.slab a.min.y a.max.y o.y d.y).2) ∧
      ((Box.slab a.min.z a.max.z o.z d.z).1 ≤ t ∧ t ≤ (Box.slab a.min.z a.max.z o.z d.z).2) := by
  unfold Box.intersectsRay
  have hx : (Box.slab a.min.x a.max.x o.x d.x).1 ≤ (Box.slab a.min.x a.max.x o.x d.x).2 := by rw [slab_eq]; exact min_le_max
  have hy : (Box.slab a.min.y a.max.y o.y d.y).1 ≤ (Box.slab a.min.y a.max.y o.y d.y).2 := by rw [slab_eq]; exact min_le_max
  have hz : (Box.slab a.min.z a.max.z o.z d.z).1 ≤ (Box.slab a.min.z a.max.z o.z d.z).2 := by rw [slab_eq]; exact min_le_max
  simp only [if_max, if_min]
  generalize (Box.slab a.min.x a.max.x o.x d.x).1 = x0 at *
  generalize (Box.slab a.min.x a.max.x o.x d.x).2 = x1 at *
  generalize (Box.slab a.min.y a.max.y o.y d.y).1 = y0 at *
  generalize (Box.slab a.min.y a.max.y o.y d.y).2 = y1 at *
  generalize (Box.slab a.min.z a.max.z o.z d.z).1 = z0 at *
  generalize (Box.slab a.min.z a.max.z o.z d.z).2 = z1 at *
  by_cases c1 : x0 > y1 ∨ y0 > x1
  · rw [if_pos c1]
    simp only [Bool.false_eq_true, false_iff, not_exists]
    rintro t ⟨_, ⟨a1, a2⟩, ⟨b1, b2⟩, _⟩
    rcases c1 with c | c
    · exact absurd (a1.trans b2) (not_le.mpr c)
    · exact absurd (b1.trans a2) (not_le.mpr c)
  · rw [if_neg c1]
    push Not at c1
    by_cases c2 : max x0 y0 > z1 ∨ z0 > min x1 y1
    · rw [if_pos c2]
      simp only [Bool.false_eq_true, false_iff, not_exists]
      rintro t ⟨_, ⟨a1, a2⟩, ⟨b1, b2⟩, ⟨d1, d2⟩⟩
      rcases c2 with c | c
      · exact absurd ((max_le a1 b1).trans d2) (not_le.mpr c)
      · exact absurd (d1.trans (le_min a2 b2)) (not_le.mpr c)
    · rw [if_neg c2]
      push Not at c2
      have hle : max (max x0 y0) z0 ≤ min (min x1 y1) z1 := by
        refine max_le (max_le ?_ ?_) ?_
        · exact le_min (le_min hx c1.1) ((le_max_left _ _).trans c2.1)
        · exact le_min (le_min c1.2 hy) ((le_max_right _ _).trans c2.1)
        · exact le_min c2.2 hz
      by_cases c3 : max (max x0 y0) z0 < 0 ∧ min (min x1 y1) z1 < 0
      · rw [if_pos c3]
        simp only [Bool.false_eq_true, false_iff, not_exists]
        rintro t ⟨h0, ⟨a1, a2⟩, ⟨b1, b2⟩, ⟨d1, d2⟩⟩
        exact absurd (h0.trans (le_min (le_min a2 b2) d2)) (not_le.mpr c3.2)
      · rw [if_neg c3]
        simp only [true_iff]
        have hnn : 0 ≤ min (min x1 y1) z1 := by
          by_contra h
          exact c3 ⟨hle.trans_lt (not_le.mp h), not_le.mp h⟩
        refine ⟨min (min x1 y1) z1, hnn, ⟨?_, ?_⟩, ⟨?_, ?_⟩, ⟨?_, ?_⟩⟩
        · exact ((le_max_left _ _).trans (le_max_left _ _)).trans hle
        · exact (min_le_left _ _).trans (min_le_left _ _)
        · exact ((le_max_right _ _).trans (le_max_left _ _)).trans hle
        · exact (min_le_left _ _).trans (min_le_right _ _)
        · exact (le_max_right _ _).trans hle
        · exact min_le_right _ _

omit [IsStrictOrderedRing K] in
theorem branchlessStep_eq (lo hi o inv : K) (t : K × K) : Box.branchlessStep lo hi o inv t =
    (max t.1 (min ((lo - o) * inv) ((hi - o) * inv)), min t.2 (max ((lo - o) * inv) ((hi - o) * inv))) := by
  unfold Box.branchlessStep
  simp only
  rw [← max_min_distrib_left, ← min_max_distrib_left]

omit [IsStrictOrderedRing K] in
theorem intersectsBranchless_intervals (big : K) (hbig : 0 ≤ big) (a : Box K) (o inv : Vec3 K) :
    a.intersectsBranchless big o inv = true →
    ∃ t, 0 ≤ t ∧ t ≤ big ∧
      (min ((a.min.x - o.x) * inv.x) ((a.max.x - o.x) * inv.x) ≤ t ∧ t ≤ max ((a.min.x - o.x) * inv.x) ((a.max.x - o.x) * inv.x)) ∧
      (min ((a.min.y - o.y) * inv.y) ((a.max.y - o.y) * inv.y) ≤ t ∧ t ≤ max ((a.min.y - o.y) * inv.y) ((a.max.y - o.y) * inv.y)) ∧
      (min ((a.min.z - o.z) * inv.z) ((a.max.z - o.z) * inv.z) ≤ t ∧ t ≤ max ((a.min.z - o.z) * inv.z) ((a.max.z - o.z) * inv.z)) := by
  unfold Box.intersectsBranchless
  simp only [branchlessStep_eq, decide_eq_true_iff]
  intro h
  rw [max_le_iff, max_le_iff, max_le_iff] at h
  refine ⟨_, h.1.1.1, ?_, ⟨h.1.1.2, ?_⟩, ⟨h.1.2, ?_⟩, ⟨h.2, ?_⟩⟩
  · exact (min_le_left _ _).trans ((min_le_left _ _).trans (min_le_left _ _))
  · exact (min_le_left _ _).trans ((min_le_left _ _).trans (min_le_right _ _))
  · exact (min_le_left _ _).trans (min_le_right _ _)
  · exact min_le_right _ _

omit [IsStrictOrderedRing K] in
theorem intersectsBranchless_of (big : K) (a : Box K) (o inv : Vec3 K) (t : K) (h0 : 0 ≤ t) (hb : t ≤ big)
    (hx : min ((a.min.x - o.x) * inv.x) ((a.max.x - o.x) * inv.x) ≤ t ∧ t ≤ max ((a.min.x - o.x) * inv.x) ((a.max.x - o.x) * inv.x))
    (hy : min ((a.min.y - o.y) * inv.y) ((a.max.y - o.y) * inv.y) ≤ t ∧ t ≤ max ((a.min.y - o.y) * inv.y) ((a.max.y - o.y) * inv.y))
    (hz : min ((a.min.z - o.z) * inv.z) ((a.max.z - o.z) * inv.z) ≤ t ∧ t ≤ max ((a.min.z - o.z) * inv.z) ((a.max.z - o.z) * inv.z)) :
    a.intersectsBranchless big o inv = true := by
  unfold Box.intersectsBranchless
  simp only [branchlessStep_eq, decide_eq_true_iff]
  exact (max_le (max_le (max_le h0 hx.1) hy.1) hz.1).trans (le_min (le_min (le_min hb hx.2) hy.2) hz.2)

end
end Momentum
