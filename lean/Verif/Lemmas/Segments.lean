import Verif.Model.Segments
import Verif.Spec.Geometry
import Mathlib.Tactic.Linarith
import Mathlib.Tactic.Positivity

/-!
# The quadratic function behind the distance of two segments
-/

namespace Momentum

variable {K : Type} [Field K] [LinearOrder K] [IsStrictOrderedRing K]

/-- `s` minimises the function with slope `p s + q` on the unit interval. -/
structure SlopeMin (p q s : K) : Prop where
  lo : 0 ≤ s
  hi : s ≤ 1
  up : 0 < s → p * s + q ≤ 0
  down : s < 1 → 0 ≤ p * s + q

/-- The conditions for a minimum of the squared distance over the unit square. -/
structure Kkt (a b c d e s t : K) : Prop where
  hs : SlopeMin a (d - b * t) s
  ht : SlopeMin c (-e - b * s) t

theorem closest_of_kkt {o1 d1 o2 d2 : Vec3 K} {s t : K}
    (h : Kkt d1.sqNorm (d1.dot d2) d2.sqNorm (d1.dot (o1 - o2)) (d2.dot (o1 - o2)) s t) :
    IsClosestPair o1 d1 o2 d2 s t := by
  refine ⟨⟨h.hs.lo, h.hs.hi⟩, ⟨h.ht.lo, h.ht.hi⟩, fun s' t' h1 h2 h3 h4 => ?_⟩
  have hs : 0 ≤ (d1.sqNorm * s + (d1.dot (o1 - o2) - d1.dot d2 * t)) * (s' - s) := by
    rcases lt_trichotomy s' s with hlt | rfl | hlt
    · have := h.hs.up (by linarith)
      nlinarith
    · simp
    · have := h.hs.down (by linarith)
      nlinarith
  have ht : 0 ≤ (d2.sqNorm * t + (-d2.dot (o1 - o2) - d1.dot d2 * s)) * (t' - t) := by
    rcases lt_trichotomy t' t with hlt | rfl | hlt
    · have := h.ht.up (by linarith)
      nlinarith
    · simp
    · have := h.ht.down (by linarith)
      nlinarith
  have hq : 0 ≤ ((s' - s) • d1 - (t' - t) • d2).sqNorm := by
    simp only [Vec3.sqNorm, Vec3.dot]
    nlinarith [mul_self_nonneg ((s' - s) • d1 - (t' - t) • d2).x, mul_self_nonneg ((s' - s) • d1 - (t' - t) • d2).y,
      mul_self_nonneg ((s' - s) • d1 - (t' - t) • d2).z]
  have e : sqDist (segPoint o1 d1 s') (segPoint o2 d2 t') = sqDist (segPoint o1 d1 s) (segPoint o2 d2 t) +
      2 * ((d1.sqNorm * s + (d1.dot (o1 - o2) - d1.dot d2 * t)) * (s' - s)) +
      2 * ((d2.sqNorm * t + (-d2.dot (o1 - o2) - d1.dot d2 * s)) * (t' - t)) +
      ((s' - s) • d1 - (t' - t) • d2).sqNorm := by
    simp only [sqDist, segPoint, Vec3.sqNorm, Vec3.dot, Vec3.sub_x, Vec3.sub_y, Vec3.sub_z, Vec3.add_x, Vec3.add_y,
      Vec3.add_z, Vec3.smul_x, Vec3.smul_y, Vec3.smul_z]
    ring
  rw [e]
  linarith

/-- The minimum of a linear slope over the unit interval. -/
theorem clamp01_slope {p q : K} (hp : 0 < p) : SlopeMin p q (clamp01 (-q / p)) := by
  unfold clamp01
  split_ifs with h1 h2
  · rw [div_lt_iff₀ hp] at h1
    exact ⟨le_rfl, zero_le_one, fun h => absurd h (lt_irrefl _), fun _ => by linarith⟩
  · rw [lt_div_iff₀ hp] at h2
    exact ⟨zero_le_one, le_rfl, fun _ => by linarith, fun h => absurd h (lt_irrefl _)⟩
  · have e : p * (-q / p) + q = 0 := by field_simp; ring
    exact ⟨not_lt.1 h1, not_lt.1 h2, fun _ => e.le, fun _ => e.ge⟩

theorem slope_low {a b c d e s0 s : K} (hc : 0 < c) (hD : 0 ≤ a * c - b * b)
    (h0 : SlopeMin (a * c - b * b) (c * d - b * e) s0) (hs : SlopeMin a d s) (hlt : b * s0 + e < 0) : b * s + e ≤ 0 := by
  by_contra hu
  have hu := not_le.1 hu
  rcases lt_trichotomy b 0 with hb | rfl | hb
  · have hss : s < s0 := by
      by_contra h
      nlinarith [mul_nonneg (neg_pos.2 hb).le (sub_nonneg.2 (not_lt.1 h))]
    have h1 := hs.down (by linarith [h0.hi])
    have h2 := h0.up (by linarith [hs.lo])
    nlinarith [mul_nonneg hc.le h1, mul_pos (neg_pos.2 hb) hu, mul_nonneg hD (sub_pos.2 hss).le]
  · linarith
  · have hss : s0 < s := by
      by_contra h
      nlinarith [mul_nonneg hb.le (sub_nonneg.2 (not_lt.1 h))]
    have h1 := hs.up (by linarith [h0.lo])
    have h2 := h0.down (by linarith [hs.hi])
    nlinarith [mul_nonneg hc.le (neg_nonneg.2 h1), mul_pos hb hu, mul_nonneg hD (sub_pos.2 hss).le]

/-- First the point of the first segment that is closest to the second line, then the second segment. -/
theorem kkt_of_stages {a b c d e s0 s t : K} (hc : 0 < c) (hD : 0 ≤ a * c - b * b)
    (h0 : SlopeMin (a * c - b * b) (c * d - b * e) s0)
    (h : (b * s0 + e < 0 ∧ t = 0 ∧ SlopeMin a d s) ∨ (c < b * s0 + e ∧ t = 1 ∧ SlopeMin a (d - b) s) ∨
      (0 ≤ b * s0 + e ∧ b * s0 + e ≤ c ∧ s = s0 ∧ c * t = b * s0 + e)) : Kkt a b c d e s t := by
  rcases h with ⟨h1, rfl, h3⟩ | ⟨h1, rfl, h3⟩ | ⟨h1, h2, rfl, h3⟩
  · have := slope_low hc hD h0 h3 h1
    refine ⟨by simpa using h3, ⟨le_rfl, zero_le_one, fun h => absurd h (lt_irrefl _), fun _ => by linarith⟩⟩
  · have := slope_low (a := a) (b := -b) (c := c) (d := d - b) (e := -(e - c)) (s0 := s0) (s := s) hc (by linarith)
      ⟨h0.lo, h0.hi, fun h => by linarith [h0.up h], fun h => by linarith [h0.down h]⟩ h3 (by linarith)
    refine ⟨by simpa using h3, ⟨zero_le_one, le_rfl, fun _ => by linarith, fun h => absurd h (lt_irrefl _)⟩⟩
  · have e1 : c * (a * s + (d - b * t)) = (a * c - b * b) * s + (c * d - b * e) := by linear_combination (-b) * h3
    have e2 : c * t + (-e - b * s) = 0 := by linarith
    refine ⟨⟨h0.lo, h0.hi, fun h => ?_, fun h => ?_⟩, ⟨?_, ?_, fun _ => e2.le, fun _ => e2.ge⟩⟩
    · have := h0.up h
      rw [← e1] at this
      by_contra hh
      nlinarith [mul_pos hc (not_le.1 hh)]
    · have := h0.down h
      rw [← e1] at this
      by_contra hh
      nlinarith [mul_pos hc (neg_pos.2 (not_le.1 hh))]
    · by_contra hh
      nlinarith [mul_pos hc (neg_pos.2 (not_le.1 hh))]
    · by_contra hh
      nlinarith [mul_pos hc (sub_pos.2 (not_le.1 hh))]

end Momentum
