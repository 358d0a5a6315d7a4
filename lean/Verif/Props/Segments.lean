import Verif.Lemmas.Segments
import Verif.Lemmas.Vec
import Mathlib.Data.Rat.Cast.Order

/-!
# C43: closest points of two segments
-/

namespace Momentum

variable {K : Type} [Field K] [LinearOrder K] [IsStrictOrderedRing K]

/-- `x'` is `x`, except that it may be zero when `x` is small against `tol / κ`. -/
def Nearly (tol κ x x' : K) : Prop := x' = x ∨ (x' = 0 ∧ x * κ < tol)

theorem lagrange (u v : Vec3 K) : (u.cross v).sqNorm = u.sqNorm * v.sqNorm - u.dot v * u.dot v := by
  simp only [Vec3.sqNorm, Vec3.dot, Vec3.cross]; ring

theorem slope_pick {p q sD : K} (hsD : sD ≠ 0) (hp : 0 < p ∨ p = 0 ∧ q = 0) :
    ∃ n m, (if -q < 0 then ((0 : K), sD) else if -q > p then (sD, sD) else (-q, p)) = (n, m) ∧
      SlopeMin p q (n / m) := by
  split_ifs with h1 h2
  · refine ⟨_, _, rfl, ?_⟩
    rw [zero_div]
    exact ⟨le_rfl, zero_le_one, fun h => absurd h (lt_irrefl _), fun _ => by linarith⟩
  · refine ⟨_, _, rfl, ?_⟩
    rw [div_self hsD]
    exact ⟨zero_le_one, le_rfl, fun _ => by linarith, fun h => absurd h (lt_irrefl _)⟩
  · refine ⟨_, _, rfl, ?_⟩
    rcases hp with hp | ⟨rfl, rfl⟩
    · have e : p * (-q / p) + q = 0 := by field_simp; ring
      exact ⟨div_nonneg (not_lt.1 h1) hp.le, (div_le_one hp).2 (not_lt.1 h2), fun _ => e.le, fun _ => e.ge⟩
    · simp only [neg_zero, zero_div]
      exact ⟨le_rfl, zero_le_one, fun h => absurd h (lt_irrefl _), fun _ => by simp⟩

/-- A numerator and a denominator of the second stage. -/
structure GoodFraction (n d : K) : Prop where
  lo : 0 ≤ n
  hi : n ≤ d

theorem segStage2_spec {a b c d e : K} {r : SegState K} (hc : 0 < c) (hD : 0 ≤ a * c - b * b)
    (ha : 0 < a ∨ a = 0 ∧ b = 0 ∧ d = 0) (hsD : 0 < r.sD) (htD : 0 < r.tD) (hs : GoodFraction r.sN r.sD)
    (h0 : SlopeMin (a * c - b * b) (c * d - b * e) (r.sN / r.sD))
    (ht : r.tN * c = (b * (r.sN / r.sD) + e) * r.tD) :
    GoodFraction (segStage2 a b d r).sN (segStage2 a b d r).sD ∧
    GoodFraction (segStage2 a b d r).tN (segStage2 a b d r).tD ∧
    ((segStage2 a b d r).sD = r.sD ∨ (segStage2 a b d r).sD = a) ∧ (segStage2 a b d r).tD = r.tD ∧
    Kkt a b c d e ((segStage2 a b d r).sN / (segStage2 a b d r).sD) ((segStage2 a b d r).tN / (segStage2 a b d r).tD) := by
  have hsgn1 : r.tN < 0 ↔ b * (r.sN / r.sD) + e < 0 := by
    constructor
    · intro h
      by_contra hh
      nlinarith [mul_nonneg (not_lt.1 hh) htD.le, mul_pos (neg_pos.2 h) hc]
    · intro h
      by_contra hh
      nlinarith [mul_pos (neg_pos.2 h) htD, mul_nonneg (not_lt.1 hh) hc.le]
  have hsgn2 : r.tN > r.tD ↔ c < b * (r.sN / r.sD) + e := by
    constructor
    · intro h
      by_contra hh
      nlinarith [mul_nonneg (sub_nonneg.2 (not_lt.1 hh)) htD.le, mul_pos (sub_pos.2 h) hc]
    · intro h
      by_contra hh
      nlinarith [mul_pos (sub_pos.2 h) htD, mul_nonneg (sub_nonneg.2 (not_lt.1 hh)) hc.le]
  unfold segStage2
  by_cases h1 : r.tN < 0
  · simp only [if_pos h1]
    have hk : ∀ n m : K, SlopeMin a d (n / m) → Kkt a b c d e (n / m) (0 / r.tD) := fun n m h =>
      kkt_of_stages hc hD h0 (Or.inl ⟨hsgn1.1 h1, zero_div _, h⟩)
    obtain ⟨n, m, e1, e2⟩ := slope_pick (p := a) (q := d) hsD.ne' (ha.imp id fun h => ⟨h.1, h.2.2⟩)
    split_ifs at e1 ⊢ with g1 g2
    · obtain ⟨rfl, rfl⟩ := Prod.mk.inj e1
      exact ⟨⟨le_rfl, hsD.le⟩, ⟨le_rfl, htD.le⟩, Or.inl rfl, rfl, hk _ _ e2⟩
    · obtain ⟨rfl, rfl⟩ := Prod.mk.inj e1
      exact ⟨⟨hsD.le, le_rfl⟩, ⟨le_rfl, htD.le⟩, Or.inl rfl, rfl, hk _ _ e2⟩
    · obtain ⟨rfl, rfl⟩ := Prod.mk.inj e1
      exact ⟨⟨not_lt.1 g1, not_lt.1 g2⟩, ⟨le_rfl, htD.le⟩, Or.inr rfl, rfl, hk _ _ e2⟩
  · simp only [if_neg h1]
    by_cases h2 : r.tN > r.tD
    · simp only [if_pos h2]
      have hk : ∀ n m : K, SlopeMin a (d - b) (n / m) → Kkt a b c d e (n / m) (r.tD / r.tD) := fun n m h =>
        kkt_of_stages hc hD h0 (Or.inr (Or.inl ⟨hsgn2.1 h2, div_self htD.ne', h⟩))
      have e0 : -d + b = -(d - b) := by ring
      simp only [e0]
      obtain ⟨n, m, e1, e2⟩ := slope_pick (p := a) (q := d - b) hsD.ne'
        (ha.imp id fun h => ⟨h.1, by rw [h.2.1, h.2.2, sub_zero]⟩)
      split_ifs at e1 ⊢ with g1 g2
      · obtain ⟨rfl, rfl⟩ := Prod.mk.inj e1
        exact ⟨⟨le_rfl, hsD.le⟩, ⟨htD.le, le_rfl⟩, Or.inl rfl, rfl, hk _ _ e2⟩
      · obtain ⟨rfl, rfl⟩ := Prod.mk.inj e1
        exact ⟨⟨hsD.le, le_rfl⟩, ⟨htD.le, le_rfl⟩, Or.inl rfl, rfl, hk _ _ e2⟩
      · obtain ⟨rfl, rfl⟩ := Prod.mk.inj e1
        exact ⟨⟨not_lt.1 g1, not_lt.1 g2⟩, ⟨htD.le, le_rfl⟩, Or.inr rfl, rfl, hk _ _ e2⟩
    · simp only [if_neg h2]
      refine ⟨hs, ⟨not_lt.1 h1, not_lt.1 h2⟩, by simp, by simp, kkt_of_stages hc hD h0 (Or.inr (Or.inr ⟨?_, ?_, rfl, ?_⟩))⟩
      · exact not_lt.1 fun h => h1 (hsgn1.2 h)
      · exact not_lt.1 fun h => h2 (hsgn2.2 h)
      · field_simp at ht ⊢
        linarith

theorem segQuotient_spec {tol n d : K} (h : GoodFraction n d) :
    (0 ≤ segQuotient tol n d ∧ segQuotient tol n d ≤ 1) ∧ (segQuotient tol n d = n / d ∨
      (segQuotient tol n d = 0 ∧ n < tol)) := by
  have hd : 0 ≤ d := h.lo.trans h.hi
  unfold segQuotient
  split_ifs with h1
  · rw [abs_of_nonneg h.lo] at h1
    exact ⟨⟨le_rfl, zero_le_one⟩, Or.inr ⟨rfl, h1⟩⟩
  · exact ⟨⟨div_nonneg h.lo hd, div_le_one_of_le₀ h.hi hd⟩, Or.inl rfl⟩

theorem nearly_of {tol n d κ : K} (h : GoodFraction n d) (hk : κ ≤ d) :
    Nearly tol κ (n / d) (segQuotient tol n d) := by
  rcases (segQuotient_spec (tol := tol) h).2 with h1 | ⟨h1, h2⟩
  · exact Or.inl h1
  · refine Or.inr ⟨h1, lt_of_le_of_lt ?_ h2⟩
    have hd : 0 ≤ d := h.lo.trans h.hi
    rcases lt_or_eq_of_le hd with hd' | hd'
    · calc n / d * κ ≤ n / d * d := mul_le_mul_of_nonneg_left hk (div_nonneg h.lo hd)
        _ = n := div_mul_cancel₀ _ hd'.ne'
    · rw [← hd', div_zero, zero_mul]; exact h.lo

theorem distance_eq (o1 d1 o2 d2 : Vec3 K) (s t : K) :
    (o1 - o2 + s • d1 - t • d2).sqNorm = sqDist (segPoint o1 d1 s) (segPoint o2 d2 t) := by
  simp only [sqDist, segPoint]
  congr 1
  abel

/-- What the second stage needs to know about the first. -/
structure Stage1Good (a b c d e : K) (r : SegState K) : Prop where
  sD : 0 < r.sD
  tD : 0 < r.tD
  s : GoodFraction r.sN r.sD
  slope : SlopeMin (a * c - b * b) (c * d - b * e) (r.sN / r.sD)
  t : r.tN * c = (b * (r.sN / r.sD) + e) * r.tD

theorem stage1_crossing {a b c d e : K} (hc : 0 < c) (hD : 0 < a * c - b * b) :
    ∃ r : SegState K, (if b * e - c * d < 0 then (⟨0, a * c - b * b, e, c⟩ : SegState K)
      else if b * e - c * d > a * c - b * b then ⟨a * c - b * b, a * c - b * b, e + b, c⟩
      else ⟨b * e - c * d, a * c - b * b, a * e - b * d, a * c - b * b⟩) = r ∧ Stage1Good a b c d e r ∧
      r.sD = a * c - b * b ∧ (r.tD = c ∨ r.tD = a * c - b * b) := by
  refine ⟨_, rfl, ?_⟩
  split_ifs with h1 h2
  · refine ⟨⟨hD, hc, ⟨le_rfl, hD.le⟩, ?_, ?_⟩, rfl, Or.inl rfl⟩
    · rw [zero_div]
      exact ⟨le_rfl, zero_le_one, fun h => absurd h (lt_irrefl _), fun _ => by linarith⟩
    · rw [zero_div]; ring
  · refine ⟨⟨hD, hc, ⟨hD.le, le_rfl⟩, ?_, ?_⟩, rfl, Or.inl rfl⟩
    · rw [div_self hD.ne']
      exact ⟨zero_le_one, le_rfl, fun _ => by linarith, fun h => absurd h (lt_irrefl _)⟩
    · rw [div_self hD.ne']; ring
  · refine ⟨⟨hD, hD, ⟨not_lt.1 h1, not_lt.1 h2⟩, ?_, ?_⟩, rfl, Or.inr rfl⟩
    · have e1 : (a * c - b * b) * ((b * e - c * d) / (a * c - b * b)) + (c * d - b * e) = 0 := by
        rw [mul_div_cancel₀ _ hD.ne']; ring
      exact ⟨div_nonneg (not_lt.1 h1) hD.le, (div_le_one hD).2 (not_lt.1 h2), fun _ => e1.le, fun _ => e1.ge⟩
    · have e1 : (b * e - c * d) / (a * c - b * b) * (a * c - b * b) = b * e - c * d := div_mul_cancel₀ _ hD.ne'
      linear_combination (-b) * e1

/-- The distance of the lines. -/
theorem line_distance {o1 d1 o2 d2 : Vec3 K} (hD : 0 < d1.sqNorm * d2.sqNorm - d1.dot d2 * d1.dot d2) (s t : K) :
    (o1 - o2 + ((d1.dot d2 * d2.dot (o1 - o2) - d2.sqNorm * d1.dot (o1 - o2)) /
        (d1.sqNorm * d2.sqNorm - d1.dot d2 * d1.dot d2)) • d1 -
      ((d1.sqNorm * d2.dot (o1 - o2) - d1.dot d2 * d1.dot (o1 - o2)) /
        (d1.sqNorm * d2.sqNorm - d1.dot d2 * d1.dot d2)) • d2).sqNorm ≤
    sqDist (segPoint o1 d1 s) (segPoint o2 d2 t) := by
  generalize hs : (d1.dot d2 * d2.dot (o1 - o2) - d2.sqNorm * d1.dot (o1 - o2)) /
        (d1.sqNorm * d2.sqNorm - d1.dot d2 * d1.dot d2) = x
  generalize ht : (d1.sqNorm * d2.dot (o1 - o2) - d1.dot d2 * d1.dot (o1 - o2)) /
        (d1.sqNorm * d2.sqNorm - d1.dot d2 * d1.dot d2) = y
  rw [div_eq_iff hD.ne'] at hs ht
  have g1 : d1.sqNorm * x + d1.dot (o1 - o2) - d1.dot d2 * y = 0 := by
    have : (d1.sqNorm * d2.sqNorm - d1.dot d2 * d1.dot d2) *
        (d1.sqNorm * x + d1.dot (o1 - o2) - d1.dot d2 * y) = 0 := by
      linear_combination (-d1.sqNorm) * hs + d1.dot d2 * ht
    exact (mul_eq_zero.1 this).resolve_left hD.ne'
  have g2 : d2.sqNorm * y - d2.dot (o1 - o2) - d1.dot d2 * x = 0 := by
    have : (d1.sqNorm * d2.sqNorm - d1.dot d2 * d1.dot d2) *
        (d2.sqNorm * y - d2.dot (o1 - o2) - d1.dot d2 * x) = 0 := by
      linear_combination (-d2.sqNorm) * ht + d1.dot d2 * hs
    exact (mul_eq_zero.1 this).resolve_left hD.ne'
  have hq := vec_sqNorm_nonneg ((s - x) • d1 - (t - y) • d2)
  rw [distance_eq]
  have e : sqDist (segPoint o1 d1 s) (segPoint o2 d2 t) = sqDist (segPoint o1 d1 x) (segPoint o2 d2 y) +
      2 * ((d1.sqNorm * x + d1.dot (o1 - o2) - d1.dot d2 * y) * (s - x)) +
      2 * ((d2.sqNorm * y - d2.dot (o1 - o2) - d1.dot d2 * x) * (t - y)) +
      ((s - x) • d1 - (t - y) • d2).sqNorm := by
    simp only [sqDist, segPoint, Vec3.sqNorm, Vec3.dot, Vec3.sub_x, Vec3.sub_y, Vec3.sub_z, Vec3.add_x, Vec3.add_y,
      Vec3.add_z, Vec3.smul_x, Vec3.smul_y, Vec3.smul_z]
    ring
  rw [e, g1, g2]
  linarith

/-- **C43**, for segments that are not nearly parallel (in the sense of the code: the square of `d1 × d2` is at least the
tolerance).  There is a closest pair of points with parameters `s`, `t`.  The function reports these parameters, where a
parameter whose product with `min |d1 × d2|² |d|²` is below the tolerance may be reported as zero; and it reports failure
exactly when the points at these parameters are farther apart than the bound.

What is missing: nearly parallel segments (`C43_parallel`, and the counterexamples below). -/
theorem C43_closest_partial (tol : K) (htol : 0 < tol) (o1 d1 o2 d2 : Vec3 K) (maxDist : K)
    (hD : tol ≤ (d1.cross d2).sqNorm) :
    ∃ s t s' t', IsClosestPair o1 d1 o2 d2 s t ∧
      Nearly tol (min (d1.cross d2).sqNorm d1.sqNorm) s s' ∧ Nearly tol (min (d1.cross d2).sqNorm d2.sqNorm) t t' ∧
      closestOnSegments tol o1 d1 o2 d2 maxDist =
        if sqDist (segPoint o1 d1 s') (segPoint o2 d2 t') ≤ maxDist ^ 2
        then some (sqDist (segPoint o1 d1 s') (segPoint o2 d2 t'), s', t') else none := by
  rw [lagrange] at hD ⊢
  have hD0 : 0 < d1.sqNorm * d2.sqNorm - d1.dot d2 * d1.dot d2 := lt_of_lt_of_le htol hD
  have ha0 := vec_sqNorm_nonneg d1
  have hc0 := vec_sqNorm_nonneg d2
  have hbb := mul_self_nonneg (d1.dot d2)
  have ha : 0 < d1.sqNorm := by
    rcases lt_or_eq_of_le ha0 with h | h
    · exact h
    · rw [← h] at hD0; linarith
  have hc : 0 < d2.sqNorm := by
    rcases lt_or_eq_of_le hc0 with h | h
    · exact h
    · rw [← h] at hD0; linarith
  obtain ⟨r, er, hr, hsD, htD⟩ := stage1_crossing (d := d1.dot (o1 - o2)) (e := d2.dot (o1 - o2)) hc hD0
  obtain ⟨q1, q2, q3, q4, q5⟩ := segStage2_spec hc hD0.le (Or.inl ha) hr.sD hr.tD hr.s hr.slope hr.t
  have hcp := closest_of_kkt q5
  set q := segStage2 d1.sqNorm (d1.dot d2) (d1.dot (o1 - o2)) r with hq
  have e1 : segStage1 tol (maxDist * maxDist) (o1 - o2) d1 d2 =
      if (o1 - o2 + ((d1.dot d2 * d2.dot (o1 - o2) - d2.sqNorm * d1.dot (o1 - o2)) /
          (d1.sqNorm * d2.sqNorm - d1.dot d2 * d1.dot d2)) • d1 -
        ((d1.sqNorm * d2.dot (o1 - o2) - d1.dot d2 * d1.dot (o1 - o2)) /
          (d1.sqNorm * d2.sqNorm - d1.dot d2 * d1.dot d2)) • d2).sqNorm > maxDist * maxDist then none
      else some r := by
    rw [← er]
    unfold segStage1
    dsimp only
    rw [if_neg (not_lt.2 hD)]
    split_ifs <;> rfl
  by_cases hfar : (o1 - o2 + ((d1.dot d2 * d2.dot (o1 - o2) - d2.sqNorm * d1.dot (o1 - o2)) /
          (d1.sqNorm * d2.sqNorm - d1.dot d2 * d1.dot d2)) • d1 -
        ((d1.sqNorm * d2.dot (o1 - o2) - d1.dot d2 * d1.dot (o1 - o2)) /
          (d1.sqNorm * d2.sqNorm - d1.dot d2 * d1.dot d2)) • d2).sqNorm > maxDist * maxDist
  · refine ⟨_, _, _, _, hcp, Or.inl rfl, Or.inl rfl, ?_⟩
    have := line_distance (o1 := o1) (o2 := o2) hD0 (q.sN / q.sD) (q.tN / q.tD)
    rw [if_neg (by rw [not_le, pow_two]; exact lt_of_lt_of_le hfar this)]
    unfold closestOnSegments
    dsimp only
    rw [e1, if_pos hfar]; rfl
  · refine ⟨_, _, _, _, hcp, nearly_of q1 ?_, nearly_of q2 ?_, ?_⟩
    · rcases q3 with h | h <;> rw [h]
      · rw [hsD]; exact min_le_left _ _
      · exact min_le_right _ _
    · rw [q4]
      rcases htD with h | h <;> rw [h]
      · exact min_le_right _ _
      · exact min_le_left _ _
    · unfold closestOnSegments
      dsimp only
      rw [e1, if_neg hfar]
      dsimp only [Option.bind_eq_bind, Option.bind_some]
      rw [← hq, distance_eq, pow_two]
      by_cases hle : sqDist (segPoint o1 d1 (segQuotient tol q.sN q.sD)) (segPoint o2 d2 (segQuotient tol q.tN q.tD)) ≤
          maxDist * maxDist
      · rw [if_pos hle, if_neg (not_lt.2 hle)]
      · rw [if_neg hle, if_pos (not_le.1 hle)]

/-- **C43**, exactly parallel segments, the second not a point: a reported result is a closest pair, up to the same
rounding to zero. -/
theorem C43_parallel (tol : K) (htol : 0 < tol) (o1 d1 o2 d2 : Vec3 K) (maxDist : K) (hD : d1.cross d2 = 0)
    (h2 : d2 ≠ 0) (x s' t' : K) (h : closestOnSegments tol o1 d1 o2 d2 maxDist = some (x, s', t')) :
    ∃ s t, IsClosestPair o1 d1 o2 d2 s t ∧ Nearly tol (min 1 d1.sqNorm) s s' ∧ Nearly tol d2.sqNorm t t' := by
  have hD' : d1.sqNorm * d2.sqNorm - d1.dot d2 * d1.dot d2 = 0 := by
    rw [← lagrange, hD]; simp [Vec3.sqNorm, Vec3.dot]
  have pos_of : ∀ v : Vec3 K, v ≠ 0 → 0 < v.sqNorm := by
    intro v hv
    rcases lt_or_eq_of_le (vec_sqNorm_nonneg v) with h | h
    · exact h
    · exfalso; apply hv
      simp only [Vec3.sqNorm, Vec3.dot] at h
      have sx := mul_self_nonneg v.x
      have sy := mul_self_nonneg v.y
      have sz := mul_self_nonneg v.z
      ext
      · exact mul_self_eq_zero.mp (by linarith)
      · exact mul_self_eq_zero.mp (by linarith)
      · exact mul_self_eq_zero.mp (by linarith)
  have hc := pos_of d2 h2
  have ha : 0 < d1.sqNorm ∨ d1.sqNorm = 0 ∧ d1.dot d2 = 0 ∧ d1.dot (o1 - o2) = 0 := by
    by_cases h1 : d1 = 0
    · right; subst h1; simp [Vec3.sqNorm, Vec3.dot]
    · exact Or.inl (pos_of d1 h1)
  have hpar : d2.sqNorm * d1.dot (o1 - o2) - d1.dot d2 * d2.dot (o1 - o2) = 0 := by
    have hx := congrArg Vec3.x hD
    have hy := congrArg Vec3.y hD
    have hz := congrArg Vec3.z hD
    simp only [Vec3.cross, Vec3.zero_x, Vec3.zero_y, Vec3.zero_z] at hx hy hz
    simp only [Vec3.sqNorm, Vec3.dot]
    linear_combination (-(o1 - o2).y * d2.z + (o1 - o2).z * d2.y) * hx * (-1) + (-(o1 - o2).z * d2.x + (o1 - o2).x * d2.z) * hy * (-1) +
      (-(o1 - o2).x * d2.y + (o1 - o2).y * d2.x) * hz * (-1)
  have hr : Stage1Good d1.sqNorm (d1.dot d2) d2.sqNorm (d1.dot (o1 - o2)) (d2.dot (o1 - o2))
      ⟨0, 1, d2.dot (o1 - o2), d2.sqNorm⟩ := by
    refine ⟨one_pos, hc, ⟨le_rfl, zero_le_one⟩, ?_, ?_⟩
    · rw [hD', hpar, zero_div]
      exact ⟨le_rfl, zero_le_one, fun h => absurd h (lt_irrefl _), fun _ => by simp⟩
    · simp
  obtain ⟨q1, q2, q3, q4, q5⟩ := segStage2_spec hc hD'.ge ha hr.sD hr.tD hr.s hr.slope hr.t
  have hcp := closest_of_kkt q5
  unfold closestOnSegments segStage1 at h
  dsimp only at h
  rw [if_pos (by rw [hD']; exact htol)] at h
  split_ifs at h with hf
  · simp at h
  · dsimp only [Option.bind_eq_bind, Option.bind_some] at h
    split_ifs at h
    simp only [Option.some.injEq, Prod.mk.injEq] at h
    obtain ⟨-, rfl, rfl⟩ := h
    refine ⟨_, _, hcp, nearly_of q1 ?_, nearly_of q2 q4.ge⟩
    rcases q3 with h3 | h3 <;> rw [h3]
    · exact min_le_left _ _
    · exact min_le_right _ _

theorem stage1_fractions {tol m : K} {w d1 d2 : Vec3 K} {r : SegState K} (htol : 0 < tol)
    (h : segStage1 tol m w d1 d2 = some r) : GoodFraction r.sN r.sD ∧ 0 ≤ r.tD ∧ (r.tD = 0 → r.tN = 0) := by
  have hc := vec_sqNorm_nonneg d2
  have hc0 : d2.sqNorm = 0 → d2.dot w = 0 := by
    intro h
    simp only [Vec3.sqNorm, Vec3.dot] at h
    have sx := mul_self_nonneg d2.x
    have sy := mul_self_nonneg d2.y
    have sz := mul_self_nonneg d2.z
    have hx : d2.x = 0 := mul_self_eq_zero.mp (by linarith)
    have hy : d2.y = 0 := mul_self_eq_zero.mp (by linarith)
    have hz : d2.z = 0 := mul_self_eq_zero.mp (by linarith)
    simp [Vec3.dot, hx, hy, hz]
  unfold segStage1 at h
  dsimp only at h
  split_ifs at h with h1 h2 h3 h4 h5
  · obtain rfl := Option.some.inj h
    exact ⟨⟨le_rfl, zero_le_one⟩, hc, hc0⟩
  all_goals
    have hD : 0 < d1.sqNorm * d2.sqNorm - d1.dot d2 * d1.dot d2 := lt_of_lt_of_le htol (not_lt.1 h1)
    have hne : d2.sqNorm ≠ 0 := by
      intro h0
      rw [h0] at hD
      nlinarith [mul_self_nonneg (d1.dot d2)]
    obtain rfl := Option.some.inj h
  · exact ⟨⟨le_rfl, hD.le⟩, hc, fun h => absurd h hne⟩
  · exact ⟨⟨hD.le, le_rfl⟩, hc, fun h => absurd h hne⟩
  · exact ⟨⟨not_lt.1 h4, not_lt.1 h5⟩, hD.le, fun h => absurd h hD.ne'⟩

theorem stage2_fractions {a b d : K} {r : SegState K} (hs : GoodFraction r.sN r.sD) (ht : 0 ≤ r.tD) :
    GoodFraction (segStage2 a b d r).sN (segStage2 a b d r).sD ∧
    GoodFraction (segStage2 a b d r).tN (segStage2 a b d r).tD := by
  have hsD := hs.lo.trans hs.hi
  unfold segStage2
  split_ifs with h1 h2 h3 h4 h5 h6
  · exact ⟨⟨le_rfl, hsD⟩, ⟨le_rfl, ht⟩⟩
  · exact ⟨⟨hsD, le_rfl⟩, ⟨le_rfl, ht⟩⟩
  · exact ⟨⟨not_lt.1 h2, not_lt.1 h3⟩, ⟨le_rfl, ht⟩⟩
  · exact ⟨⟨le_rfl, hsD⟩, ⟨ht, le_rfl⟩⟩
  · exact ⟨⟨hsD, le_rfl⟩, ⟨ht, le_rfl⟩⟩
  · exact ⟨⟨not_lt.1 h5, not_lt.1 h6⟩, ⟨ht, le_rfl⟩⟩
  · exact ⟨hs, ⟨not_lt.1 h1, not_lt.1 h4⟩⟩

/-- **C43**, for all segments: a result consists of parameters between zero and one and of the square of the distance of
the points there, which is within the bound. -/
theorem C43_sound (tol : K) (htol : 0 < tol) (o1 d1 o2 d2 : Vec3 K) (maxDist x s t : K)
    (h : closestOnSegments tol o1 d1 o2 d2 maxDist = some (x, s, t)) :
    (0 ≤ s ∧ s ≤ 1) ∧ (0 ≤ t ∧ t ≤ 1) ∧ x = sqDist (segPoint o1 d1 s) (segPoint o2 d2 t) ∧ x ≤ maxDist ^ 2 := by
  unfold closestOnSegments at h
  dsimp only at h
  rw [Option.bind_eq_bind, Option.bind_eq_some_iff] at h
  obtain ⟨r, hr, h⟩ := h
  obtain ⟨f1, f2, -⟩ := stage1_fractions htol hr
  obtain ⟨g1, g2⟩ := stage2_fractions (a := d1.sqNorm) (b := d1.dot d2) (d := d1.dot (o1 - o2)) f1 f2
  split_ifs at h with hle
  simp only [Option.some.injEq, Prod.mk.injEq] at h
  obtain ⟨rfl, rfl, rfl⟩ := h
  refine ⟨(segQuotient_spec g1).1, (segQuotient_spec g2).1, distance_eq _ _ _ _ _ _, ?_⟩
  rw [pow_two]; exact not_lt.1 hle

/-- **C43**: neither of the two final divisions is by zero. -/
theorem C43_no_zero_division (tol : K) (htol : 0 < tol) (m : K) (w d1 d2 : Vec3 K) (a b d : K) (r : SegState K)
    (hr : segStage1 tol m w d1 d2 = some r) :
    (¬ |(segStage2 a b d r).sN| < tol → (segStage2 a b d r).sD ≠ 0) ∧
    (¬ |(segStage2 a b d r).tN| < tol → (segStage2 a b d r).tD ≠ 0) := by
  obtain ⟨f1, f2, -⟩ := stage1_fractions htol hr
  obtain ⟨g1, g2⟩ := stage2_fractions (a := a) (b := b) (d := d) f1 f2
  have key : ∀ n m : K, GoodFraction n m → ¬ |n| < tol → m ≠ 0 := by
    intro n m g h h0
    apply h
    have : n = 0 := le_antisymm (h0 ▸ g.hi) g.lo
    rw [this, abs_zero]; exact htol
  exact ⟨key _ _ g1, key _ _ g2⟩

/-- **C43**, the distance with its root. -/
theorem C43_distance (tol : ℝ) (htol : 0 < tol) (o1 d1 o2 d2 : Vec3 ℝ) (maxDist x s t : ℝ) (hm : 0 ≤ maxDist)
    (h : closestPointsOnSegments tol o1 d1 o2 d2 maxDist = some (x, s, t)) :
    0 ≤ x ∧ x ^ 2 = sqDist (segPoint o1 d1 s) (segPoint o2 d2 t) ∧ x ≤ maxDist := by
  unfold closestPointsOnSegments at h
  rw [Option.map_eq_some_iff] at h
  obtain ⟨⟨y, s', t'⟩, h1, h2⟩ := h
  simp only [Prod.mk.injEq] at h2
  obtain ⟨rfl, rfl, rfl⟩ := h2
  obtain ⟨-, -, rfl, hle⟩ := C43_sound tol htol o1 d1 o2 d2 maxDist _ _ _ h1
  refine ⟨Real.sqrt_nonneg _, Real.sq_sqrt (vec_sqNorm_nonneg _), ?_⟩
  rw [Real.sqrt_le_left hm]; exact hle

/-! The hypotheses hold of crossing segments (closest inside both, and at an end), and of parallel ones. -/

example : (1 / 10000000 : ℚ) ≤ (Vec3.cross (⟨2, 0, 0⟩ : Vec3 ℚ) ⟨0, 3, 0⟩).sqNorm ∧
    closestOnSegments (1 / 10000000 : ℚ) ⟨0, 0, 0⟩ ⟨2, 0, 0⟩ ⟨1, -1, 1⟩ ⟨0, 3, 0⟩ 2 = some (1, 1 / 2, 1 / 3) ∧
    closestOnSegments (1 / 10000000 : ℚ) ⟨0, 0, 0⟩ ⟨2, 0, 0⟩ ⟨3, 1, 1⟩ ⟨0, 3, 0⟩ 2 = some (3, 1, 0) ∧
    closestOnSegments (1 / 10000000 : ℚ) ⟨0, 0, 0⟩ ⟨2, 0, 0⟩ ⟨3, 1, 1⟩ ⟨0, 3, 0⟩ 1 = none := by
  decide +kernel

example : Vec3.cross (⟨2, 0, 0⟩ : Vec3 ℚ) ⟨4, 0, 0⟩ = 0 ∧ (⟨4, 0, 0⟩ : Vec3 ℚ) ≠ 0 ∧
    closestOnSegments (1 / 10000000 : ℚ) ⟨0, 0, 0⟩ ⟨2, 0, 0⟩ ⟨1, 1, 0⟩ ⟨4, 0, 0⟩ 2 = some (1, 1 / 2, 0) := by
  decide +kernel

/-! ### Where C43 fails -/

theorem isClosestPair_lt {o1 d1 o2 d2 : Vec3 K} {s t s' t' : K} (h : IsClosestPair o1 d1 o2 d2 s t)
    (h1 : 0 ≤ s' ∧ s' ≤ 1) (h2 : 0 ≤ t' ∧ t' ≤ 1) :
    ¬ sqDist (segPoint o1 d1 s') (segPoint o2 d2 t') < sqDist (segPoint o1 d1 s) (segPoint o2 d2 t) :=
  not_lt.2 (h.2.2 _ _ h1.1 h1.2 h2.1 h2.2)

/-- **C43 fails**: for parallel segments the early exit compares the origins, so segments at distance one are reported to
be farther apart than two. -/
theorem C43_parallel_reject_counterexample :
    ∃ o1 d1 o2 d2 : Vec3 ℚ, closestOnSegments (1 / 10000000 : ℚ) o1 d1 o2 d2 2 = none ∧
      ∃ s t, 0 ≤ s ∧ s ≤ 1 ∧ 0 ≤ t ∧ t ≤ 1 ∧ sqDist (segPoint o1 d1 s) (segPoint o2 d2 t) = 1 :=
  ⟨⟨0, 0, 0⟩, ⟨10, 0, 0⟩, ⟨9, 1, 0⟩, ⟨10, 0, 0⟩, by decide +kernel, 9 / 10, 0, by decide +kernel⟩

/-- **C43 fails**: when the second segment is a point, the origin of the first is reported in place of its closest
point. -/
theorem C43_point_counterexample :
    ∃ o1 d1 o2 : Vec3 ℚ, closestOnSegments (1 / 10000000 : ℚ) o1 d1 o2 0 100 = some (26, 0, 0) ∧
      ¬ IsClosestPair o1 d1 o2 0 0 0 :=
  ⟨⟨0, 0, 0⟩, ⟨10, 0, 0⟩, ⟨5, 1, 0⟩, by decide +kernel, fun h =>
    isClosestPair_lt h (s' := 1 / 2) (t' := 0) (by decide +kernel) (by decide +kernel) (by decide +kernel)⟩

/-- **C43 fails**: short segments at a right angle are taken to be parallel, and segments that cross are reported to be
apart. -/
theorem C43_short_counterexample :
    ∃ o1 d1 o2 d2 : Vec3 ℚ, d1.dot d2 = 0 ∧
      closestOnSegments (1 / 10000000 : ℚ) o1 d1 o2 d2 100 = some (1 / 40000, 0, 1 / 2) ∧
      sqDist (segPoint o1 d1 (1 / 2)) (segPoint o2 d2 (1 / 2)) = 0 :=
  ⟨⟨0, 0, 0⟩, ⟨1 / 100, 0, 0⟩, ⟨1 / 200, -1 / 200, 0⟩, ⟨0, 1 / 100, 0⟩, by decide +kernel⟩

/-! ### The distance of two edges -/

theorem clamp01_range (x : K) : 0 ≤ clamp01 x ∧ clamp01 x ≤ 1 := by
  unfold clamp01
  split_ifs with h1 h2
  · exact ⟨le_rfl, zero_le_one⟩
  · exact ⟨zero_le_one, le_rfl⟩
  · exact ⟨not_lt.1 h1, not_lt.1 h2⟩

/-- **C43**, the distance of two edges: the parameters are between zero and one, for all edges. -/
theorem C43_edge_range (eps : K) (p1 q1 p2 q2 : Vec3 K) :
    (0 ≤ (edgeEdgeParams eps p1 q1 p2 q2).1 ∧ (edgeEdgeParams eps p1 q1 p2 q2).1 ≤ 1) ∧
    (0 ≤ (edgeEdgeParams eps p1 q1 p2 q2).2 ∧ (edgeEdgeParams eps p1 q1 p2 q2).2 ≤ 1) := by
  unfold edgeEdgeParams
  dsimp only
  have h0 : (0 : K) ≤ 0 ∧ (0 : K) ≤ 1 := ⟨le_rfl, zero_le_one⟩
  split_ifs with h1 h2 h3 h4 h5 h6 h7 h8 <;> dsimp only
  · exact ⟨h0, h0⟩
  · exact ⟨h0, clamp01_range _⟩
  · exact ⟨clamp01_range _, h0⟩
  all_goals first
    | exact ⟨clamp01_range _, h0⟩
    | exact ⟨clamp01_range _, zero_le_one, le_rfl⟩
    | exact ⟨clamp01_range _, not_lt.1 ‹_›, not_lt.1 ‹_›⟩
    | exact ⟨h0, not_lt.1 ‹_›, not_lt.1 ‹_›⟩

theorem slope_zero : SlopeMin (0 : K) 0 0 :=
  ⟨le_rfl, zero_le_one, fun h => absurd h (lt_irrefl _), fun _ => by simp⟩

theorem edge_kkt {eps a b c d e : K} (heps : 0 < eps) (ha : eps < a) (hc : eps < c)
    (hD : a * c - b * b = 0 ∧ c * d - b * e = 0 ∨ eps < a * c - b * b) {s t : K}
    (h : (if (b * (if |a * c - b * b| > eps then clamp01 ((b * e - d * c) / (a * c - b * b)) else 0) + e) / c < 0
          then (clamp01 (-d / a), 0)
        else if (b * (if |a * c - b * b| > eps then clamp01 ((b * e - d * c) / (a * c - b * b)) else 0) + e) / c > 1
          then (clamp01 ((b - d) / a), 1)
        else ((if |a * c - b * b| > eps then clamp01 ((b * e - d * c) / (a * c - b * b)) else 0),
          (b * (if |a * c - b * b| > eps then clamp01 ((b * e - d * c) / (a * c - b * b)) else 0) + e) / c)) = (s, t)) :
    Kkt a b c d e s t := by
  have hc0 : 0 < c := heps.trans hc
  have ha0 : 0 < a := heps.trans ha
  have hs0 : ∃ s0, (if |a * c - b * b| > eps then clamp01 ((b * e - d * c) / (a * c - b * b)) else 0) = s0 ∧
      SlopeMin (a * c - b * b) (c * d - b * e) s0 := by
    refine ⟨_, rfl, ?_⟩
    rcases hD with ⟨h1, h2⟩ | h1
    · rw [h1, h2, if_neg (by rw [abs_zero]; exact not_lt.2 heps.le)]
      exact slope_zero
    · have hp := heps.trans h1
      rw [if_pos (by rw [abs_of_pos hp]; exact h1)]
      have e0 : b * e - d * c = -(c * d - b * e) := by ring
      rw [e0]
      exact clamp01_slope hp
  obtain ⟨s0, e0, h0⟩ := hs0
  rw [e0] at h
  have hD0 : 0 ≤ a * c - b * b := by
    rcases hD with ⟨h1, -⟩ | h1
    · exact h1.ge
    · exact (heps.trans h1).le
  split_ifs at h with h1 h2
  · obtain ⟨rfl, rfl⟩ := Prod.mk.inj h
    refine kkt_of_stages hc0 hD0 h0 (Or.inl ⟨?_, rfl, clamp01_slope ha0⟩)
    rwa [div_lt_iff₀ hc0, zero_mul] at h1
  · obtain ⟨rfl, rfl⟩ := Prod.mk.inj h
    refine kkt_of_stages hc0 hD0 h0 (Or.inr (Or.inl ⟨?_, rfl, ?_⟩))
    · rwa [gt_iff_lt, lt_div_iff₀ hc0, one_mul] at h2
    · rw [show b - d = -(d - b) by ring]; exact clamp01_slope ha0
  · obtain ⟨rfl, rfl⟩ := Prod.mk.inj h
    refine kkt_of_stages hc0 hD0 h0 (Or.inr (Or.inr ⟨?_, ?_, rfl, mul_div_cancel₀ _ hc0.ne'⟩))
    · rwa [not_lt, le_div_iff₀ hc0, zero_mul] at h1
    · rwa [gt_iff_lt, not_lt, div_le_iff₀ hc0, one_mul] at h2

theorem parallel_slope {d1 d2 : Vec3 K} (hD : d1.cross d2 = 0) (w : Vec3 K) :
    d2.sqNorm * d1.dot w - d1.dot d2 * d2.dot w = 0 := by
  have hx := congrArg Vec3.x hD
  have hy := congrArg Vec3.y hD
  have hz := congrArg Vec3.z hD
  simp only [Vec3.cross, Vec3.zero_x, Vec3.zero_y, Vec3.zero_z] at hx hy hz
  simp only [Vec3.sqNorm, Vec3.dot]
  linear_combination (w.y * d2.z - w.z * d2.y) * hx + (w.z * d2.x - w.x * d2.z) * hy + (w.x * d2.y - w.y * d2.x) * hz

/-- **C43**, the distance of two edges: the parameters are those of a closest pair, for edges whose lengths, and whose
cross product, are either zero or above the tolerance. -/
theorem C43_edge_edge (eps : K) (heps : 0 < eps) (p1 q1 p2 q2 : Vec3 K)
    (h1 : q1 = p1 ∨ eps < (q1 - p1).sqNorm) (h2 : q2 = p2 ∨ eps < (q2 - p2).sqNorm)
    (h12 : (q1 - p1).cross (q2 - p2) = 0 ∨ eps < ((q1 - p1).cross (q2 - p2)).sqNorm) :
    IsClosestPair p1 (q1 - p1) p2 (q2 - p2) (edgeEdgeParams eps p1 q1 p2 q2).1 (edgeEdgeParams eps p1 q1 p2 q2).2 := by
  apply closest_of_kkt
  have dd : ∀ v : Vec3 K, v.dot v = v.sqNorm := fun _ => rfl
  have z1 : ∀ v : Vec3 K, (0 : Vec3 K).dot v = 0 := fun v => by simp [Vec3.dot]
  have z2 : ∀ v : Vec3 K, v.dot (0 : Vec3 K) = 0 := fun v => by simp [Vec3.dot]
  have z3 : (0 : Vec3 K).sqNorm = 0 := z1 0
  unfold edgeEdgeParams
  dsimp only
  rcases h1 with rfl | h1 <;> rcases h2 with rfl | h2
  · simp only [sub_self, dd, z1, z3]
    rw [if_pos ⟨heps.le, heps.le⟩]
    refine ⟨?_, ?_⟩ <;> simpa using slope_zero
  · simp only [sub_self, dd, z1, z3]
    rw [if_neg (fun h => not_le.2 h2 h.2), if_pos heps.le]
    refine ⟨by simpa using slope_zero, ?_⟩
    have := clamp01_slope (p := (q2 - p2).sqNorm) (q := -(q2 - p2).dot (q1 - p2)) (heps.trans h2)
    simpa using this
  · simp only [sub_self, dd, z1, z2, z3]
    rw [if_neg (fun h => not_le.2 h1 h.1), if_neg (not_le.2 h1), if_pos heps.le]
    refine ⟨?_, by simpa using slope_zero⟩
    have := clamp01_slope (p := (q1 - p1).sqNorm) (q := (q1 - p1).dot (p1 - q2)) (heps.trans h1)
    simpa using this
  · simp only [dd]
    rw [if_neg (fun h => not_le.2 h1 h.1), if_neg (not_le.2 h1), if_neg (not_le.2 h2)]
    refine edge_kkt heps h1 h2 ?_ rfl
    rw [← lagrange]
    rcases h12 with h | h
    · exact Or.inl ⟨by rw [h, z3], parallel_slope h _⟩
    · exact Or.inr h

/-- **C43**, the distance of two edges: the reported distance is that of the points at the reported parameters, and the
flag says whether one of the edges is longer than the tolerance. -/
theorem C43_edge_distance (eps : ℝ) (heps : 0 < eps) (p1 q1 p2 q2 : Vec3 ℝ) :
    let r := distanceEdgeEdge eps p1 q1 p2 q2
    0 ≤ r.2.2.1 ∧ r.2.2.1 ^ 2 = sqDist (segPoint p1 (q1 - p1) r.1) (segPoint p2 (q2 - p2) r.2.1) ∧
      (r.2.2.2 = true ↔ eps < (q1 - p1).sqNorm ∨ eps < (q2 - p2).sqNorm) := by
  intro r
  have dd : ∀ v : Vec3 ℝ, v.dot v = v.sqNorm := fun _ => rfl
  simp only [r, distanceEdgeEdge]
  split_ifs with h
  · refine ⟨Real.sqrt_nonneg _, ?_, ?_⟩
    · rw [Real.sq_sqrt (vec_sqNorm_nonneg _)]
      simp only [edgeEdgeParams, if_pos h, sqDist, segPoint, zero_smul, add_zero]
    · simp only [dd] at h
      simp [h.1, h.2]
  · refine ⟨Real.sqrt_nonneg _, ?_, ?_⟩
    · exact Real.sq_sqrt (vec_sqNorm_nonneg _)
    · simp only [dd] at h
      simp only [true_iff]
      by_contra hh
      rw [not_or, not_lt, not_lt] at hh
      exact h hh

/-! Both edges long and crossing; parallel; and one of them a point. -/

example : edgeEdgeParams (1 / 10000 : ℚ) ⟨0, 0, 0⟩ ⟨2, 0, 0⟩ ⟨1, -1, 1⟩ ⟨1, 2, 1⟩ = (1 / 2, 1 / 3) ∧
    edgeEdgeParams (1 / 10000 : ℚ) ⟨0, 0, 0⟩ ⟨2, 0, 0⟩ ⟨1, 1, 0⟩ ⟨5, 1, 0⟩ = (1 / 2, 0) ∧
    edgeEdgeParams (1 / 10000 : ℚ) ⟨0, 0, 0⟩ ⟨10, 0, 0⟩ ⟨5, 1, 0⟩ ⟨5, 1, 0⟩ = (1 / 2, 0) ∧
    (1 / 10000 : ℚ) < (Vec3.cross (⟨2, 0, 0⟩ : Vec3 ℚ) ⟨0, 3, 0⟩).sqNorm := by
  decide +kernel

/-- **C43 fails**: edges of length a tenth that cross at a right angle are taken to be parallel. -/
theorem C43_edge_short_counterexample :
    ∃ p1 q1 p2 q2 : Vec3 ℚ, (q1 - p1).dot (q2 - p2) = 0 ∧
      edgeEdgeParams (1 / 10000 : ℚ) p1 q1 p2 q2 = (0, 1 / 2) ∧
      sqDist (segPoint p1 (q1 - p1) (1 / 2)) (segPoint p2 (q2 - p2) (1 / 2)) = 0 ∧
      sqDist (segPoint p1 (q1 - p1) 0) (segPoint p2 (q2 - p2) (1 / 2)) = 1 / 400 :=
  ⟨⟨0, 0, 0⟩, ⟨1 / 10, 0, 0⟩, ⟨1 / 20, -1 / 20, 0⟩, ⟨1 / 20, 1 / 20, 0⟩, by decide +kernel⟩

end Momentum
