import Verif.Model.Capsule
import Verif.Spec.Capsule
import Verif.Spec.Rotation
import Verif.Props.Segments
import Verif.Props.Mesh

/-!
# C44: capsules
-/

namespace Momentum

section
variable {K : Type} [Field K] [LinearOrder K] [IsStrictOrderedRing K]

theorem coord_le {p q : Vec3 K} {r : K} (hr : 0 ≤ r) (h : sqDist p q ≤ r ^ 2) :
    (q.x - r ≤ p.x ∧ q.y - r ≤ p.y ∧ q.z - r ≤ p.z) ∧ p.x ≤ q.x + r ∧ p.y ≤ q.y + r ∧ p.z ≤ q.z + r := by
  simp only [sqDist, Vec3.sqNorm, Vec3.dot, Vec3.sub_x, Vec3.sub_y, Vec3.sub_z] at h
  have sx := mul_self_nonneg (p.x - q.x)
  have sy := mul_self_nonneg (p.y - q.y)
  have sz := mul_self_nonneg (p.z - q.z)
  have hx := abs_le.1 (abs_le_of_sq_le_sq (a := p.x - q.x) (b := r) (by nlinarith) hr)
  have hy := abs_le.1 (abs_le_of_sq_le_sq (a := p.y - q.y) (b := r) (by nlinarith) hr)
  have hz := abs_le.1 (abs_le_of_sq_le_sq (a := p.z - q.z) (b := r) (by nlinarith) hr)
  refine ⟨⟨?_, ?_, ?_⟩, ?_, ?_, ?_⟩ <;> linarith

theorem mix_le {x y m s : K} (h0 : 0 ≤ s) (h1 : s ≤ 1) (hx : x ≤ m) (hy : y ≤ m) : (1 - s) * x + s * y ≤ m := by
  nlinarith [mul_nonneg h0 (sub_nonneg.2 hy), mul_nonneg (sub_nonneg.2 h1) (sub_nonneg.2 hx)]

theorem le_mix {x y m s : K} (h0 : 0 ≤ s) (h1 : s ≤ 1) (hx : m ≤ x) (hy : m ≤ y) : m ≤ (1 - s) * x + s * y := by
  nlinarith [mul_nonneg h0 (sub_nonneg.2 hy), mul_nonneg (sub_nonneg.2 h1) (sub_nonneg.2 hx)]

/-- **C44**: the box contains the capsule. -/
theorem C44_box (box : Box K) (o d : Vec3 K) (r0 r1 : K) (p : Vec3 K) (h : InCapsule o d r0 r1 p) :
    (updateAabb box o d r0 r1).containsPoint p = true := by
  obtain ⟨s, h0, h1, hr, hp⟩ := h
  obtain ⟨⟨a1, a2, a3⟩, b1, b2, b3⟩ := coord_le hr hp
  simp only [segPoint, Vec3.add_x, Vec3.add_y, Vec3.add_z, Vec3.smul_x, Vec3.smul_y, Vec3.smul_z] at a1 a2 a3 b1 b2 b3
  rw [Box.containsPoint, decide_eq_true_iff]
  simp only [updateAabb, Vec3.add_x, Vec3.add_y, Vec3.add_z, Vec3.sub_x, Vec3.sub_y,
    Vec3.sub_z]
  have lo : ∀ o d x : K, o + s * d - ((1 - s) * r0 + s * r1) ≤ x → (o - r0) ⊓ (o + d - r1) ≤ x := by
    intro o d x h
    have := le_mix h0 h1 (inf_le_left (a := o - r0) (b := o + d - r1)) inf_le_right
    linarith
  have hi : ∀ o d x : K, x ≤ o + s * d + ((1 - s) * r0 + s * r1) → x ≤ (o + r0) ⊔ (o + d + r1) := by
    intro o d x h
    have := mix_le h0 h1 (le_sup_left (a := o + r0) (b := o + d + r1)) le_sup_right
    linarith
  exact ⟨⟨lo _ _ _ a1, lo _ _ _ a2, lo _ _ _ a3⟩, hi _ _ _ b1, hi _ _ _ b2, hi _ _ _ b3⟩

theorem end_ball {o d : Vec3 K} {r0 r1 : K} (h0 : 0 ≤ r0) (h1 : 0 ≤ r1) (v : Vec3 K) (hv : v.sqNorm = 1) :
    InCapsule o d r0 r1 (o + r0 • v) ∧ InCapsule o d r0 r1 (o + d + r1 • v) := by
  constructor
  · refine ⟨0, le_rfl, zero_le_one, by simpa using h0, ?_⟩
    have e : sqDist (o + r0 • v) (segPoint o d 0) = r0 ^ 2 * v.sqNorm := by
      simp only [sqDist, segPoint, Vec3.sqNorm, Vec3.dot, Vec3.sub_x, Vec3.sub_y, Vec3.sub_z, Vec3.add_x, Vec3.add_y,
        Vec3.add_z, Vec3.smul_x, Vec3.smul_y, Vec3.smul_z]
      ring
    rw [e, hv]; simp
  · refine ⟨1, zero_le_one, le_rfl, by simpa using h1, ?_⟩
    have e : sqDist (o + d + r1 • v) (segPoint o d 1) = r1 ^ 2 * v.sqNorm := by
      simp only [sqDist, segPoint, Vec3.sqNorm, Vec3.dot, Vec3.sub_x, Vec3.sub_y, Vec3.sub_z, Vec3.add_x, Vec3.add_y,
        Vec3.add_z, Vec3.smul_x, Vec3.smul_y, Vec3.smul_z]
      ring
    rw [e, hv]; simp

/-- **C44**: no smaller box does, when the radii are not negative: every side of the box touches the capsule. -/
theorem C44_box_tight (box : Box K) (o d : Vec3 K) (r0 r1 : K) (h0 : 0 ≤ r0) (h1 : 0 ≤ r1) :
    let b := updateAabb box o d r0 r1
    (∃ p, InCapsule o d r0 r1 p ∧ p.x = b.min.x) ∧ (∃ p, InCapsule o d r0 r1 p ∧ p.x = b.max.x) ∧
    (∃ p, InCapsule o d r0 r1 p ∧ p.y = b.min.y) ∧ (∃ p, InCapsule o d r0 r1 p ∧ p.y = b.max.y) ∧
    (∃ p, InCapsule o d r0 r1 p ∧ p.z = b.min.z) ∧ (∃ p, InCapsule o d r0 r1 p ∧ p.z = b.max.z) := by
  have key : ∀ (f : Vec3 K → K) (v : Vec3 K) (m : K), v.sqNorm = 1 → (f (o + r0 • v) = m ∨ f (o + d + r1 • v) = m) →
      ∃ p, InCapsule o d r0 r1 p ∧ f p = m := by
    intro f v m hv h
    obtain ⟨e1, e2⟩ := end_ball (o := o) (d := d) h0 h1 v hv
    exact h.elim (fun h => ⟨_, e1, h⟩) (fun h => ⟨_, e2, h⟩)
  intro b
  have lo : ∀ x y : K, x = x ⊓ y ∨ y = x ⊓ y := fun x y => (le_total x y).imp (fun h => (inf_eq_left.2 h).symm) fun h => (inf_eq_right.2 h).symm
  have hi : ∀ x y : K, x = x ⊔ y ∨ y = x ⊔ y := fun x y => (le_total y x).imp (fun h => (sup_eq_left.2 h).symm) fun h => (sup_eq_right.2 h).symm
  refine ⟨key Vec3.x ⟨-1, 0, 0⟩ _ ?_ ?_, key Vec3.x ⟨1, 0, 0⟩ _ ?_ ?_, key Vec3.y ⟨0, -1, 0⟩ _ ?_ ?_,
    key Vec3.y ⟨0, 1, 0⟩ _ ?_ ?_, key Vec3.z ⟨0, 0, -1⟩ _ ?_ ?_, key Vec3.z ⟨0, 0, 1⟩ _ ?_ ?_⟩
  all_goals first
    | (simp [Vec3.sqNorm, Vec3.dot]; done)
    | (simp only [b, updateAabb, Vec3.add_x, Vec3.add_y, Vec3.add_z, Vec3.smul_x, Vec3.smul_y, Vec3.smul_z, Vec3.sub_x,
        Vec3.sub_y, Vec3.sub_z, mul_neg, mul_one, ← sub_eq_add_neg]
       first | exact lo _ _ | exact hi _ _)

/-- Two balls whose centres are no farther apart than the sum of the radii have a common point. -/
theorem balls_meet {p q : Vec3 K} {r s : K} (hr : 0 ≤ r) (hs : 0 ≤ s) (h : sqDist p q ≤ (r + s) ^ 2) :
    ∃ x, sqDist x p ≤ r ^ 2 ∧ sqDist x q ≤ s ^ 2 := by
  rcases lt_or_eq_of_le (add_nonneg hr hs) with h0 | h0
  · refine ⟨p + (r / (r + s)) • (q - p), ?_, ?_⟩
    · have e : sqDist (p + (r / (r + s)) • (q - p)) p = (r / (r + s)) ^ 2 * sqDist p q := by
        simp only [sqDist, Vec3.sqNorm, Vec3.dot, Vec3.sub_x, Vec3.sub_y, Vec3.sub_z, Vec3.add_x, Vec3.add_y,
          Vec3.add_z, Vec3.smul_x, Vec3.smul_y, Vec3.smul_z]
        ring
      rw [e]
      calc (r / (r + s)) ^ 2 * sqDist p q ≤ (r / (r + s)) ^ 2 * (r + s) ^ 2 := mul_le_mul_of_nonneg_left h (sq_nonneg _)
        _ = r ^ 2 := by rw [← mul_pow, div_mul_cancel₀ _ h0.ne']
    · have e0 : 1 - r / (r + s) = s / (r + s) := by rw [eq_div_iff h0.ne', sub_mul, div_mul_cancel₀ _ h0.ne']; ring
      have e : sqDist (p + (r / (r + s)) • (q - p)) q = (1 - r / (r + s)) ^ 2 * sqDist p q := by
        simp only [sqDist, Vec3.sqNorm, Vec3.dot, Vec3.sub_x, Vec3.sub_y, Vec3.sub_z, Vec3.add_x, Vec3.add_y,
          Vec3.add_z, Vec3.smul_x, Vec3.smul_y, Vec3.smul_z]
        ring
      rw [e, e0]
      calc (s / (r + s)) ^ 2 * sqDist p q ≤ (s / (r + s)) ^ 2 * (r + s) ^ 2 := mul_le_mul_of_nonneg_left h (sq_nonneg _)
        _ = s ^ 2 := by rw [← mul_pow, div_mul_cancel₀ _ h0.ne']
  · have hr0 : r = 0 := by linarith
    have hs0 : s = 0 := by linarith
    subst hr0; subst hs0
    refine ⟨p, by simp [sqDist, Vec3.sqNorm, Vec3.dot], ?_⟩
    simpa using h

/-- Two closest pairs are equal when the segments are not parallel. -/
theorem closest_pair_unique {o1 d1 o2 d2 : Vec3 K} (hD : 0 < (d1.cross d2).sqNorm) {s t s' t' : K}
    (h : IsClosestPair o1 d1 o2 d2 s t) (h' : IsClosestPair o1 d1 o2 d2 s' t') : s = s' ∧ t = t' := by
  have e1 := h.2.2 s' t' h'.1.1 h'.1.2 h'.2.1.1 h'.2.1.2
  have e2 := h'.2.2 s t h.1.1 h.1.2 h.2.1.1 h.2.1.2
  have e3 := h.2.2 ((s + s') / 2) ((t + t') / 2) (by linarith [h.1.1, h'.1.1]) (by linarith [h.1.2, h'.1.2])
    (by linarith [h.2.1.1, h'.2.1.1]) (by linarith [h.2.1.2, h'.2.1.2])
  have e : sqDist (segPoint o1 d1 ((s + s') / 2)) (segPoint o2 d2 ((t + t') / 2)) =
      (sqDist (segPoint o1 d1 s) (segPoint o2 d2 t) + sqDist (segPoint o1 d1 s') (segPoint o2 d2 t')) / 2 -
      ((s - s') • d1 - (t - t') • d2).sqNorm / 4 := by
    simp only [sqDist, segPoint, Vec3.sqNorm, Vec3.dot, Vec3.sub_x, Vec3.sub_y, Vec3.sub_z, Vec3.add_x, Vec3.add_y,
      Vec3.add_z, Vec3.smul_x, Vec3.smul_y, Vec3.smul_z]
    ring
  have hz : ((s - s') • d1 - (t - t') • d2).sqNorm = 0 :=
    le_antisymm (by linarith) (vec_sqNorm_nonneg _)
  have hv := vec_eq_zero_of_sqNorm hz
  have hx := congrArg Vec3.x hv
  have hy := congrArg Vec3.y hv
  have hzz := congrArg Vec3.z hv
  simp only [Vec3.sub_x, Vec3.sub_y, Vec3.sub_z, Vec3.smul_x, Vec3.smul_y, Vec3.smul_z, Vec3.zero_x, Vec3.zero_y,
    Vec3.zero_z] at hx hy hzz
  have k1 : (s - s') ^ 2 * (d1.cross d2).sqNorm = 0 := by
    simp only [Vec3.cross, Vec3.sqNorm, Vec3.dot]
    have a1 : (s - s') * (d1.y * d2.z - d1.z * d2.y) = 0 := by linear_combination d2.z * hy - d2.y * hzz
    have a2 : (s - s') * (d1.z * d2.x - d1.x * d2.z) = 0 := by linear_combination d2.x * hzz - d2.z * hx
    have a3 : (s - s') * (d1.x * d2.y - d1.y * d2.x) = 0 := by linear_combination d2.y * hx - d2.x * hy
    linear_combination (s - s') * (d1.y * d2.z - d1.z * d2.y) * a1 + (s - s') * (d1.z * d2.x - d1.x * d2.z) * a2 +
      (s - s') * (d1.x * d2.y - d1.y * d2.x) * a3
  have k2 : (t - t') ^ 2 * (d1.cross d2).sqNorm = 0 := by
    simp only [Vec3.cross, Vec3.sqNorm, Vec3.dot]
    have a1 : (t - t') * (d1.y * d2.z - d1.z * d2.y) = 0 := by linear_combination d1.z * hy - d1.y * hzz
    have a2 : (t - t') * (d1.z * d2.x - d1.x * d2.z) = 0 := by linear_combination d1.x * hzz - d1.z * hx
    have a3 : (t - t') * (d1.x * d2.y - d1.y * d2.x) = 0 := by linear_combination d1.y * hx - d1.x * hy
    linear_combination (t - t') * (d1.y * d2.z - d1.z * d2.y) * a1 + (t - t') * (d1.z * d2.x - d1.x * d2.z) * a2 +
      (t - t') * (d1.x * d2.y - d1.y * d2.x) * a3
  constructor
  · have := (mul_eq_zero.1 k1).resolve_right hD.ne'
    exact sub_eq_zero.1 (pow_eq_zero_iff (two_ne_zero)|>.1 this)
  · have := (mul_eq_zero.1 k2).resolve_right hD.ne'
    exact sub_eq_zero.1 (pow_eq_zero_iff (two_ne_zero)|>.1 this)

end

/-- A state of the collision geometry: radii not negative, and `delta` their difference. -/
def CapsuleState.Valid (a : CapsuleState ℝ) : Prop := 0 ≤ a.radius0 ∧ 0 ≤ a.radius1 ∧ a.delta = a.radius1 - a.radius0

/-- The points of a capsule of the collision geometry. -/
def CapsuleState.Has (a : CapsuleState ℝ) (p : Vec3 ℝ) : Prop := InCapsule a.origin a.direction a.radius0 a.radius1 p

/-- **C44**: capsules that are reported to overlap have a common point. -/
theorem C44_overlap (tol eps : ℝ) (htol : 0 < tol) (a b : CapsuleState ℝ) (ha : a.Valid) (hb : b.Valid)
    (h : overlaps tol eps a b = true) : ∃ p, a.Has p ∧ b.Has p := by
  obtain ⟨ha0, ha1, had⟩ := ha
  obtain ⟨hb0, hb1, hbd⟩ := hb
  unfold overlaps overlapInfo at h
  cases hc : closestPointsOnSegments tol a.origin a.direction b.origin b.direction
      (max a.radius0 a.radius1 + max b.radius0 b.radius1) with
  | none => simp [hc] at h
  | some r =>
    obtain ⟨x, s, t⟩ := r
    simp only [hc, Option.bind_eq_bind, Option.bind_some, decide_eq_true_eq] at h
    have hm : 0 ≤ max a.radius0 a.radius1 + max b.radius0 b.radius1 :=
      add_nonneg (ha0.trans (le_max_left _ _)) (hb0.trans (le_max_left _ _))
    obtain ⟨hx0, hx, -⟩ := C43_distance tol htol _ _ _ _ _ x s t hm hc
    have hst : (0 ≤ s ∧ s ≤ 1) ∧ (0 ≤ t ∧ t ≤ 1) := by
      unfold closestPointsOnSegments at hc
      rw [Option.map_eq_some_iff] at hc
      obtain ⟨⟨y, s', t'⟩, h1, h2⟩ := hc
      simp only [Prod.mk.injEq] at h2
      obtain ⟨-, rfl, rfl⟩ := h2
      obtain ⟨q1, q2, -⟩ := C43_sound tol htol _ _ _ _ _ _ _ _ h1
      exact ⟨q1, q2⟩
    obtain ⟨⟨s0, s1⟩, t0, t1⟩ := hst
    have ra : 0 ≤ (1 - s) * a.radius0 + s * a.radius1 := le_mix s0 s1 ha0 ha1
    have rb : 0 ≤ (1 - t) * b.radius0 + t * b.radius1 := le_mix t0 t1 hb0 hb1
    have hd : x ≤ (1 - s) * a.radius0 + s * a.radius1 + ((1 - t) * b.radius0 + t * b.radius1) := by
      have := h.1
      rw [had, hbd] at this
      linarith
    obtain ⟨p, p1, p2⟩ := balls_meet ra rb (by rw [← hx]; exact pow_le_pow_left₀ hx0 hd 2)
    exact ⟨p, ⟨s, s0, s1, ra, p1⟩, ⟨t, t0, t1, rb, p2⟩⟩

/-- **C44**: so the broad phase does not lose a reported overlap: the boxes of the two capsules intersect. -/
theorem C44_broad_phase (tol eps : ℝ) (htol : 0 < tol) (a b : CapsuleState ℝ) (ha : a.Valid) (hb : b.Valid)
    (h : overlaps tol eps a b = true) (box box' : Box ℝ) :
    (updateAabb box a.origin a.direction a.radius0 a.radius1).intersects
      (updateAabb box' b.origin b.direction b.radius0 b.radius1) = true := by
  obtain ⟨p, h1, h2⟩ := C44_overlap tol eps htol a b ha hb h
  have e1 := C44_box box _ _ _ _ p h1
  have e2 := C44_box box' _ _ _ _ p h2
  simp only [Box.containsPoint, Box.intersects, decide_eq_true_eq] at e1 e2 ⊢
  exact ⟨⟨e1.1.1.trans e2.2.1, e1.1.2.1.trans e2.2.2.1, e1.1.2.2.trans e2.2.2.2⟩,
    e2.1.1.trans e1.2.1, e2.1.2.1.trans e1.2.2.1, e2.1.2.2.trans e1.2.2.2⟩

/-- **C44**, the other direction for capsules with a constant radius whose axes are not nearly parallel and not closer
than `eps`: if the axes are closer than the sum of the radii, the overlap is reported, with the distance of the axes.  The
closest parameters must be zero or large enough not to be rounded to zero. -/
theorem C44_complete_partial (tol eps : ℝ) (htol : 0 < tol) (a b : CapsuleState ℝ) (ha : a.Valid) (hb : b.Valid)
    (ha' : a.radius1 = a.radius0) (hb' : b.radius1 = b.radius0) (hD : tol ≤ (a.direction.cross b.direction).sqNorm)
    (s t : ℝ) (hst : IsClosestPair a.origin a.direction b.origin b.direction s t)
    (hs : s = 0 ∨ tol ≤ s * min (a.direction.cross b.direction).sqNorm a.direction.sqNorm)
    (ht : t = 0 ∨ tol ≤ t * min (a.direction.cross b.direction).sqNorm b.direction.sqNorm)
    (heps : eps ≤ Real.sqrt (sqDist (segPoint a.origin a.direction s) (segPoint b.origin b.direction t)))
    (h : Real.sqrt (sqDist (segPoint a.origin a.direction s) (segPoint b.origin b.direction t)) <
      a.radius0 + b.radius0) : overlaps tol eps a b = true := by
  obtain ⟨ha0, ha1, had⟩ := ha
  obtain ⟨hb0, hb1, hbd⟩ := hb
  obtain ⟨s1, t1, s', t', k1, k2, k3, k4⟩ := C43_closest_partial tol htol a.origin a.direction b.origin b.direction
    (max a.radius0 a.radius1 + max b.radius0 b.radius1) hD
  obtain ⟨rfl, rfl⟩ := closest_pair_unique (lt_of_lt_of_le htol hD) hst k1
  have es : s' = s := by
    rcases k2 with k2 | ⟨k2, k2'⟩
    · exact k2
    · rcases hs with hs | hs
      · rw [k2, hs]
      · exact absurd k2' (not_lt.2 hs)
  have et : t' = t := by
    rcases k3 with k2 | ⟨k2, k2'⟩
    · exact k2
    · rcases ht with hs | hs
      · rw [k2, hs]
      · exact absurd k2' (not_lt.2 hs)
  subst es; subst et
  rw [ha', hb', max_self, max_self] at k4
  have hle : sqDist (segPoint a.origin a.direction s') (segPoint b.origin b.direction t') ≤
      (a.radius0 + b.radius0) ^ 2 := by
    have := (Real.sqrt_lt' (lt_of_le_of_lt (Real.sqrt_nonneg _) h)).1 h
    exact this.le
  rw [if_pos hle] at k4
  unfold overlaps overlapInfo closestPointsOnSegments
  rw [ha', hb', max_self, max_self]
  dsimp only
  rw [k4]
  simp only [Option.map_some, Option.bind_eq_bind, Option.bind_some, had, hbd, ha', hb', sub_self, mul_zero, add_zero,
    decide_eq_true_eq]
  exact ⟨by linarith, heps⟩

/-- **C44**: a capsule moves with its joint: a point belongs to the capsule attached to the joint exactly when its image
under the joint's world transformation belongs to the capsule in the collision state. -/
theorem C44_update {R : Mat3 ℝ} (hR : IsRotation R) (c : ℝ) (hc : 0 < c) (v : Vec3 ℝ) (tc : TaperedCapsule ℝ)
    (p : Vec3 ℝ) :
    (capsuleState ⟨R.smul c, v⟩ c tc).Has (Affine.apply ⟨R.smul c, v⟩ p) ↔
      InCapsule tc.transformation.translation (tc.length • tc.transformation.linear.col 0) tc.radius0 tc.radius1 p := by
  have ha : ∀ s : ℝ, Affine.apply ⟨R.smul c, v⟩ p - segPoint (capsuleState ⟨R.smul c, v⟩ c tc).origin
      (capsuleState ⟨R.smul c, v⟩ c tc).direction s =
      c • R.mulVec (p - segPoint tc.transformation.translation (tc.length • tc.transformation.linear.col 0) s) := by
    intro s
    have e : (⟨R.smul c, v⟩ : Affine ℝ) * tc.transformation =
      ⟨(R.smul c).mul tc.transformation.linear, Affine.apply ⟨R.smul c, v⟩ tc.transformation.translation⟩ := rfl
    simp only [capsuleState, e]
    ext <;>
    simp only [Affine.apply, segPoint, Mat3.mulVec, Mat3.smul, Mat3.mul, Mat3.col, Vec3.sub_x, Vec3.sub_y, Vec3.sub_z,
      Vec3.add_x, Vec3.add_y, Vec3.add_z, Vec3.smul_x, Vec3.smul_y, Vec3.smul_z] <;> ring
  have hs : ∀ w : Vec3 ℝ, (c • w).sqNorm = c ^ 2 * w.sqNorm := by
    intro w; simp only [Vec3.sqNorm, Vec3.dot, Vec3.smul_x, Vec3.smul_y, Vec3.smul_z]; ring
  unfold CapsuleState.Has InCapsule
  refine exists_congr fun s => ?_
  simp only [sqDist, ha s, hs, mulVec_sqNorm hR]
  have e0 : (1 - s) * (capsuleState ⟨R.smul c, v⟩ c tc).radius0 + s * (capsuleState ⟨R.smul c, v⟩ c tc).radius1 =
      c * ((1 - s) * tc.radius0 + s * tc.radius1) := by
    simp only [capsuleState]; ring
  rw [e0, mul_pow, mul_nonneg_iff_of_pos_left hc, mul_le_mul_iff_right₀ (pow_pos hc 2)]

/-- **C44**: the collision state is valid when the radii and the scale are not negative. -/
theorem C44_update_valid (w : Affine ℝ) (c : ℝ) (hc : 0 ≤ c) (tc : TaperedCapsule ℝ) (h0 : 0 ≤ tc.radius0)
    (h1 : 0 ≤ tc.radius1) : (capsuleState w c tc).Valid :=
  ⟨mul_nonneg h0 hc, mul_nonneg h1 hc, rfl⟩

/-! ### Examples -/

theorem real_segments {o1 d1 o2 d2 : Vec3 ℝ} {tol m x s t : ℝ}
    (h : closestOnSegments tol o1 d1 o2 d2 m = some (x, s, t)) :
    closestPointsOnSegments tol o1 d1 o2 d2 m = some (Real.sqrt x, s, t) := by
  unfold closestPointsOnSegments; rw [h]; rfl

/-- Two capsules that overlap: axes at a right angle, at distance one, with radii two to one and one. -/
example : overlaps (1 / 10000000) (1 / 100000000) ⟨⟨0, 0, 0⟩, ⟨2, 0, 0⟩, 2, 1, -1⟩ ⟨⟨1, -1, 1⟩, ⟨0, 3, 0⟩, 1, 1, 0⟩ = true ∧
    (⟨⟨0, 0, 0⟩, ⟨2, 0, 0⟩, 2, 1, -1⟩ : CapsuleState ℝ).Valid := by
  constructor
  · have h : closestOnSegments (1 / 10000000 : ℝ) ⟨0, 0, 0⟩ ⟨2, 0, 0⟩ ⟨1, -1, 1⟩ ⟨0, 3, 0⟩ 3 = some (1, 1 / 2, 1 / 3) := by
      unfold closestOnSegments segStage1 segStage2 segQuotient
      norm_num [Vec3.sqNorm, Vec3.dot]
    unfold overlaps overlapInfo
    dsimp only
    rw [max_eq_left (by norm_num), max_self, show (2 : ℝ) + 1 = 3 by norm_num, real_segments h]
    norm_num
  · refine ⟨?_, ?_, ?_⟩ <;> norm_num

/-- The hypotheses of `C44_complete_partial`, for the same axes and radius one. -/
example : overlaps (1 / 10000000) (1 / 100000000) ⟨⟨0, 0, 0⟩, ⟨2, 0, 0⟩, 1, 1, 0⟩ ⟨⟨1, -1, 1⟩, ⟨0, 3, 0⟩, 1, 1, 0⟩ = true := by
  refine C44_complete_partial _ _ (by norm_num) _ _ ⟨?_, ?_, ?_⟩ ⟨?_, ?_, ?_⟩ rfl rfl ?_ (1 / 2) (1 / 3)
    ⟨?_, ?_, fun s' t' _ _ _ _ => ?_⟩ ?_ ?_ ?_ ?_
  all_goals norm_num [Vec3.cross, sqDist, segPoint, Vec3.sqNorm, Vec3.dot]
  nlinarith [sq_nonneg (s' * 2 - 1), sq_nonneg (1 - t' * 3)]

/-- **C44**, the converse fails: when the axes cross, the overlap is not reported. -/
theorem C44_crossing_axes_counterexample :
    ∃ a b : CapsuleState ℝ, a.Valid ∧ b.Valid ∧ (∃ p, a.Has p ∧ b.Has p) ∧
      overlaps (1 / 10000000) (1 / 100000000) a b = false := by
  refine ⟨⟨⟨-1, 0, 0⟩, ⟨2, 0, 0⟩, 1, 1, 0⟩, ⟨⟨0, -1, 0⟩, ⟨0, 2, 0⟩, 1, 1, 0⟩, ?_, ?_, ⟨⟨0, 0, 0⟩, ?_, ?_⟩, ?_⟩
  · refine ⟨?_, ?_, ?_⟩ <;> norm_num
  · refine ⟨?_, ?_, ?_⟩ <;> norm_num
  · refine ⟨1 / 2, ?_⟩
    norm_num [sqDist, segPoint, Vec3.sqNorm, Vec3.dot]
  · refine ⟨1 / 2, ?_⟩
    norm_num [sqDist, segPoint, Vec3.sqNorm, Vec3.dot]
  · have h : closestOnSegments (1 / 10000000 : ℝ) ⟨-1, 0, 0⟩ ⟨2, 0, 0⟩ ⟨0, -1, 0⟩ ⟨0, 2, 0⟩ 2 = some (0, 1 / 2, 1 / 2) := by
      unfold closestOnSegments segStage1 segStage2 segQuotient
      norm_num [Vec3.sqNorm, Vec3.dot]
    unfold overlaps overlapInfo
    dsimp only
    rw [max_self, show (1 : ℝ) + 1 = 2 by norm_num, real_segments h]
    norm_num

/-- **C44**, the converse fails: for tapered capsules the closest points of the axes need not be where the capsules
meet. -/
theorem C44_tapered_counterexample :
    ∃ a b : CapsuleState ℝ, a.Valid ∧ b.Valid ∧ (∃ p, a.Has p ∧ b.Has p) ∧
      overlaps (1 / 10000000) (1 / 100000000) a b = false := by
  refine ⟨⟨⟨0, 0, 0⟩, ⟨10, 0, 0⟩, 0, 20, 20⟩, ⟨⟨1, 3, 0⟩, ⟨0, 0, 1⟩, 0, 0, 0⟩, ?_, ?_, ⟨⟨1, 3, 0⟩, ?_, ?_⟩, ?_⟩
  · refine ⟨?_, ?_, ?_⟩ <;> norm_num
  · refine ⟨?_, ?_, ?_⟩ <;> norm_num
  · refine ⟨1 / 2, ?_⟩
    norm_num [sqDist, segPoint, Vec3.sqNorm, Vec3.dot]
  · refine ⟨0, ?_⟩
    norm_num [sqDist, segPoint, Vec3.sqNorm, Vec3.dot]
  · have h : closestOnSegments (1 / 10000000 : ℝ) ⟨0, 0, 0⟩ ⟨10, 0, 0⟩ ⟨1, 3, 0⟩ ⟨0, 0, 1⟩ 20 = some (9, 1 / 10, 0) := by
      unfold closestOnSegments segStage1 segStage2 segQuotient
      norm_num [Vec3.sqNorm, Vec3.dot]
    unfold overlaps overlapInfo
    dsimp only
    rw [max_eq_right (by norm_num), max_self, add_zero, real_segments h]
    have : Real.sqrt 9 = 3 := by
      rw [show (9 : ℝ) = 3 ^ 2 by norm_num]; exact Real.sqrt_sq (by norm_num)
    rw [this]
    norm_num

end Momentum
