import Verif.Lemmas.CollisionError2
import Verif.Lemmas.SegmentDistance

/-!
# Exact overlaps, and how they change with the pose
-/

namespace Momentum
open Skeleton

theorem sqNorm_cross_comm (a b : Vec3 ℝ) : (a.cross b).sqNorm = (b.cross a).sqNorm := by
  simp only [Vec3.cross, Vec3.sqNorm, Vec3.dot]; ring

theorem closestPair_swap {o1 d1 o2 d2 : Vec3 ℝ} {s t : ℝ} (h : IsClosestPair o1 d1 o2 d2 s t) :
    IsClosestPair o2 d2 o1 d1 t s :=
  ⟨h.2.1, h.1, fun t' s' a b c d => by
    rw [sqDist_comm' (segPoint o2 d2 t), sqDist_comm' (segPoint o2 d2 t')]; exact h.2.2 s' t' c d a b⟩

theorem ClearPair.symm {tol eps : ℝ} {a b : CapsuleState ℝ} (h : ClearPair tol eps a b) : ClearPair tol eps b a where
  constA := h.constB
  constB := h.constA
  near := by
    rw [segmentDistance_comm, add_comm]
    intro hlt
    obtain ⟨h1, h2, s, t, h3, h4, h5⟩ := h.near hlt
    rw [sqNorm_cross_comm b.direction]
    exact ⟨h1, h2, t, s, closestPair_swap h3, h5, h4⟩

theorem capsuleDepth_comm (a b : CapsuleState ℝ) : capsuleDepth a b = capsuleDepth b a := by
  unfold capsuleDepth
  rw [segmentDistance_comm, add_comm a.radius0]

/-- What is reported for such a pair. -/
theorem clear_info {tol eps : ℝ} (htol : 0 < tol) {a b : CapsuleState ℝ} (ha : a.Valid) (hb : b.Valid)
    (h : ClearPair tol eps a b) :
    (overlaps tol eps a b = true ↔ segmentDistance a.origin a.direction b.origin b.direction < a.radius0 + b.radius0) ∧
    ∀ r, overlaps tol eps a b = true → overlapInfo tol a b = some r →
      IsClosestPair a.origin a.direction b.origin b.direction r.s r.t ∧
      r.distance = segmentDistance a.origin a.direction b.origin b.direction ∧ r.overlap = capsuleDepth a b ∧
      eps ≤ r.distance ∧ tol ≤ (a.direction.cross b.direction).sqNorm := by
  have hm : 0 ≤ max a.radius0 a.radius1 + max b.radius0 b.radius1 :=
    add_nonneg (ha.1.trans (le_max_left _ _)) (hb.1.trans (le_max_left _ _))
  have had : a.delta = 0 := by rw [ha.2.2, h.constA, sub_self]
  have hbd : b.delta = 0 := by rw [hb.2.2, h.constB, sub_self]
  -- whatever is reported is at least the distance of the axes
  have hrep : ∀ r, overlapInfo tol a b = some r →
      segmentDistance a.origin a.direction b.origin b.direction ≤ r.distance ∧ r.overlap = a.radius0 + b.radius0 - r.distance ∧
      closestPointsOnSegments tol a.origin a.direction b.origin b.direction
        (max a.radius0 a.radius1 + max b.radius0 b.radius1) = some (r.distance, r.s, r.t) := by
    intro r hr
    unfold overlapInfo at hr
    simp only [Option.bind_eq_bind, Option.bind_eq_some_iff, Option.some.injEq] at hr
    obtain ⟨⟨x, s, t⟩, hc, rfl⟩ := hr
    simp only
    refine ⟨?_, by rw [had, hbd]; ring, hc⟩
    obtain ⟨hx0, hx, -⟩ := C43_distance tol htol _ _ _ _ _ x s t hm hc
    have hst : (0 ≤ s ∧ s ≤ 1) ∧ (0 ≤ t ∧ t ≤ 1) := by
      unfold closestPointsOnSegments at hc
      rw [Option.map_eq_some_iff] at hc
      obtain ⟨⟨y, s', t'⟩, h1, h2⟩ := hc
      simp only [Prod.mk.injEq] at h2
      obtain ⟨-, rfl, rfl⟩ := h2
      obtain ⟨q1, q2, -⟩ := C43_sound tol htol _ _ _ _ _ _ _ _ h1
      exact ⟨q1, q2⟩
    have := segmentDistance_le (o1 := a.origin) (d1 := a.direction) (o2 := b.origin) (d2 := b.direction) hst.1 hst.2
    rwa [← hx, Real.sqrt_sq hx0] at this
  have hback : overlaps tol eps a b = true →
      segmentDistance a.origin a.direction b.origin b.direction < a.radius0 + b.radius0 := by
    intro ho
    unfold overlaps at ho
    cases hi : overlapInfo tol a b with
    | none => rw [hi] at ho; cases ho
    | some r =>
      rw [hi] at ho
      obtain ⟨r1, r2, _⟩ := hrep r hi
      simp only [decide_eq_true_eq] at ho
      linarith [ho.1]
  refine ⟨⟨hback, fun hlt => ?_⟩, fun r ho hr => ?_⟩
  · obtain ⟨h1, h2, s, t, h3, h4, h5⟩ := h.near hlt
    rw [segmentDistance_eq h3] at h2 hlt
    exact C44_complete_partial tol eps htol a b ha hb h.constA h.constB h1 s t h3 h4 h5 h2 hlt
  · obtain ⟨h1, h2, s, t, h3, h4, h5⟩ := h.near (hback ho)
    obtain ⟨r1, r2, hc⟩ := hrep r hr
    obtain ⟨s1, t1, s', t', k1, k2, k3, k4⟩ := C43_closest_partial tol htol a.origin a.direction b.origin b.direction
      (max a.radius0 a.radius1 + max b.radius0 b.radius1) h1
    obtain ⟨rfl, rfl⟩ := closest_pair_unique (lt_of_lt_of_le htol h1) h3 k1
    have es : s' = s := by
      rcases k2 with k2 | ⟨k2, k2'⟩
      · exact k2
      · rcases h4 with hs | hs
        · rw [k2, hs]
        · exact absurd k2' (not_lt.2 hs)
    have et : t' = t := by
      rcases k3 with k2 | ⟨k2, k2'⟩
      · exact k2
      · rcases h5 with hs | hs
        · rw [k2, hs]
        · exact absurd k2' (not_lt.2 hs)
    subst es; subst et
    unfold closestPointsOnSegments at hc
    rw [k4] at hc
    split at hc
    · simp only [Option.map_some, Option.some.injEq, Prod.mk.injEq] at hc
      obtain ⟨e1, e2, e3⟩ := hc
      have hd : r.distance = segmentDistance a.origin a.direction b.origin b.direction := by
        rw [segmentDistance_eq h3, ← e1]
      refine ⟨by rw [← e2, ← e3]; exact h3, hd, ?_, by rw [hd]; exact h2, h1⟩
      rw [r2, hd, capsuleDepth, max_eq_right]
      linarith [hback ho]
    · cases hc

/-! ## Along a motion -/

theorem hasDerivAt_sq_max {R d : ℝ → ℝ} {R' t : ℝ} (hR : HasDerivAt R R' t) (hd0 : ∀ u, 0 ≤ d u)
    (hlip : ∃ C, ∀ᶠ u in nhds t, |d u ^ 2 - d t ^ 2| ≤ C * |u - t|) (hle : R t ≤ d t) :
    HasDerivAt (fun u => max 0 (R u - d u) ^ 2) 0 t := by
  have hb : ∃ K, 0 ≤ K ∧ ∀ᶠ u in nhds t, max 0 (R u - d u) ≤ K * |u - t| := by
    obtain ⟨C, hC⟩ := hlip
    obtain ⟨c, hc⟩ := hR.isBigO_sub.bound
    rcases lt_or_eq_of_le (hd0 t) with hp | hz
    · refine ⟨|c| + |C| / d t, by positivity, ?_⟩
      filter_upwards [hC, hc] with u h1 h2
      simp only [Real.norm_eq_abs] at h2
      have h3 : d t - d u ≤ |C| / d t * |u - t| := by
        rw [div_mul_eq_mul_div, le_div_iff₀ hp]
        by_cases hdu : d t ≤ d u
        · have : (d t - d u) * d t ≤ 0 := mul_nonpos_of_nonpos_of_nonneg (by linarith) hp.le
          exact this.trans (by positivity)
        · have h4 : d t ^ 2 - d u ^ 2 ≤ C * |u - t| := by
            have := neg_abs_le (d u ^ 2 - d t ^ 2); linarith
          have h5 : C * |u - t| ≤ |C| * |u - t| := mul_le_mul_of_nonneg_right (le_abs_self _) (abs_nonneg _)
          have := hd0 u
          nlinarith
      have h4 : R u - R t ≤ |c| * |u - t| :=
        (le_abs_self _).trans (h2.trans (mul_le_mul_of_nonneg_right (le_abs_self _) (abs_nonneg _)))
      rw [max_le_iff]
      refine ⟨by positivity, ?_⟩
      rw [add_mul]; linarith
    · refine ⟨|c|, abs_nonneg _, ?_⟩
      filter_upwards [hc] with u h2
      simp only [Real.norm_eq_abs] at h2
      have h4 : R u - R t ≤ |c| * |u - t| :=
        (le_abs_self _).trans (h2.trans (mul_le_mul_of_nonneg_right (le_abs_self _) (abs_nonneg _)))
      have := hd0 u
      rw [max_le_iff]
      exact ⟨by positivity, by linarith⟩
  obtain ⟨K, hK, hb⟩ := hb
  rw [hasDerivAt_iff_isLittleO, Asymptotics.isLittleO_iff]
  intro c hc
  have hsmall : ∀ᶠ u in nhds t, |u - t| < c / (K ^ 2 + 1) := by
    have : Filter.Tendsto (fun u => |u - t|) (nhds t) (nhds 0) := by
      have hc : Continuous fun u : ℝ => |u - t| := by fun_prop
      have := hc.tendsto t
      simpa using this
    exact this.eventually (gt_mem_nhds (by positivity))
  filter_upwards [hb, hsmall] with u h1 h2
  have h0 : max 0 (R t - d t) = 0 := max_eq_left (by linarith)
  rw [h0]
  simp only [ne_eq, OfNat.ofNat_ne_zero, not_false_eq_true, zero_pow, sub_zero, smul_zero, Real.norm_eq_abs, abs_pow]
  rw [abs_of_nonneg (le_max_left _ _)]
  have h3 : max 0 (R u - d u) ^ 2 ≤ (K * |u - t|) ^ 2 := pow_le_pow_left₀ (le_max_left _ _) h1 2
  have h4 : K ^ 2 * |u - t| ≤ c := by
    rw [lt_div_iff₀ (by positivity)] at h2
    nlinarith [abs_nonneg (u - t)]
  calc _ ≤ (K * |u - t|) ^ 2 := h3
    _ = K ^ 2 * |u - t| * |u - t| := by ring
    _ ≤ c * |u - t| := mul_le_mul_of_nonneg_right h4 (abs_nonneg _)

section
variable {s : Skeleton ℝ} (hv : s.Valid) (hpre : ∀ jt ∈ s.joints, jt.preRotation.normSq = 1) {θ : ℝ → List ℝ}
  {S : ℝ → List JointState} (hG : ∀ u, FKGood s (θ u) true (S u)) (hlen : ∀ u, (S u).length = s.joints.length) {t : ℝ}
  {θ' : Nat → ℝ} (hθ : ∀ i, HasDerivAt (fun u => (θ u).getD i 0) (θ' i) t)

include hv hG hlen hθ in
/-- The scale of a joint does not change to first order if no scale on its chain does. -/
theorem scale_deriv {o : Option Nat} {l : List Nat} (hc : Chain s o l) (h6 : ∀ a ∈ l, θ' (7 * a + 6) = 0) :
    HasDerivAt (fun u => (worldOf (S u) o).scale) 0 t := by
  induction hc with
  | nil => exact hasDerivAt_const _ _
  | @cons j jt l hj _ ih =>
    have ih := ih fun a ha => h6 a (by simp [ha])
    have e : (fun u => (worldOf (S u) (some j)).scale) = fun u => (worldOf (S u) jt.parent).scale *
        (2 : ℝ) ^ ((θ u).getD (7 * j + 6) 0) := by
      funext u
      obtain ⟨e1, e2, e3⟩ := world_eq hv hG hlen hj u
      rw [e1]
      show _ * (stateAt (S u) j).localTransform.scale = _
      rw [e3]
      rfl
    rw [e]
    have h2 := (hθ (7 * j + 6)).const_rpow (a := 2) (by norm_num)
    rw [h6 j (by simp)] at h2
    refine (ih.mul h2).congr_deriv ?_
    ring

theorem scale_nonneg_of_good {s : Skeleton ℝ} (hv : s.Valid) {θ : List ℝ} {st : List JointState} {cd : Bool}
    (hG : FKGood s θ cd st) (hlen : st.length = s.joints.length) : ∀ js ∈ st, 0 ≤ js.transform.scale := by
  have key : ∀ j, ∀ h : j < st.length, 0 ≤ st[j].transform.scale := by
    intro j
    induction j using Nat.strong_induction_on with
    | _ j ih =>
      intro h
      have hj : s.joints[j]? = some (s.joints[j]'(by omega)) := List.getElem?_eq_getElem _
      have hloc := (JointState.set_local_scale_pos (s.joints[j]'(by omega)) (jointSlice θ j)
        ((s.joints[j]'(by omega)).parent.bind (st[·]?)) cd).le
      rw [← hG.eq j _ _ hj (List.getElem?_eq_getElem h)] at hloc
      rw [hG.world hj (List.getElem?_eq_getElem h)]
      refine mul_nonneg ?_ hloc
      cases hp : (s.joints[j]'(by omega)).parent with
      | none => exact zero_le_one
      | some q =>
        have hq : q < j := hv _ _ _ hj hp
        simp only [Option.bind_some]
        rw [List.getElem?_eq_getElem (by omega : q < st.length)]
        exact ih q hq (by omega)
  intro js hjs
  obtain ⟨j, h, rfl⟩ := List.mem_iff_getElem.1 hjs
  exact key j h

/-- The capsule `tc` in the state `st`. -/
noncomputable def capsuleIn (st : List JointState) (tc : TaperedCapsule ℝ) : CapsuleState ℝ :=
  capsuleState (stateAt st tc.parent).transform.toAffine3 (stateAt st tc.parent).transform.scale tc

theorem capsule_point (T : Transform ℝ) (c : ℝ) (tc : TaperedCapsule ℝ) (x : ℝ) :
    segPoint (capsuleState T.toAffine3 c tc).origin (capsuleState T.toAffine3 c tc).direction x =
      T.transformPoint (tc.transformation.translation + x • (tc.length • tc.transformation.linear.col 0)) := by
  have h1 : (capsuleState T.toAffine3 c tc).origin = T.toLinear.mulVec tc.transformation.translation + T.translation := rfl
  have h2 : (capsuleState T.toAffine3 c tc).direction = tc.length • T.toLinear.mulVec (tc.transformation.linear.col 0) := rfl
  rw [h1, h2]
  unfold Transform.transformPoint
  rw [← Transform.toLinear_mulVec]
  ext <;> simp [segPoint, Mat3.mulVec] <;> ring

/-- The velocity of a point of the axis of a capsule. -/
noncomputable def axisVel (st : List JointState) (l : List Nat) (w : Nat → ℝ) (tc : TaperedCapsule ℝ) (x : ℝ) : Vec3 ℝ :=
  posVel st l w (segPoint (capsuleIn st tc).origin (capsuleIn st tc).direction x)

include hv hpre hG hlen hθ in
theorem axis_deriv {tc : TaperedCapsule ℝ} {l : List Nat} (hc : Chain s (some tc.parent) l) (x : ℝ) :
    HasVecDerivAt (fun u => segPoint (capsuleIn (S u) tc).origin (capsuleIn (S u) tc).direction x)
      (axisVel (S t) l θ' tc x) t := by
  have hj : tc.parent < s.joints.length := by cases hc with | cons h _ => exact getElem?_lt h
  have h := chain_vel hv hpre hG hlen hθ hc
    (tc.transformation.translation + x • (tc.length • tc.transformation.linear.col 0))
  have hw : ∀ u, (worldOf (S u) (some tc.parent)) = (stateAt (S u) tc.parent).transform := fun u =>
    (worldOf_stateAt (by rw [hlen]; exact hj)).symm
  have hp : ∀ u, (worldOf (S u) (some tc.parent)).transformPoint
      (tc.transformation.translation + x • (tc.length • tc.transformation.linear.col 0)) =
      segPoint (capsuleIn (S u) tc).origin (capsuleIn (S u) tc).direction x := fun u => by
    rw [hw]; exact (capsule_point _ _ tc x).symm
  simp only [hp] at h
  exact h

include hv hpre hG hlen hθ in
theorem axis_deriv' {tc : TaperedCapsule ℝ} {l : List Nat} (hc : Chain s (some tc.parent) l) :
    HasVecDerivAt (fun u => (capsuleIn (S u) tc).origin) (axisVel (S t) l θ' tc 0) t ∧
    HasVecDerivAt (fun u => (capsuleIn (S u) tc).direction) (axisVel (S t) l θ' tc 1 - axisVel (S t) l θ' tc 0) t ∧
    ∀ x, segPoint (axisVel (S t) l θ' tc 0) (axisVel (S t) l θ' tc 1 - axisVel (S t) l θ' tc 0) x =
      axisVel (S t) l θ' tc x := by
  have h0 := axis_deriv hv hpre hG hlen hθ hc 0
  have h1 := axis_deriv hv hpre hG hlen hθ hc 1
  have e0 : (fun u => segPoint (capsuleIn (S u) tc).origin (capsuleIn (S u) tc).direction 0) =
      fun u => (capsuleIn (S u) tc).origin := by funext u; ext <;> simp [segPoint]
  have e1 : (fun u => segPoint (capsuleIn (S u) tc).origin (capsuleIn (S u) tc).direction 1 -
      segPoint (capsuleIn (S u) tc).origin (capsuleIn (S u) tc).direction 0) =
      fun u => (capsuleIn (S u) tc).direction := by funext u; ext <;> simp [segPoint]
  have k1 := h1.sub h0
  rw [e1] at k1
  rw [e0] at h0
  refine ⟨h0, k1, fun x => ?_⟩
  exact (h0.add (k1.const_smul x)).unique (axis_deriv hv hpre hG hlen hθ hc x)

include hv hG hlen hθ in
theorem radius_deriv {tc : TaperedCapsule ℝ} {l : List Nat} (hc : Chain s (some tc.parent) l)
    (h6 : ∀ a ∈ l, θ' (7 * a + 6) = 0) : HasDerivAt (fun u => (capsuleIn (S u) tc).radius0) 0 t := by
  have hj : tc.parent < s.joints.length := by cases hc with | cons h _ => exact getElem?_lt h
  have h := scale_deriv hv hG hlen hθ hc h6
  have e : (fun u => (capsuleIn (S u) tc).radius0) = fun u => tc.radius0 * (worldOf (S u) (some tc.parent)).scale := by
    funext u
    rw [← worldOf_stateAt (by rw [hlen]; exact hj)]; rfl
  rw [e]
  exact (h.const_mul _).congr_deriv (mul_zero _)

include hv hpre hG hlen hθ in
/-- Capsules that do not overlap deeper than touching. -/
theorem depth_deriv_apart {ta tb : TaperedCapsule ℝ} {la lb : List Nat} (hca : Chain s (some ta.parent) la)
    (hcb : Chain s (some tb.parent) lb) (h6a : ∀ a ∈ la, θ' (7 * a + 6) = 0) (h6b : ∀ a ∈ lb, θ' (7 * a + 6) = 0)
    (hle : (capsuleIn (S t) ta).radius0 + (capsuleIn (S t) tb).radius0 ≤ segmentDistance (capsuleIn (S t) ta).origin
      (capsuleIn (S t) ta).direction (capsuleIn (S t) tb).origin (capsuleIn (S t) tb).direction) :
    HasDerivAt (fun u => capsuleDepth (capsuleIn (S u) ta) (capsuleIn (S u) tb) ^ 2) 0 t := by
  obtain ⟨a1, a2, -⟩ := axis_deriv' hv hpre hG hlen hθ hca
  obtain ⟨b1, b2, -⟩ := axis_deriv' hv hpre hG hlen hθ hcb
  exact hasDerivAt_sq_max ((radius_deriv hv hG hlen hθ hca h6a).add (radius_deriv hv hG hlen hθ hcb h6b))
    (fun u => segmentDistance_nonneg _ _ _ _) (segmentDistance_lipschitz a1 a2 b1 b2) hle

include hv hpre hG hlen hθ in
/-- Capsules in each other. -/
theorem depth_deriv_inside {ta tb : TaperedCapsule ℝ} {la lb : List Nat} (hca : Chain s (some ta.parent) la)
    (hcb : Chain s (some tb.parent) lb) (h6a : ∀ a ∈ la, θ' (7 * a + 6) = 0) (h6b : ∀ a ∈ lb, θ' (7 * a + 6) = 0)
    {x y dist depth : ℝ} (hdist : dist = segmentDistance (capsuleIn (S t) ta).origin
      (capsuleIn (S t) ta).direction (capsuleIn (S t) tb).origin (capsuleIn (S t) tb).direction) (hpos : 0 < dist)
    (hdepth : depth = capsuleDepth (capsuleIn (S t) ta) (capsuleIn (S t) tb))
    (hlt : dist < (capsuleIn (S t) ta).radius0 + (capsuleIn (S t) tb).radius0)
    (hcr : 0 < ((capsuleIn (S t) ta).direction.cross (capsuleIn (S t) tb).direction).sqNorm)
    (hcp : IsClosestPair (capsuleIn (S t) ta).origin (capsuleIn (S t) ta).direction (capsuleIn (S t) tb).origin
      (capsuleIn (S t) tb).direction x y) :
    HasDerivAt (fun u => capsuleDepth (capsuleIn (S u) ta) (capsuleIn (S u) tb) ^ 2)
      (-2 * (depth / dist) * (segPoint (capsuleIn (S t) ta).origin (capsuleIn (S t) ta).direction x -
        segPoint (capsuleIn (S t) tb).origin (capsuleIn (S t) tb).direction y).dot
          (axisVel (S t) la θ' ta x - axisVel (S t) lb θ' tb y)) t := by
  obtain ⟨a1, a2, a3⟩ := axis_deriv' hv hpre hG hlen hθ hca
  obtain ⟨b1, b2, b3⟩ := axis_deriv' hv hpre hG hlen hθ hcb
  have hd := segmentDistance_deriv a1 a2 b1 b2 (D := (segPoint (capsuleIn (S t) ta).origin (capsuleIn (S t) ta).direction x -
        segPoint (capsuleIn (S t) tb).origin (capsuleIn (S t) tb).direction y).dot
          (axisVel (S t) la θ' ta x - axisVel (S t) lb θ' tb y)) (by rw [← hdist]; exact hpos.ne') (by
    intro s' r' h'
    obtain ⟨rfl, rfl⟩ := closest_pair_unique hcr h' hcp
    rw [a3, b3])
  have hf := ((radius_deriv hv hG hlen hθ hca h6a).add (radius_deriv hv hG hlen hθ hcb h6b)).sub hd
  have hev : (fun u => capsuleDepth (capsuleIn (S u) ta) (capsuleIn (S u) tb) ^ 2) =ᶠ[nhds t] fun u =>
      ((capsuleIn (S u) ta).radius0 + (capsuleIn (S u) tb).radius0 - segmentDistance (capsuleIn (S u) ta).origin
      (capsuleIn (S u) ta).direction (capsuleIn (S u) tb).origin (capsuleIn (S u) tb).direction) ^ 2 := by
    have := hf.continuousAt.eventually (lt_mem_nhds (a := 0) (by simp only [Pi.add_apply, Pi.sub_apply]; rw [← hdist]; linarith))
    filter_upwards [this] with u hu
    unfold capsuleDepth
    rw [max_eq_right]
    exact hu.le
  refine ((hf.pow 2).congr_of_eventuallyEq hev).congr_deriv ?_
  simp only [Pi.add_apply, Pi.sub_apply]
  rw [hdepth, capsuleDepth, max_eq_right (by rw [← hdist]; linarith), ← hdist]
  push_cast
  ring

end
end Momentum
