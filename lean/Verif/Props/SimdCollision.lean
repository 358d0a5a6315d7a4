import Verif.Lemmas.SimdCollision3
import Verif.Props.CollisionError

/-!
# C83: the collision error function with SIMD packets
-/

namespace Momentum
open Skeleton

/-- skeleton_error_function.h: `setWeight`, `setActiveJoints` and `setEnabledParameters`. -/
def SimdCollision.configure (E : SimdCollision) (w : ℝ) (active : List Bool) (enabled : ParameterSet) : SimdCollision :=
  { E with weight := w, activeJointParams := active, enabledParameters := enabled }

/-- The objects a program can come to: built by the constructor, then configured and evaluated any number of times, in any
order, for any poses and any width of the packets. -/
inductive SimdCollision.Reached (B : ErrorBase) (offsets : List ℝ) (tol eps : ℝ) (g : List (TaperedCapsule ℝ)) :
    SimdCollision → Prop
  | new {E} : SimdCollision.construct B offsets tol eps g = some E → Reached B offsets tol eps g E
  | configure {E} (w a e) : Reached B offsets tol eps g E → Reached B offsets tol eps g (E.configure w a e)
  | error {E W st x E'} : Reached B offsets tol eps g E → E.getError W st = some (x, E') → Reached B offsets tol eps g E'
  | gradient {E W st g0 x E'} : Reached B offsets tol eps g E → E.getGradient W st g0 = some (x, E') →
      Reached B offsets tol eps g E'
  | jacobian {E W st n J0 r0 x E'} : Reached B offsets tol eps g E → E.getJacobian W st n J0 r0 = some (x, E') →
      Reached B offsets tol eps g E'

/-- The radius of a capsule at a point of its axis. -/
def CapsuleState.radiusAt (a : CapsuleState ℝ) (s : ℝ) : ℝ := a.radius0 * (1 - s) + a.radius1 * s

/-- The pairs of capsules that do not overlap at rest. -/
noncomputable def restApart (tol eps : ℝ) (n : Nat) (rest : List (CapsuleState ℝ)) : Finset (Nat × Nat) :=
  (Finset.range n ×ˢ Finset.range n).filter fun p =>
    p.1 < p.2 ∧ overlaps tol eps (capsuleAt rest p.1) (capsuleAt rest p.2) = false

namespace SimdCollision
open CollisionError

theorem kept_step {skel : Skeleton ℝ} {tol eps : ℝ} {g : List (TaperedCapsule ℝ)} {rest : List (CapsuleState ℝ)}
    {E E' : SimdCollision} {st : List JointState} (hn : 2 * g.length < kRootParentIndex) (hK : E.Kept skel tol eps g rest)
    (h : E.computeBroadPhase st = some E') : E'.Kept skel tol eps g rest := by
  have h1 := computeBroadPhase_core h
  refine ⟨(broadPhase_spec hn hK.core (broadPhase_core (watchedCount skel tol eps g rest) h1)).1, ?_⟩
  rw [← hK.size]
  unfold CollisionError.computeBroadPhase at h1
  simp only [Option.bind_eq_bind, Option.bind_eq_some_iff, Option.some.injEq] at h1
  obtain ⟨_, _, _, _, _, _, h2⟩ := h1
  rw [← h2]

theorem construct_kept {B : ErrorBase} {offsets : List ℝ} {tol eps : ℝ} {g : List (TaperedCapsule ℝ)}
    {rest : List (CapsuleState ℝ)} (hs : CollisionSetting B offsets tol g rest) {E : SimdCollision}
    (h : SimdCollision.construct B offsets tol eps g = some E) : E.Kept B.skeleton tol eps g rest := by
  obtain ⟨state, s1, s2⟩ := hs.rest
  obtain ⟨E0, h1, h2, h3⟩ := construct_core s1 s2 h
  have k := CollisionError.construct_kept hs h1
  refine ⟨?_, h3⟩
  have : E0.jacobianSize = watchedCount B.skeleton tol eps g rest := k.size
  rw [← this, h2]; exact k

theorem reached_kept {B : ErrorBase} {offsets : List ℝ} {tol eps : ℝ} {g : List (TaperedCapsule ℝ)}
    {rest : List (CapsuleState ℝ)} (hs : CollisionSetting B offsets tol g rest) {E : SimdCollision}
    (h : E.Reached B offsets tol eps g) : E.Kept B.skeleton tol eps g rest := by
  induction h with
  | new h => exact SimdCollision.construct_kept hs h
  | configure w a e _ ih =>
    have k := ih.core
    exact ⟨⟨k.skeleton_eq, k.tol_eq, k.eps_eq, k.geometry, k.excluded, k.size, k.common, k.ids⟩, ih.size⟩
  | @error E W st x E' _ h ih =>
    unfold getError at h
    split at h
    · simp only [Option.some.injEq, Prod.mk.injEq] at h; rw [← h.2]; exact ih
    · simp only [Option.bind_eq_bind, Option.bind_eq_some_iff, Option.some.injEq, Prod.mk.injEq] at h
      obtain ⟨E1, h1, y, h2, rfl, rfl⟩ := h
      exact kept_step hs.small ih h1
  | @gradient E W st g0 x E' _ h ih =>
    unfold getGradient at h
    split at h
    · simp only [Option.some.injEq, Prod.mk.injEq] at h; rw [← h.2]; exact ih
    · simp only [Option.bind_eq_bind, Option.bind_eq_some_iff, Option.some.injEq, Prod.mk.injEq] at h
      obtain ⟨E1, h1, y, h2, rfl, rfl⟩ := h
      exact kept_step hs.small ih h1
  | @jacobian E W st n J0 r0 x E' _ h ih =>
    unfold getJacobian at h
    simp only [Option.bind_eq_bind, Option.bind_eq_some_iff, Option.some.injEq, Prod.mk.injEq] at h
    obtain ⟨E1, h1, y, h2, rfl, rfl⟩ := h
    exact kept_step hs.small ih h1

section
variable {B : ErrorBase} {offsets : List ℝ} {tol eps : ℝ} {g : List (TaperedCapsule ℝ)} {rest : List (CapsuleState ℝ)}
  {E : SimdCollision} {st : List JointState}

/-- After the broad phase. -/
theorem phase (hs : CollisionSetting B offsets tol g rest) (hE : E.Reached B offsets tol eps g)
    (hsc : ∀ js ∈ st, 0 ≤ js.transform.scale) {E1 : SimdCollision} (h : E.computeBroadPhase st = some E1) :
    E1.Kept B.skeleton tol eps g rest ∧ Current B.skeleton tol eps g rest st E1 ∧ E1.toErrorBase = E.toErrorBase := by
  obtain ⟨E', h1, -, h3, h4, h5⟩ := computeBroadPhase_spec hs.small (reached_kept hs hE) hs.radii hsc
    (computeBroadPhase_core h)
  rw [h, Option.some.injEq] at h1
  subst h1
  exact ⟨h3, h4, h5⟩

theorem phase_some (hs : CollisionSetting B offsets tol g rest) (hE : E.Reached B offsets tol eps g) (hn : g.length ≤ 128)
    (hsc : ∀ js ∈ st, 0 ≤ js.transform.scale) (hlen : st.length = B.skeleton.joints.length) :
    ∃ E1, E.computeBroadPhase st = some E1 := by
  obtain ⟨C, hC⟩ := computeBroadPhase_some (st := st) hn (reached_kept hs hE)
    (fun tc ht => by rw [hlen]; exact hs.parents tc ht)
  obtain ⟨E', h1, -⟩ := computeBroadPhase_spec hs.small (reached_kept hs hE) hs.radii hsc hC
  exact ⟨E', h1⟩

theorem phase_of_error {W : Nat} (hne : st ≠ []) {r : ℝ × SimdCollision} (h : E.getError W st = some r) :
    ∃ E1, E.computeBroadPhase st = some E1 := by
  cases hu : E.computeBroadPhase st with
  | none => rw [getError, if_neg (fun h => hne (List.isEmpty_iff.1 h)), hu] at h; cases h
  | some E1 => exact ⟨E1, rfl⟩

theorem phase_of_gradient {W : Nat} {g0 : Nat → ℝ} (hne : st ≠ []) {r : (ℝ × (Nat → ℝ)) × SimdCollision}
    (h : E.getGradient W st g0 = some r) : ∃ E1, E.computeBroadPhase st = some E1 := by
  cases hu : E.computeBroadPhase st with
  | none => rw [getGradient, if_neg (fun h => hne (List.isEmpty_iff.1 h)), hu] at h; cases h
  | some E1 => exact ⟨E1, rfl⟩

theorem phase_of_jacobian {W n : Nat} {J0 : Nat → Nat → ℝ} {r0 : Nat → ℝ} {r : JacobianResult × SimdCollision}
    (h : E.getJacobian W st n J0 r0 = some r) : ∃ E1, E.computeBroadPhase st = some E1 := by
  cases hu : E.computeBroadPhase st with
  | none => rw [getJacobian, hu] at h; cases h
  | some E1 => exact ⟨E1, rfl⟩

theorem foldlM_step {α σ : Type} {f : σ → α → Option σ} : ∀ {l : List α} {s t : σ}, l.foldlM f s = some t →
    ∀ x ∈ l, ∃ s1 t1, f s1 x = some t1 := by
  intro l
  induction l with
  | nil => intro s t _ x hx; cases hx
  | cons y l ih =>
    intro s t h x hx
    rw [List.foldlM_cons] at h
    simp only [Option.bind_eq_bind, Option.bind_eq_some_iff] at h
    obtain ⟨s', h1, h2⟩ := h
    rcases List.mem_cons.1 hx with rfl | hx
    · exact ⟨s, s', h1⟩
    · exact ih h2 x hx

/-- When the loops end, the body has run for every stored pair. -/
theorem forCandidates_each {σ : Type} {W : Nat} (hW : 0 < W) {f : σ → Nat → Nat → Nat → OverlapInfo → Option σ} {s t : σ}
    (h : E.forCandidates W f s = some t) {i j : Nat} (hij : (i, j) ∈ flatPairs E.candidates 0) :
    ∃ s1 t1 k a b, E.collisionState[i]? = some a ∧ E.collisionState[j]? = some b ∧ f s1 k i j (simdInfo a b) = some t1 := by
  unfold flatPairs at hij
  rw [List.mem_flatMap] at hij
  obtain ⟨⟨l, m⟩, hl, hm⟩ := hij
  simp only [List.mem_map, Prod.mk.injEq] at hm
  obtain ⟨j', hj, rfl, rfl⟩ := hm
  obtain ⟨s1, t1, h1⟩ := foldlM_step h _ hl
  simp only [packets] at h1
  obtain ⟨q, hq, hq'⟩ := List.mem_iff_getElem.1 hj
  have hdm := Nat.div_add_mod q W
  have hmod := Nat.mod_lt q hW
  obtain ⟨s2, t2, h2⟩ := foldlM_step h1 (q / W) (List.mem_range.2 (by
    rw [Nat.lt_div_iff_mul_lt hW]
    have : q / W * W = W * (q / W) := Nat.mul_comm _ _
    omega))
  obtain ⟨s3, t3, h3⟩ := foldlM_step h2 (q % W) (List.mem_range.2 hmod)
  unfold packetLane at h3
  have e : l[q / W * W + q % W]? = some j' := by
    have : q / W * W + q % W = q := by rw [Nat.mul_comm]; exact hdm
    rw [this, List.getElem?_eq_getElem hq, hq']
  rw [e] at h3
  simp only [Option.bind_eq_bind, Option.bind_eq_some_iff] at h3
  obtain ⟨a, ha, b, hb, h4⟩ := h3
  exact ⟨s3, t3, _, a, b, ha, hb, h4⟩

/-- Division by a distance of zero stays out when the evaluation returns. -/
theorem gradient_apart {W : Nat} (hW : 0 < W) {g0 : Nat → ℝ} (hne : st ≠ []) {r : (ℝ × (Nat → ℝ)) × SimdCollision}
    {E1 : SimdCollision} (h1 : E.computeBroadPhase st = some E1) (hl : Current B.skeleton tol eps g rest st E1)
    (hK : E1.Kept B.skeleton tol eps g rest)
    (h : E.getGradient W st g0 = some r) : ∀ h ∈ E1.simdHits, h.2.2.distance ≠ 0 := by
  intro hh hm hz
  obtain ⟨b1, b2, -, b4, b5, b6⟩ := mem_simdHits hl hm
  rw [getGradient, if_neg (fun h => hne (List.isEmpty_iff.1 h)), h1] at h
  simp only [Option.bind_eq_bind, Option.bind_some, Option.bind_eq_some_iff] at h
  obtain ⟨s, h2, -⟩ := h
  obtain ⟨s1, t1, k, a, b, e1, e2, e3⟩ := forCandidates_each hW h2 b4
  have hlen := state_length hK hl
  rw [SimdCollision.capsuleAt_eq (by omega), Option.some.injEq] at e1 e2
  rw [← e1, ← e2, ← b5, gradLane, if_pos b6, if_pos hz] at e3
  cases e3

theorem jacobian_apart {W n : Nat} (hW : 0 < W) {J0 : Nat → Nat → ℝ} {r0 : Nat → ℝ} {r : JacobianResult × SimdCollision}
    {E1 : SimdCollision} (h1 : E.computeBroadPhase st = some E1) (hl : Current B.skeleton tol eps g rest st E1)
    (hK : E1.Kept B.skeleton tol eps g rest)
    (h : E.getJacobian W st n J0 r0 = some r) : ∀ h ∈ E1.simdHits, h.2.2.distance ≠ 0 := by
  intro hh hm hz
  obtain ⟨b1, b2, -, b4, b5, b6⟩ := mem_simdHits hl hm
  rw [getJacobian, h1] at h
  simp only [Option.bind_eq_bind, Option.bind_some, Option.bind_eq_some_iff] at h
  obtain ⟨s, h2, -⟩ := h
  obtain ⟨s1, t1, k, a, b, e1, e2, e3⟩ := forCandidates_each hW h2 b4
  have hlen := state_length hK hl
  rw [SimdCollision.capsuleAt_eq (by omega), Option.some.injEq] at e1 e2
  rw [← e1, ← e2, ← b5, jacLane, if_pos b6, if_pos hz] at e3
  cases e3

theorem size_restApart (hK : E.Kept B.skeleton tol eps g rest) : E.jacobianSize = (restApart tol eps g.length rest).card := by
  rw [hK.size, apartList, ← List.toFinset_card_of_nodup ((nodup_allIJ _).filter _)]
  congr 1
  ext ⟨i, j⟩
  simp only [restApart, Finset.mem_filter, List.mem_toFinset, List.mem_filter, mem_allIJ, Finset.mem_product,
    Finset.mem_range, Bool.not_eq_true']
  constructor
  · rintro ⟨⟨a, b⟩, c⟩; exact ⟨⟨by omega, b⟩, a, c⟩
  · rintro ⟨⟨a, b⟩, c, d⟩; exact ⟨⟨c, b⟩, d⟩

theorem watched_subset : watchedPairs B.skeleton tol eps g rest ⊆ restApart tol eps g.length rest := by
  intro p hp
  simp only [watchedPairs, restApart, Finset.mem_filter, Finset.mem_product, Finset.mem_range] at hp ⊢
  refine ⟨hp.1, hp.2.1, ?_⟩
  obtain ⟨_, _, ca, cb, _, _, h1, h2, _, h3⟩ := hp.2.2
  simpa [capsuleAt, List.getD_eq_getElem?_getD, h1, h2] using h3

theorem hits_le (hK : E.Kept B.skeleton tol eps g rest) (hC : Current B.skeleton tol eps g rest st E) :
    E.simdHits.length ≤ (watchedPairs B.skeleton tol eps g rest).card := by
  classical
  have h1 : E.simdHits.length = _ := hC.hits.length_eq
  rw [h1]
  refine List.length_filterMap_le _ _ |>.trans ?_
  exact (size_card (twin_kept hK)).le

/-- The sum over the pairs that take part is a sum over the watched pairs. -/
theorem hits_sum (hC : Current B.skeleton tol eps g rest st E) (f : OverlapInfo → ℝ) :
    (E.simdHits.map fun h => f h.2.2).sum = ∑ p ∈ watchedPairs B.skeleton tol eps g rest,
      if 0 < (simdInfo (capsuleAt E.collisionState p.1) (capsuleAt E.collisionState p.2)).overlap then
        f (simdInfo (capsuleAt E.collisionState p.1) (capsuleAt E.collisionState p.2)) else 0 := by
  classical
  have hset : watchedPairs B.skeleton tol eps g rest =
      ((allIJ g.length).filter fun p => Watched B.skeleton tol eps g rest p.1 p.2).toFinset := by
    ext ⟨i, j⟩
    simp only [watchedPairs, Finset.mem_filter, List.mem_toFinset, List.mem_filter, mem_allIJ, Finset.mem_product,
      Finset.mem_range, decide_eq_true_eq]
    constructor
    · rintro ⟨⟨a, b⟩, c, d⟩; exact ⟨⟨c, b⟩, d⟩
    · rintro ⟨⟨a, b⟩, c⟩; exact ⟨⟨by omega, b⟩, a, c⟩
  rw [hset, List.sum_toFinset _ ((nodup_allIJ _).filter _)]
  unfold simdHits
  rw [(hC.hits.map fun h => f h.2.2).sum_eq]
  rw [sum_filterMap]
  congr 1
  refine List.map_congr_left fun p _ => ?_
  unfold simdHit
  by_cases ho : 0 < (simdInfo (capsuleAt E.collisionState p.1) (capsuleAt E.collisionState p.2)).overlap
  · rw [if_pos ho, if_pos ho]; rfl
  · rw [if_neg ho, if_neg ho]; rfl

end
end SimdCollision

/-- **C83**: the closest point computation used for a lane returns a closest pair of points of the two segments, for all
segments: parallel, crossing or of length zero. -/
theorem C83_closest (o1 d1 o2 d2 : Vec3 ℝ) :
    IsClosestPair o1 d1 o2 d2 (simdSegments o1 d1 o2 d2).1 (simdSegments o1 d1 o2 d2).2 :=
  simdSegments_closest o1 d1 o2 d2

open SimdCollision in
/-- **C83**: construction succeeds for every skeleton in which any two joints with capsules have a common ancestor and up
to 128 capsules. -/
theorem C83_construct (B : ErrorBase) (offsets : List ℝ) (tol eps : ℝ) (g : List (TaperedCapsule ℝ))
    (rest : List (CapsuleState ℝ)) (hs : CollisionSetting B offsets tol g rest) (hn : g.length ≤ 128)
    (hone : ∀ a ∈ g, ∀ b ∈ g, ∃ c, B.skeleton.Anc a.parent c ∧ B.skeleton.Anc b.parent c) :
    ∃ E, SimdCollision.construct B offsets tol eps g = some E := by
  obtain ⟨E0, h⟩ := C67_construct B offsets tol eps g rest hs hn hone
  unfold CollisionError.construct at h
  simp only [Option.bind_eq_bind, Option.bind_eq_some_iff, Option.some.injEq] at h
  obtain ⟨state, h1, cs, h2, bvh, h3, acc, h4, -⟩ := h
  obtain ⟨acc', h5⟩ := pairLoop_some h4
  unfold SimdCollision.construct
  rw [h1]
  simp only [Option.bind_eq_bind, Option.bind_some, h2, h3]
  rw [h5]
  exact ⟨_, rfl⟩

open SimdCollision in
/-- **C83**: whatever was done with the object, the Jacobian has one row for every pair of capsules that do not overlap at
rest; these include all pairs that are watched. -/
theorem C83_size (B : ErrorBase) (offsets : List ℝ) (tol eps : ℝ) (g : List (TaperedCapsule ℝ))
    (rest : List (CapsuleState ℝ)) (hs : CollisionSetting B offsets tol g rest) (E : SimdCollision)
    (hE : E.Reached B offsets tol eps g) :
    E.getJacobianSize = (restApart tol eps g.length rest).card ∧
      (watchedPairs B.skeleton tol eps g rest).card ≤ E.getJacobianSize := by
  have h := size_restApart (SimdCollision.reached_kept hs hE)
  refine ⟨h, ?_⟩
  rw [show E.getJacobianSize = _ from h]
  exact Finset.card_le_card watched_subset

open SimdCollision CollisionError in
/-- **C83**: whatever was done before, and whatever the width of the packets, the error is the weighted sum over the watched
pairs, every pair once, of the squares of the depths at closest points of the axes. -/
theorem C83_error (B : ErrorBase) (offsets : List ℝ) (tol eps : ℝ) (g : List (TaperedCapsule ℝ))
    (rest : List (CapsuleState ℝ)) (hs : CollisionSetting B offsets tol g rest) (E : SimdCollision)
    (hE : E.Reached B offsets tol eps g) (W : Nat) (hW : 0 < W) (st : List JointState) (hne : st ≠ [])
    (hsc : ∀ js ∈ st, 0 ≤ js.transform.scale) (x : ℝ) (E' : SimdCollision) (h : E.getError W st = some (x, E')) :
    ∃ cs, capsules g st = some cs ∧ ∃ s t : Nat × Nat → ℝ,
      (∀ p ∈ watchedPairs B.skeleton tol eps g rest, IsClosestPair (capsuleAt cs p.1).origin (capsuleAt cs p.1).direction
        (capsuleAt cs p.2).origin (capsuleAt cs p.2).direction (s p) (t p)) ∧
      x = kCollisionWeight * E.weight * ∑ p ∈ watchedPairs B.skeleton tol eps g rest,
        (max 0 ((capsuleAt cs p.1).radiusAt (s p) + (capsuleAt cs p.2).radiusAt (t p) -
          segmentDistance (capsuleAt cs p.1).origin (capsuleAt cs p.1).direction (capsuleAt cs p.2).origin
            (capsuleAt cs p.2).direction)) ^ 2 := by
  obtain ⟨E1, h1⟩ := phase_of_error hne h
  obtain ⟨k1, k2, k3⟩ := phase hs hE hsc h1
  rw [getError_eq k1 k2 hW hne h1] at h
  simp only [Option.some.injEq, Prod.mk.injEq] at h
  obtain ⟨rfl, rfl⟩ := h
  have hcs := k2.posed.caps
  rw [k1.core.geometry] at hcs
  have hwt : E1.weight = E.weight := congrArg ErrorBase.weight k3
  refine ⟨E1.collisionState, hcs,
    fun p => (simdInfo (capsuleAt E1.collisionState p.1) (capsuleAt E1.collisionState p.2)).s,
    fun p => (simdInfo (capsuleAt E1.collisionState p.1) (capsuleAt E1.collisionState p.2)).t,
    fun p _ => simdSegments_closest _ _ _ _, ?_⟩
  rw [hits_sum k2 fun r => E1.toCollisionError.pairError r, Finset.mul_sum]
  refine Finset.sum_congr rfl fun p _ => ?_
  have hd : segmentDistance (capsuleAt E1.collisionState p.1).origin (capsuleAt E1.collisionState p.1).direction
      (capsuleAt E1.collisionState p.2).origin (capsuleAt E1.collisionState p.2).direction =
      (simdInfo (capsuleAt E1.collisionState p.1) (capsuleAt E1.collisionState p.2)).distance :=
    segmentDistance_eq (simdSegments_closest _ _ _ _)
  have ho : (capsuleAt E1.collisionState p.1).radiusAt
        (simdInfo (capsuleAt E1.collisionState p.1) (capsuleAt E1.collisionState p.2)).s +
      (capsuleAt E1.collisionState p.2).radiusAt
        (simdInfo (capsuleAt E1.collisionState p.1) (capsuleAt E1.collisionState p.2)).t -
      (simdInfo (capsuleAt E1.collisionState p.1) (capsuleAt E1.collisionState p.2)).distance =
      (simdInfo (capsuleAt E1.collisionState p.1) (capsuleAt E1.collisionState p.2)).overlap := rfl
  rw [hd, ho]
  by_cases hp : 0 < (simdInfo (capsuleAt E1.collisionState p.1) (capsuleAt E1.collisionState p.2)).overlap
  · rw [if_pos hp, max_eq_right hp.le, CollisionError.pairError, hwt]; ring
  · rw [if_neg hp, max_eq_left (not_lt.1 hp)]; ring

open SimdCollision CollisionError in
/-- **C83**: when the capsules of the watched pairs have constant radius, the error is the weighted sum of the squares of the
true depths, in every pose; parallel, crossing or touching axes are no exception. -/
theorem C83_error_exact (B : ErrorBase) (offsets : List ℝ) (tol eps : ℝ) (g : List (TaperedCapsule ℝ))
    (rest : List (CapsuleState ℝ)) (hs : CollisionSetting B offsets tol g rest) (E : SimdCollision)
    (hE : E.Reached B offsets tol eps g) (W : Nat) (hW : 0 < W) (st : List JointState) (hne : st ≠ [])
    (hsc : ∀ js ∈ st, 0 ≤ js.transform.scale) (x : ℝ) (E' : SimdCollision) (h : E.getError W st = some (x, E'))
    (cs : List (CapsuleState ℝ)) (hcs : capsules g st = some cs)
    (hconst : ∀ p ∈ watchedPairs B.skeleton tol eps g rest, (capsuleAt cs p.1).radius1 = (capsuleAt cs p.1).radius0 ∧
      (capsuleAt cs p.2).radius1 = (capsuleAt cs p.2).radius0) :
    x = kCollisionWeight * E.weight * penetration (watchedPairs B.skeleton tol eps g rest) cs := by
  obtain ⟨cs', h1, s, t, h2, h3⟩ := C83_error B offsets tol eps g rest hs E hE W hW st hne hsc x E' h
  rw [hcs, Option.some.injEq] at h1
  subst h1
  rw [h3, penetration]
  congr 1
  refine Finset.sum_congr rfl fun p hp => ?_
  obtain ⟨c1, c2⟩ := hconst p hp
  rw [capsuleDepth, CapsuleState.radiusAt, CapsuleState.radiusAt, c1, c2]
  congr 2
  ring

open SimdCollision CollisionError in
/-- **C83**: the evaluations of the error, the gradient and the Jacobian return and agree on the error, whatever was done
before, when the axes of overlapping watched capsules do not meet. -/
theorem C83_returns (B : ErrorBase) (offsets : List ℝ) (tol eps : ℝ) (g : List (TaperedCapsule ℝ))
    (rest : List (CapsuleState ℝ)) (hs : CollisionSetting B offsets tol g rest) (hn : g.length ≤ 128) (E : SimdCollision)
    (hE : E.Reached B offsets tol eps g) (W : Nat) (hW : 0 < W) (pt : ParameterTransform ℝ) (hF : E.Fits pt)
    (st : List JointState) (hne : st ≠ []) (hlen : st.length = B.skeleton.joints.length)
    (hcl : ∀ js ∈ st, js.derivDirty = false) (hsc : ∀ js ∈ st, 0 ≤ js.transform.scale)
    (n : Nat) (hrows : E.getJacobianSize ≤ n) (g0 : Nat → ℝ) (J0 : Nat → Nat → ℝ) (r0 : Nat → ℝ) :
    ∃ x E', E.getError W st = some (x, E') ∧
      ((∀ cs, capsules g st = some cs → ∀ p ∈ watchedPairs B.skeleton tol eps g rest,
        segmentDistance (capsuleAt cs p.1).origin (capsuleAt cs p.1).direction (capsuleAt cs p.2).origin
          (capsuleAt cs p.2).direction ≠ 0) →
      ∃ grad s, E.getGradient W st g0 = some ((x, grad), E') ∧ E.getJacobian W st n J0 r0 = some (s, E') ∧ s.error = x) := by
  obtain ⟨E1, h1⟩ := phase_some hs hE hn hsc hlen
  obtain ⟨k1, k2, k3⟩ := phase hs hE hsc h1
  refine ⟨_, _, getError_eq k1 k2 hW hne h1, fun hap => ?_⟩
  have hcs := k2.posed.caps
  rw [k1.core.geometry] at hcs
  have hz : ∀ h ∈ E1.simdHits, h.2.2.distance ≠ 0 := by
    intro h hh
    obtain ⟨b1, b2, b3, b4, b5, b6⟩ := mem_simdHits k2 hh
    have := hap _ hcs (h.1, h.2.1) (by
      simp only [watchedPairs, Finset.mem_filter, Finset.mem_product, Finset.mem_range]
      exact ⟨⟨by omega, b2⟩, b1, b3⟩)
    rw [segmentDistance_eq (simdSegments_closest _ _ _ _)] at this
    rw [b5]; exact this
  have hF' : E1.toErrorBase.Fits pt := by rw [k3]; exact hF
  obtain ⟨grad, g1, -⟩ := getGradient_eq hs.skeleton hs.parents k1 k2 hW hne h1 hz hF' hlen hcl g0
  obtain ⟨s, j1, j2, -⟩ := getJacobian_eq hs.skeleton hs.parents k1 k2 hW h1 hz hF' hlen hcl n
    (((hits_le k1 k2).trans (C83_size B offsets tol eps g rest hs E hE).2).trans hrows) J0 r0
  exact ⟨grad, s, g1, j1, j2⟩

open SimdCollision CollisionError in
/-- **C83**, what fails: when the axes of two watched capsules meet, and a radius there is positive, the gradient and the
Jacobian divide by zero, although the error is fine. -/
theorem C83_crossing (B : ErrorBase) (offsets : List ℝ) (tol eps : ℝ) (g : List (TaperedCapsule ℝ))
    (rest : List (CapsuleState ℝ)) (hs : CollisionSetting B offsets tol g rest) (E : SimdCollision)
    (hE : E.Reached B offsets tol eps g) (W : Nat) (hW : 0 < W) (st : List JointState) (hne : st ≠ [])
    (hsc : ∀ js ∈ st, 0 ≤ js.transform.scale) (cs : List (CapsuleState ℝ)) (hcs : capsules g st = some cs) (p : Nat × Nat)
    (hp : p ∈ watchedPairs B.skeleton tol eps g rest)
    (hmeet : segmentDistance (capsuleAt cs p.1).origin (capsuleAt cs p.1).direction (capsuleAt cs p.2).origin
      (capsuleAt cs p.2).direction = 0)
    (hr : 0 < (capsuleAt cs p.1).radius0 ∧ 0 < (capsuleAt cs p.1).radius1) (g0 : Nat → ℝ) (n : Nat) (J0 : Nat → Nat → ℝ)
    (r0 : Nat → ℝ) : E.getGradient W st g0 = none ∧ E.getJacobian W st n J0 r0 = none := by
  classical
  have key : ∀ E1, E.computeBroadPhase st = some E1 → ∃ h ∈ E1.simdHits, h.2.2.distance = 0 := by
    intro E1 h1
    obtain ⟨k1, k2, k3⟩ := phase hs hE hsc h1
    have hcs' := k2.posed.caps
    rw [k1.core.geometry] at hcs'
    have hcc : E1.collisionState = cs := Option.some.inj (hcs'.symm.trans hcs)
    simp only [watchedPairs, Finset.mem_filter, Finset.mem_product, Finset.mem_range] at hp
    have hd : (simdInfo (capsuleAt cs p.1) (capsuleAt cs p.2)).distance = 0 :=
      (segmentDistance_eq (simdSegments_closest _ _ _ _)).symm.trans hmeet
    have hval := valid_states (twin_kept k1) ⟨k2.posed.caps⟩ hs.radii hsc
    have v2 : (capsuleAt cs p.2).Valid := by
      rw [← hcc]
      exact hval _ (List.mem_of_getElem? (SimdCollision.capsuleAt_eq (show p.2 < E1.collisionState.length by
        rw [state_length k1 k2]; exact hp.1.2)))
    have ho : 0 < (simdInfo (capsuleAt cs p.1) (capsuleAt cs p.2)).overlap := by
      obtain ⟨⟨s0, s1⟩, ⟨t0, t1⟩, -⟩ := simdSegments_closest (capsuleAt cs p.1).origin (capsuleAt cs p.1).direction
        (capsuleAt cs p.2).origin (capsuleAt cs p.2).direction
      have e : (simdInfo (capsuleAt cs p.1) (capsuleAt cs p.2)).overlap =
          ((capsuleAt cs p.1).radius0 * (1 - (simdInfo (capsuleAt cs p.1) (capsuleAt cs p.2)).s) +
            (capsuleAt cs p.1).radius1 * (simdInfo (capsuleAt cs p.1) (capsuleAt cs p.2)).s) +
          ((capsuleAt cs p.2).radius0 * (1 - (simdInfo (capsuleAt cs p.1) (capsuleAt cs p.2)).t) +
            (capsuleAt cs p.2).radius1 * (simdInfo (capsuleAt cs p.1) (capsuleAt cs p.2)).t) -
          (simdInfo (capsuleAt cs p.1) (capsuleAt cs p.2)).distance := rfl
      rw [e, hd]
      have e1 : (simdInfo (capsuleAt cs p.1) (capsuleAt cs p.2)).s = (simdSegments (capsuleAt cs p.1).origin
        (capsuleAt cs p.1).direction (capsuleAt cs p.2).origin (capsuleAt cs p.2).direction).1 := rfl
      have e2 : (simdInfo (capsuleAt cs p.1) (capsuleAt cs p.2)).t = (simdSegments (capsuleAt cs p.1).origin
        (capsuleAt cs p.1).direction (capsuleAt cs p.2).origin (capsuleAt cs p.2).direction).2 := rfl
      rw [← e1] at s0 s1
      rw [← e2] at t0 t1
      obtain ⟨v20, v21, -⟩ := v2
      have q1 := mul_nonneg v20 (sub_nonneg.2 t1)
      have q2 := mul_nonneg v21 t0
      have q3 : 0 < (capsuleAt cs p.1).radius0 * (1 - (simdInfo (capsuleAt cs p.1) (capsuleAt cs p.2)).s) +
            (capsuleAt cs p.1).radius1 * (simdInfo (capsuleAt cs p.1) (capsuleAt cs p.2)).s := by
        rcases s0.lt_or_eq with h | h
        · have := mul_pos hr.2 h
          have := mul_nonneg hr.1.le (sub_nonneg.2 s1)
          linarith
        · rw [← h]; simpa using hr.1
      linarith
    have hh : E1.simdHit p = some (p.1, p.2, simdInfo (capsuleAt cs p.1) (capsuleAt cs p.2)) := by
      unfold simdHit
      rw [hcc, if_pos ho]
    refine ⟨(p.1, p.2, simdInfo (capsuleAt cs p.1) (capsuleAt cs p.2)), ?_, hd⟩
    refine (k2.hits.mem_iff).2 (List.mem_filterMap.2 ⟨p, ?_, hh⟩)
    rw [List.mem_filter, mem_allIJ]
    exact ⟨⟨hp.2.1, hp.1.2⟩, by simpa using hp.2.2⟩
  constructor
  · cases hg : E.getGradient W st g0 with
    | none => rfl
    | some r =>
      obtain ⟨E1, h1⟩ := phase_of_gradient hne hg
      obtain ⟨k1, k2, k3⟩ := phase hs hE hsc h1
      obtain ⟨h, hh, hz⟩ := key E1 h1
      exact absurd hz (gradient_apart hW hne h1 k2 k1 hg h hh)
  · cases hg : E.getJacobian W st n J0 r0 with
    | none => rfl
    | some r =>
      obtain ⟨E1, h1⟩ := phase_of_jacobian hg
      obtain ⟨k1, k2, k3⟩ := phase hs hE hsc h1
      obtain ⟨h, hh, hz⟩ := key E1 h1
      exact absurd hz (jacobian_apart hW h1 k2 k1 hg h hh)

open SimdCollision CollisionError in
/-- **C83**: the rows that are filled are no more than announced, the squares of their residuals add up to the error, and
nothing else is touched. -/
theorem C83_rows (B : ErrorBase) (offsets : List ℝ) (tol eps : ℝ) (g : List (TaperedCapsule ℝ))
    (rest : List (CapsuleState ℝ)) (hs : CollisionSetting B offsets tol g rest) (E : SimdCollision)
    (hE : E.Reached B offsets tol eps g) (W : Nat) (hW : 0 < W) (pt : ParameterTransform ℝ) (hF : E.Fits pt)
    (hw : 0 ≤ E.weight) (st : List JointState) (hne : st ≠ [])
    (hlen : st.length = B.skeleton.joints.length) (hcl : ∀ js ∈ st, js.derivDirty = false)
    (hsc : ∀ js ∈ st, 0 ≤ js.transform.scale) (n : Nat) (hrows : E.getJacobianSize ≤ n) (J0 : Nat → Nat → ℝ)
    (r0 : Nat → ℝ) (x : ℝ) (E' E'' : SimdCollision) (s : JacobianResult)
    (hx : E.getError W st = some (x, E')) (hj : E.getJacobian W st n J0 r0 = some (s, E'')) :
    s.error = x ∧ s.rows ≤ E.getJacobianSize ∧ ∑ t ∈ Finset.range s.rows, s.residual t ^ 2 = x ∧
      ∀ t, s.rows ≤ t → s.residual t = r0 t ∧ ∀ i, E.enabledParameters.mem i = true → s.e i t = J0 i t := by
  obtain ⟨E1, h1⟩ := phase_of_error hne hx
  obtain ⟨k1, k2, k3⟩ := phase hs hE hsc h1
  have hF' : E1.toErrorBase.Fits pt := by rw [k3]; exact hF
  have hsz := (hits_le k1 k2).trans (C83_size B offsets tol eps g rest hs E hE).2
  obtain ⟨s', j1, j2, j3, j5, j6⟩ := getJacobian_eq hs.skeleton hs.parents k1 k2 hW h1 (jacobian_apart hW h1 k2 k1 hj) hF' hlen
    hcl n (hsz.trans hrows) J0 r0
  rw [getError_eq k1 k2 hW hne h1] at hx
  rw [j1] at hj
  simp only [Option.some.injEq, Prod.mk.injEq] at hj hx
  obtain ⟨rfl, rfl⟩ := hj
  obtain ⟨rfl, rfl⟩ := hx
  have hwt : E1.weight = E.weight := congrArg ErrorBase.weight k3
  have hen : E1.enabledParameters = E.enabledParameters := congrArg ErrorBase.enabledParameters k3
  rw [hen] at j5
  refine ⟨j2, by rw [j3]; exact hsz, ?_, fun t ht => j5 t (by omega)⟩
  rw [j3, ← sum_range_getElem E1.simdHits (fun h => E1.toCollisionError.pairError h.2.2)]
  refine Finset.sum_congr rfl fun k hk => ?_
  have hk := Finset.mem_range.1 hk
  have e : E1.simdHits[k]? = some E1.simdHits[k] := List.getElem?_eq_getElem hk
  rw [(j6 k _ e).1, e]
  simp only [Option.map_some, Option.getD_some, CollisionError.pairError, hwt]
  rw [mul_pow, Real.sq_sqrt (mul_nonneg (by norm_num [kCollisionWeight]) hw)]
  ring

open SimdCollision CollisionError in
/-- **C83**: the product of the transposed Jacobian and the residual is the gradient.  (For the other error functions it is
half of the gradient.) -/
theorem C83_jacobian_residual (B : ErrorBase) (offsets : List ℝ) (tol eps : ℝ) (g : List (TaperedCapsule ℝ))
    (rest : List (CapsuleState ℝ)) (hs : CollisionSetting B offsets tol g rest) (E : SimdCollision)
    (hE : E.Reached B offsets tol eps g) (W : Nat) (hW : 0 < W) (pt : ParameterTransform ℝ) (hF : E.Fits pt)
    (hw : 0 ≤ E.weight) (st : List JointState) (hne : st ≠ [])
    (hlen : st.length = B.skeleton.joints.length) (hcl : ∀ js ∈ st, js.derivDirty = false)
    (hsc : ∀ js ∈ st, 0 ≤ js.transform.scale) (n : Nat) (hrows : E.getJacobianSize ≤ n)
    (x : ℝ) (grad : Nat → ℝ) (E' E'' : SimdCollision) (s : JacobianResult)
    (hx : E.getGradient W st (fun _ => 0) = some ((x, grad), E'))
    (hj : E.getJacobian W st n (fun _ _ => 0) (fun _ => 0) = some (s, E'')) (i : Nat)
    (hi : E.enabledParameters.mem i = true) :
    ∑ t ∈ Finset.range s.rows, s.e i t * s.residual t = grad i := by
  obtain ⟨E1, h1⟩ := phase_of_gradient hne hx
  obtain ⟨k1, k2, k3⟩ := phase hs hE hsc h1
  have hF' : E1.toErrorBase.Fits pt := by rw [k3]; exact hF
  have hsz := (hits_le k1 k2).trans (C83_size B offsets tol eps g rest hs E hE).2
  have hz := jacobian_apart hW h1 k2 k1 hj
  obtain ⟨grad', g1, g2⟩ := getGradient_eq hs.skeleton hs.parents k1 k2 hW hne h1 hz hF' hlen hcl (fun _ => 0)
  obtain ⟨s', j1, j2, j3, j5, j6⟩ := getJacobian_eq hs.skeleton hs.parents k1 k2 hW h1 hz hF' hlen
    hcl n (hsz.trans hrows) (fun _ _ => 0) (fun _ => 0)
  rw [g1] at hx
  rw [j1] at hj
  simp only [Option.some.injEq, Prod.mk.injEq] at hj hx
  obtain ⟨rfl, rfl⟩ := hj
  obtain ⟨⟨-, rfl⟩, -⟩ := hx
  have hwt : E1.weight = E.weight := congrArg ErrorBase.weight k3
  have hen : E1.enabledParameters = E.enabledParameters := congrArg ErrorBase.enabledParameters k3
  rw [← hen] at hi
  rw [g2 i hi, zero_add, j3, ← sum_range_getElem E1.simdHits]
  refine Finset.sum_congr rfl fun k hk => ?_
  have hk := Finset.mem_range.1 hk
  have e : E1.simdHits[k]? = some E1.simdHits[k] := List.getElem?_eq_getElem hk
  rw [(j6 k _ e).1, (j6 k _ e).2 i hi, e]
  simp only [Option.map_some, Option.getD_some, pairGrad, pairRow, hwt, zero_add]
  have := Real.mul_self_sqrt (mul_nonneg (by norm_num [kCollisionWeight] : 0 ≤ kCollisionWeight) hw)
  rw [mul_comm (E1.simdHits[k].2.2.overlap)]
  linear_combination (-(2 * (1 / E1.simdHits[k].2.2.distance)) *
    E1.toCollisionError.pairRate st (fun r => pt.transform.coeff r i) E1.simdHits[k] * E1.simdHits[k].2.2.overlap) * this

open SimdCollision CollisionError in
/-- What holds at a pose given by parameters, in general position. -/
theorem SimdCollision.at_pose {B : ErrorBase} {offsets : List ℝ} {tol eps : ℝ} {g : List (TaperedCapsule ℝ)}
    {rest : List (CapsuleState ℝ)} (hs : CollisionSetting B offsets tol g rest) {E : SimdCollision}
    (hE : E.Reached B offsets tol eps g) {pt : ParameterTransform ℝ} (hF : E.Fits pt) (hne : B.skeleton.joints ≠ [])
    (p : Nat → ℝ) {i : Nat} (hi : i < pt.transform.cols) {st : List JointState}
    (hst : B.stateFor pt (paramVec pt.transform.cols p) true = some st) :
    st ≠ [] ∧ st.length = B.skeleton.joints.length ∧ (∀ js ∈ st, js.derivDirty = false) ∧
      (∀ js ∈ st, 0 ≤ js.transform.scale) := by
  obtain ⟨θ, S, hG, hlen, hθ, hS, hcap⟩ := along hs (E := E.twin (watchedCount B.skeleton tol eps g rest))
    (SimdCollision.twin_kept (SimdCollision.reached_kept hs hE)) hF p hi
  have e0 : st = S (p i) := by
    have := hS (p i)
    rw [Function.update_eq_self, hst, Option.some.injEq] at this; exact this
  have hl : st.length = B.skeleton.joints.length := by rw [e0]; exact hlen _
  refine ⟨?_, hl, by rw [e0]; exact ErrorBase.clean_of_good (hG (p i)) (hlen _), by
    rw [e0]; exact scale_nonneg_of_good hs.skeleton (hG (p i)) (hlen (p i))⟩
  intro h0
  rw [h0, List.length_nil] at hl
  exact hne (List.length_eq_zero_iff.1 hl.symm)

open SimdCollision CollisionError in
/-- **C83**: the gradient is the derivative of the weighted sum of the squares of the true depths in every enabled parameter
that does not scale a joint, when the capsules of the watched pairs have constant radius and are in general position when
they overlap. -/
theorem C83_gradient_partial (B : ErrorBase) (offsets : List ℝ) (tol eps : ℝ) (heps : 0 < eps) (g : List (TaperedCapsule ℝ))
    (rest : List (CapsuleState ℝ)) (hs : CollisionSetting B offsets tol g rest) (E : SimdCollision)
    (hE : E.Reached B offsets tol eps g) (W : Nat) (hW : 0 < W) (pt : ParameterTransform ℝ) (hF : E.Fits pt)
    (hne : B.skeleton.joints ≠ [])
    (p : Nat → ℝ) (i : Nat) (hi : i < pt.transform.cols) (hen : E.enabledParameters.mem i = true)
    (hscale : ∀ j, pt.transform.coeff (7 * j + 6) i = 0)
    (hclear : ∀ q ∈ watchedPairs B.skeleton tol eps g rest,
      ClearPair tol eps (capsuleAt (posedCapsules B pt g p) q.1) (capsuleAt (posedCapsules B pt g p) q.2))
    (st : List JointState) (hst : B.stateFor pt (paramVec pt.transform.cols p) true = some st) (x : ℝ) (grad : Nat → ℝ)
    (E' : SimdCollision) (h : E.getGradient W st (fun _ => 0) = some ((x, grad), E')) :
    x = kCollisionWeight * E.weight * penetration (watchedPairs B.skeleton tol eps g rest) (posedCapsules B pt g p) ∧
    HasDerivAt (fun u => kCollisionWeight * E.weight *
      penetration (watchedPairs B.skeleton tol eps g rest) (posedCapsules B pt g (Function.update p i u))) (grad i) (p i) := by
  obtain ⟨hne', hl, hcl, hsc⟩ := SimdCollision.at_pose hs hE hF hne p hi hst
  obtain ⟨E1, h1⟩ := phase_of_gradient hne' h
  obtain ⟨k1, k2, k3⟩ := phase hs hE hsc h1
  have hF' : E1.toErrorBase.Fits pt := by rw [k3]; exact hF
  obtain ⟨grad', q1, q2⟩ := getGradient_eq hs.skeleton hs.parents k1 k2 hW hne' h1 (gradient_apart hW hne' h1 k2 k1 h) hF' hl hcl
    (fun _ => 0)
  rw [q1] at h
  simp only [Option.some.injEq, Prod.mk.injEq] at h
  obtain ⟨⟨rfl, rfl⟩, rfl⟩ := h
  have hcs := k2.posed.caps
  rw [k1.core.geometry] at hcs
  have hwt : E1.weight = E.weight := congrArg ErrorBase.weight k3
  have hen' : E1.enabledParameters.mem i = true := by rw [congrArg ErrorBase.enabledParameters k3]; exact hen
  have hpc : posedCapsules B pt g p = E1.collisionState := by
    unfold posedCapsules
    rw [hst, Option.bind_some, hcs]; rfl
  rw [hpc] at hclear
  have hperm := simd_hits_clear hs.htol hs.radii hsc k1 k2 hclear
  have hT := SimdCollision.twin_kept k1
  have hP : (E1.twin (watchedCount B.skeleton tol eps g rest)).Posed st := ⟨k2.posed.caps⟩
  constructor
  · rw [hpc, ← hwt, (hperm.map _).sum_eq]
    exact hits_error hs hT hP hsc hclear
  · rw [q2 i hen', zero_add, ← hwt, (hperm.map _).sum_eq]
    exact hits_gradient heps hs hT hF' p hi hscale hst hP hclear

open SimdCollision CollisionError in
/-- **C83**: every row of the Jacobian belongs to a watched pair of its own; its residual is the weighted true depth of the
pair, but its entries are twice the derivative of that residual. -/
theorem C83_jacobian_twice (B : ErrorBase) (offsets : List ℝ) (tol eps : ℝ) (heps : 0 < eps) (g : List (TaperedCapsule ℝ))
    (rest : List (CapsuleState ℝ)) (hs : CollisionSetting B offsets tol g rest) (E : SimdCollision)
    (hE : E.Reached B offsets tol eps g) (W : Nat) (hW : 0 < W) (pt : ParameterTransform ℝ) (hF : E.Fits pt)
    (hne : B.skeleton.joints ≠ [])
    (p : Nat → ℝ) (i : Nat) (hi : i < pt.transform.cols) (hen : E.enabledParameters.mem i = true)
    (hscale : ∀ j, pt.transform.coeff (7 * j + 6) i = 0)
    (hclear : ∀ q ∈ watchedPairs B.skeleton tol eps g rest,
      ClearPair tol eps (capsuleAt (posedCapsules B pt g p) q.1) (capsuleAt (posedCapsules B pt g p) q.2))
    (st : List JointState) (hst : B.stateFor pt (paramVec pt.transform.cols p) true = some st) (n : Nat)
    (hrows : E.getJacobianSize ≤ n) (s : JacobianResult) (E' : SimdCollision)
    (h : E.getJacobian W st n (fun _ _ => 0) (fun _ => 0) = some (s, E')) :
    ∃ L : List (Nat × Nat), L.Nodup ∧ L.length = s.rows ∧ (∀ q ∈ L, q ∈ watchedPairs B.skeleton tol eps g rest) ∧
      ∀ t q, L[t]? = some q →
        s.residual t = Real.sqrt (kCollisionWeight * E.weight) *
          capsuleDepth (capsuleAt (posedCapsules B pt g p) q.1) (capsuleAt (posedCapsules B pt g p) q.2) ∧
        HasDerivAt (fun u => Real.sqrt (kCollisionWeight * E.weight) *
          capsuleDepth (capsuleAt (posedCapsules B pt g (Function.update p i u)) q.1)
            (capsuleAt (posedCapsules B pt g (Function.update p i u)) q.2)) (s.e i t / 2) (p i) := by
  obtain ⟨hne', hl, hcl, hsc⟩ := SimdCollision.at_pose hs hE hF hne p hi hst
  obtain ⟨E1, h1⟩ := phase_of_jacobian h
  obtain ⟨k1, k2, k3⟩ := phase hs hE hsc h1
  have hF' : E1.toErrorBase.Fits pt := by rw [k3]; exact hF
  have hsz := (hits_le k1 k2).trans (C83_size B offsets tol eps g rest hs E hE).2
  obtain ⟨s', j1, j2, j3, j5, j6⟩ := getJacobian_eq hs.skeleton hs.parents k1 k2 hW h1 (jacobian_apart hW h1 k2 k1 h) hF' hl
    hcl n (hsz.trans hrows) (fun _ _ => 0) (fun _ => 0)
  rw [j1] at h
  simp only [Option.some.injEq, Prod.mk.injEq] at h
  obtain ⟨rfl, rfl⟩ := h
  have hcs := k2.posed.caps
  rw [k1.core.geometry] at hcs
  have hwt : E1.weight = E.weight := congrArg ErrorBase.weight k3
  have hen' : E1.enabledParameters.mem i = true := by rw [congrArg ErrorBase.enabledParameters k3]; exact hen
  have hpc : posedCapsules B pt g p = E1.collisionState := by
    unfold posedCapsules
    rw [hst, Option.bind_some, hcs]; rfl
  rw [hpc] at hclear ⊢
  have hperm := simd_hits_clear hs.htol hs.radii hsc k1 k2 hclear
  have hT := SimdCollision.twin_kept k1
  have hP : (E1.twin (watchedCount B.skeleton tol eps g rest)).Posed st := ⟨k2.posed.caps⟩
  obtain ⟨r1, r2, r3⟩ := hits_rows heps hs hT hF' p hi hscale hst hP hclear E1.simdHits hperm
  refine ⟨E1.simdHits.map fun h => sortPair (h.1, h.2.1), r1, by rw [List.length_map, j3], r2, ?_⟩
  intro t q hq
  rw [List.getElem?_map, Option.map_eq_some_iff] at hq
  obtain ⟨hh, hk, rfl⟩ := hq
  obtain ⟨m1, m2⟩ := r3 t hh hk
  rw [(j6 t hh hk).1, (j6 t hh hk).2 i hen', zero_add, ← hwt]
  exact ⟨m1, m2⟩

open SimdCollision CollisionError in
/-- **C83**: both collision error functions have the same error and, in every enabled parameter that does not scale a joint,
the same gradient, for the same settings, any width of the packets and whatever was done with either before; when the
capsules of the watched pairs have constant radius and are in general position when they overlap. -/
theorem C83_same (B : ErrorBase) (offsets : List ℝ) (tol eps : ℝ) (heps : 0 < eps) (g : List (TaperedCapsule ℝ))
    (rest : List (CapsuleState ℝ)) (hs : CollisionSetting B offsets tol g rest) (E : SimdCollision)
    (hE : E.Reached B offsets tol eps g) (W : Nat) (hW : 0 < W) (F : CollisionError) (hF : F.Reached B offsets tol eps g)
    (hbase : F.toErrorBase = E.toErrorBase) (pt : ParameterTransform ℝ) (hfit : E.Fits pt) (hne : B.skeleton.joints ≠ [])
    (p : Nat → ℝ)
    (hclear : ∀ q ∈ watchedPairs B.skeleton tol eps g rest,
      ClearPair tol eps (capsuleAt (posedCapsules B pt g p) q.1) (capsuleAt (posedCapsules B pt g p) q.2))
    (st : List JointState) (hst : B.stateFor pt (paramVec pt.transform.cols p) true = some st) (x y : ℝ)
    (gradE gradF : Nat → ℝ) (E' : SimdCollision) (F' : CollisionError)
    (h1 : E.getGradient W st (fun _ => 0) = some ((x, gradE), E'))
    (h2 : F.getGradient st (fun _ => 0) = some ((y, gradF), F')) (i : Nat) (hi : i < pt.transform.cols)
    (hen : E.enabledParameters.mem i = true) (hscale : ∀ j, pt.transform.coeff (7 * j + 6) i = 0) :
    x = y ∧ gradE i = gradF i := by
  obtain ⟨a1, a2⟩ := C83_gradient_partial B offsets tol eps heps g rest hs E hE W hW pt hfit hne p i hi hen hscale hclear st
    hst x gradE E' h1
  obtain ⟨b1, b2⟩ := C67_gradient_partial B offsets tol eps heps g rest hs F hF pt (by rw [hbase]; exact hfit) hne p i hi
    (by rw [hbase]; exact hen) hscale hclear st hst y gradF F' h2
  rw [hbase] at b1 b2
  exact ⟨a1.trans b1.symm, a2.unique b2⟩

end Momentum
