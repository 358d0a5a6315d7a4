import Verif.Lemmas.SimdCollision2
import Verif.Lemmas.CollisionStateless

/-!
# The evaluations of the collision error function with SIMD packets
-/

namespace Momentum
open Skeleton
namespace SimdCollision
open CollisionError

/-- The stored pairs that take part. -/
noncomputable def simdHits (E : SimdCollision) : List (Nat × Nat × OverlapInfo) :=
  (flatPairs E.candidates 0).filterMap E.simdHit

/-- One stored pair, when only those that take part matter. -/
noncomputable def hitStep {τ : Type} (E : SimdCollision) (f : τ → Nat → Nat → OverlapInfo → Option τ) (t : τ) (p : Nat × Nat) :
    Option τ :=
  match E.simdHit p with
  | none => some t
  | some h => f t h.1 h.2.1 h.2.2

theorem foldlM_hitStep {τ : Type} (E : SimdCollision) (f : τ → Nat → Nat → OverlapInfo → Option τ) (l : List (Nat × Nat)) :
    ∀ t : τ, l.foldlM (E.hitStep f) t = (l.filterMap E.simdHit).foldlM (fun t h => f t h.1 h.2.1 h.2.2) t := by
  induction l with
  | nil => intro t; rfl
  | cons p l ih =>
    intro t
    rw [List.foldlM_cons, List.filterMap_cons]
    unfold hitStep
    cases E.simdHit p with
    | none => exact ih t
    | some h =>
      simp only [List.foldlM_cons]
      congr 1
      funext t'
      exact ih t'

section
variable {skel : Skeleton ℝ} {tol eps : ℝ} {g : List (TaperedCapsule ℝ)} {rest : List (CapsuleState ℝ)}
  {E E' : SimdCollision} {st : List JointState}

theorem state_length (hK : E.Kept skel tol eps g rest) (hC : Current skel tol eps g rest st E) :
    E.collisionState.length = g.length := by
  have := (capsules_spec hC.posed.caps).1
  rw [hK.core.geometry] at this; exact this

theorem mem_simdHits (hC : Current skel tol eps g rest st E) {h : Nat × Nat × OverlapInfo}
    (hh : h ∈ E.simdHits) : h.1 < h.2.1 ∧ h.2.1 < g.length ∧ Watched skel tol eps g rest h.1 h.2.1 ∧
      (h.1, h.2.1) ∈ flatPairs E.candidates 0 ∧
      h.2.2 = simdInfo (capsuleAt E.collisionState h.1) (capsuleAt E.collisionState h.2.1) ∧ 0 < h.2.2.overlap := by
  unfold simdHits at hh
  rw [List.mem_filterMap] at hh
  obtain ⟨p, hp, hh⟩ := hh
  unfold simdHit at hh
  split at hh
  · rename_i ho
    rw [← Option.some.inj hh]
    exact ⟨(hC.watched p hp).1, (hC.watched p hp).2.1, (hC.watched p hp).2.2, hp, rfl, ho⟩
  · cases hh

/-- The loops over the packets go over the stored pairs that take part. -/
theorem forCandidates_hits {σ τ : Type} (hK : E.Kept skel tol eps g rest) (hC : Current skel tol eps g rest st E) {W : Nat}
    (hW : 0 < W) (R : σ → τ → Prop) (f : σ → Nat → Nat → Nat → OverlapInfo → Option σ)
    (f' : τ → Nat → Nat → OverlapInfo → Option τ)
    (h1 : ∀ k < W, ∀ s t i j r, r.overlap ≤ 0 → R s t → ∃ s', f s k i j r = some s' ∧ R s' t)
    (h2 : ∀ h ∈ E.simdHits, ∀ k < W, ∀ s t t', R s t → f' t h.1 h.2.1 h.2.2 = some t' →
      ∃ s', f s k h.1 h.2.1 h.2.2 = some s' ∧ R s' t') (s : σ) (t t' : τ) (hR : R s t)
    (ht : E.simdHits.foldlM (fun t h => f' t h.1 h.2.1 h.2.2) t = some t') :
    ∃ s', E.forCandidates W f s = some s' ∧ R s' t' := by
  have hl := state_length hK hC
  refine forCandidates_mirror E W hW R f (E.hitStep f') ?_ s t t' hR (by rw [foldlM_hitStep]; exact ht)
  intro i j hij k hk s t t' hR ht
  obtain ⟨p1, p2, -⟩ := hC.watched _ hij
  refine ⟨capsuleAt E.collisionState i, capsuleAt E.collisionState j, ?_⟩
  have e1 : E.collisionState[i]? = some (capsuleAt E.collisionState i) := capsuleAt_eq (by simp only at p1 p2; omega)
  have e2 : E.collisionState[j]? = some (capsuleAt E.collisionState j) := capsuleAt_eq (by simp only at p1 p2; omega)
  by_cases ho : 0 < (simdInfo (capsuleAt E.collisionState i) (capsuleAt E.collisionState j)).overlap
  · have hh : E.simdHit (i, j) = some (i, j, simdInfo (capsuleAt E.collisionState i) (capsuleAt E.collisionState j)) := by
      unfold simdHit; rw [if_pos ho]
    unfold hitStep at ht
    rw [hh] at ht
    have hm : (i, j, simdInfo (capsuleAt E.collisionState i) (capsuleAt E.collisionState j)) ∈ E.simdHits :=
      List.mem_filterMap.2 ⟨_, hij, hh⟩
    obtain ⟨s', q1, q2⟩ := h2 _ hm k hk s t t' hR ht
    exact ⟨s', e1, e2, q1, q2⟩
  · have hh : E.simdHit (i, j) = none := by
      unfold simdHit; rw [if_neg ho]
    unfold hitStep at ht
    rw [hh] at ht
    obtain ⟨s', q1, q2⟩ := h1 k hk s t i j (simdInfo (capsuleAt E.collisionState i) (capsuleAt E.collisionState j))
      (not_lt.1 ho) hR
    exact ⟨s', e1, e2, q1, (Option.some.inj ht) ▸ q2⟩

theorem simd_linked (hv : skel.Valid) (hpar : ∀ tc ∈ g, tc.parent < skel.joints.length) (hK : E.Kept skel tol eps g rest)
    (hC : Current skel tol eps g rest st E) {h : Nat × Nat × OverlapInfo} (hh : h ∈ E.simdHits) :
    E.toCollisionError.Linked h := by
  obtain ⟨h1, h2, hw, -, -, -⟩ := mem_simdHits hC hh
  have hl := state_length hK hC
  obtain ⟨ga, gb, c, g1, g2, c1, c2⟩ := hK.core.common _ _ h1 hw
  have p1 := hpar ga (List.mem_of_getElem? g1)
  have p2 := hpar gb (List.mem_of_getElem? g2)
  obtain ⟨c', hc, a1, a2, _⟩ := C07_commonAncestor_partial skel hv _ _ p1 p2 ⟨c, c1, c2⟩
  have hg : E.collisionGeometry = g := hK.core.geometry
  have hs : E.skeleton = skel := hK.core.skeleton_eq
  unfold Linked
  refine ⟨ga.parent, gb.parent, c', (capsuleAt E.collisionState h.1).origin + h.2.2.s • (capsuleAt E.collisionState h.1).direction,
    (capsuleAt E.collisionState h.2.1).origin + h.2.2.t • (capsuleAt E.collisionState h.2.1).direction, ?_, by rw [hs]; exact p1,
    by rw [hs]; exact p2, by rw [hs]; exact a1, by rw [hs]; exact a2⟩
  unfold pairData
  rw [hg, g1, g2]
  simp only [Option.bind_eq_bind, Option.bind_some]
  rw [hs, hc]
  simp only [Option.bind_some, capsuleAt_eq (show h.1 < E.collisionState.length by omega),
    capsuleAt_eq (show h.2.1 < E.collisionState.length by omega)]

theorem laneSum_zero (W : Nat) : laneSum W (fun _ => 0) = 0 := by
  unfold laneSum
  induction W with
  | zero => rfl
  | succ n ih => rw [List.range_succ, List.map_append, List.sum_append, ih]; simp

theorem gradPair_split {C : CollisionError} {x : ℝ} {v : Nat → ℝ} {i j : Nat} {r : OverlapInfo} {q : ℝ × (Nat → ℝ)}
    (h : C.gradPair st (x, v) i j r = some q) :
    C.gradPair st (0, v) i j r = some (0 + C.pairError r, q.2) ∧ q.1 = x + C.pairError r := by
  unfold CollisionError.gradPair at h ⊢
  simp only [Option.bind_eq_bind, Option.bind_eq_some_iff, Option.some.injEq] at h ⊢
  obtain ⟨d, h1, g1, h2, g2, h3, rfl⟩ := h
  exact ⟨⟨d, h1, g1, h2, g2, h3, rfl⟩, rfl⟩

theorem jacPair_error {C : CollisionError} {n : Nat} {s : JacobianResult} {i j : Nat} {r : OverlapInfo} {q : JacobianResult}
    (h : C.jacPair st n s i j r = some q) : q.error = s.error + C.pairError r := by
  unfold CollisionError.jacPair at h
  simp only [Option.bind_eq_bind, Option.bind_eq_some_iff] at h
  obtain ⟨d, h1, h2⟩ := h
  split at h2
  · simp only [Option.bind_eq_some_iff, Option.some.injEq] at h2
    obtain ⟨e1, _, e2, _, rfl⟩ := h2
    rfl
  · cases h2

/-- `getError` after the broad phase. -/
theorem getError_eq (hK : E'.Kept skel tol eps g rest) (hC : Current skel tol eps g rest st E') {W : Nat} (hW : 0 < W)
    (hne : st ≠ []) (hb : E.computeBroadPhase st = some E') :
    E.getError W st = some ((E'.simdHits.map fun h => E'.toCollisionError.pairError h.2.2).sum, E') := by
  have hsum : ∀ (l : List (Nat × Nat × OverlapInfo)) (x : ℝ),
      l.foldlM (fun t (h : Nat × Nat × OverlapInfo) => some (t + h.2.2.overlap ^ 2)) x =
        some (x + (l.map fun h => h.2.2.overlap ^ 2).sum) := by
    intro l
    induction l with
    | nil => intro x; simp
    | cons h l ih =>
      intro x
      rw [List.foldlM_cons]
      simp only [Option.bind_eq_bind, Option.bind_some, ih, List.map_cons, List.sum_cons, add_assoc]
  obtain ⟨s, k1, k2⟩ := forCandidates_hits hK hC hW (fun s t => laneSum W s = t) errorLane
    (fun t _ _ r => some (t + r.overlap ^ 2))
    (fun k hk s t i j r hr hR => ⟨_, rfl, by rw [laneSum_addLane W _ hk, max_eq_right hr, hR]; simp⟩)
    (fun h hh k hk s t t' hR ht => ⟨_, rfl, by
      rw [laneSum_addLane W _ hk, max_eq_left (mem_simdHits hC hh).2.2.2.2.2.le, hR, ← Option.some.inj ht]⟩)
    (fun _ => 0) 0 _ (laneSum_zero W) (hsum _ _)
  have hem : ¬ (st.isEmpty = true) := fun h => hne (List.isEmpty_iff.1 h)
  unfold getError
  rw [if_neg hem, hb]
  simp only [Option.bind_eq_bind, Option.bind_some]
  rw [k1]
  simp only [Option.bind_some, Option.some.injEq, Prod.mk.injEq, and_true]
  rw [k2, zero_add]
  have : ∀ l : List (Nat × Nat × OverlapInfo), (l.map fun h => h.2.2.overlap ^ 2).sum * kCollisionWeight * E'.weight =
      (l.map fun h => E'.toCollisionError.pairError h.2.2).sum := by
    intro l
    induction l with
    | nil => simp
    | cons h l ih =>
      simp only [List.map_cons, List.sum_cons, CollisionError.pairError] at ih ⊢
      rw [← ih]; ring
  exact this _

theorem pairError_lane (C : CollisionError) (r : OverlapInfo) :
    kCollisionWeight * C.weight * r.overlap ^ 2 = C.pairError r := by
  unfold CollisionError.pairError; ring

/-- `getGradient` after the broad phase. -/
theorem getGradient_eq (hv : skel.Valid) (hpar : ∀ tc ∈ g, tc.parent < skel.joints.length)
    (hK : E'.Kept skel tol eps g rest) (hC : Current skel tol eps g rest st E') {W : Nat} (hW : 0 < W)
    (hne : st ≠ []) (hb : E.computeBroadPhase st = some E') (hz : ∀ h ∈ E'.simdHits, h.2.2.distance ≠ 0)
    {pt : ParameterTransform ℝ} (hF : E'.toErrorBase.Fits pt) (hlen : st.length = skel.joints.length)
    (hcl : ∀ js ∈ st, js.derivDirty = false) (g0 : Nat → ℝ) :
    ∃ grad, E.getGradient W st g0 =
        some (((E'.simdHits.map fun h => E'.toCollisionError.pairError h.2.2).sum, grad), E') ∧
      ∀ i, E'.enabledParameters.mem i = true →
        grad i = g0 i + (E'.simdHits.map (E'.toCollisionError.pairGrad st fun r => pt.transform.coeff r i)).sum := by
  have hs : E'.skeleton = skel := hK.core.skeleton_eq
  obtain ⟨s', f1, f2, f3⟩ := gradFold (E := E'.toCollisionError) hF (by rw [hs]; exact hlen) hcl E'.simdHits
    (fun h hh => simd_linked hv hpar hK hC hh) (0, g0)
  obtain ⟨s, k1, k2, k3⟩ := forCandidates_hits hK hC hW
    (fun (s : (Nat → ℝ) × (Nat → ℝ)) (t : ℝ × (Nat → ℝ)) => laneSum W s.1 = t.1 ∧ s.2 = t.2) (E'.gradLane st)
    (E'.toCollisionError.gradPair st)
    (fun k hk s t i j r hr hR => ⟨s, by unfold gradLane; rw [if_neg (not_lt.2 hr)], hR⟩)
    (fun h hh k hk s t t' hR ht => by
      obtain ⟨q1, q2⟩ := gradPair_split (x := t.1) (v := t.2) ht
      refine ⟨(addLane s.1 k (kCollisionWeight * E'.weight * h.2.2.overlap ^ 2), t'.2), ?_, ?_, rfl⟩
      · unfold gradLane
        rw [if_pos (mem_simdHits hC hh).2.2.2.2.2, if_neg (hz h hh), hR.2, q1]
        rfl
      · rw [q2]
        simp only
        rw [laneSum_addLane W _ hk, hR.1, pairError_lane])
    (fun _ => 0, g0) (0, g0) s' ⟨laneSum_zero W, rfl⟩ f1
  refine ⟨s'.2, ?_, f3⟩
  have hem : ¬ (st.isEmpty = true) := fun h => hne (List.isEmpty_iff.1 h)
  unfold getGradient
  rw [if_neg hem, hb]
  simp only [Option.bind_eq_bind, Option.bind_some]
  rw [k1]
  simp only [Option.bind_some, Option.some.injEq, Prod.mk.injEq, and_true]
  exact ⟨by rw [k2, f2, zero_add], k3⟩

/-- `getJacobian` after the broad phase. -/
theorem getJacobian_eq (hv : skel.Valid) (hpar : ∀ tc ∈ g, tc.parent < skel.joints.length)
    (hK : E'.Kept skel tol eps g rest) (hC : Current skel tol eps g rest st E') {W : Nat} (hW : 0 < W)
    (hb : E.computeBroadPhase st = some E') (hz : ∀ h ∈ E'.simdHits, h.2.2.distance ≠ 0)
    {pt : ParameterTransform ℝ} (hF : E'.toErrorBase.Fits pt) (hlen : st.length = skel.joints.length)
    (hcl : ∀ js ∈ st, js.derivDirty = false) (n : Nat) (hn : E'.simdHits.length ≤ n) (J0 : Nat → Nat → ℝ) (r0 : Nat → ℝ) :
    ∃ s, E.getJacobian W st n J0 r0 = some (s, E') ∧
      s.error = (E'.simdHits.map fun h => E'.toCollisionError.pairError h.2.2).sum ∧ s.rows = E'.simdHits.length ∧
      (∀ t, E'.simdHits.length ≤ t → s.residual t = r0 t ∧ ∀ i, E'.enabledParameters.mem i = true → s.e i t = J0 i t) ∧
      ∀ k h, E'.simdHits[k]? = some h →
        s.residual k = h.2.2.overlap * Real.sqrt (kCollisionWeight * E'.weight) ∧
        ∀ i, E'.enabledParameters.mem i = true →
          s.e i k = J0 i k + E'.toCollisionError.pairRow st (fun r => pt.transform.coeff r i) h := by
  have hs : E'.skeleton = skel := hK.core.skeleton_eq
  obtain ⟨s', f1, f2, f3, f4, f5⟩ := jacFold (E := E'.toCollisionError) hF (by rw [hs]; exact hlen) hcl (n := n) E'.simdHits
    (fun h hh => simd_linked hv hpar hK hC hh) ⟨0, 0, J0, r0⟩ (by simpa using hn)
  obtain ⟨s, k1, k2, k3⟩ := forCandidates_hits hK hC hW
    (fun (s : (Nat → ℝ) × JacobianResult) (t : JacobianResult) => laneSum W s.1 = t.error ∧ s.2 = t) (E'.jacLane st n)
    (E'.toCollisionError.jacPair st n)
    (fun k hk s t i j r hr hR => ⟨s, by unfold jacLane; rw [if_neg (not_lt.2 hr)], hR⟩)
    (fun h hh k hk s t t' hR ht => by
      refine ⟨(addLane s.1 k (kCollisionWeight * E'.weight * h.2.2.overlap ^ 2), t'), ?_, ?_, rfl⟩
      · unfold jacLane
        rw [if_pos (mem_simdHits hC hh).2.2.2.2.2, if_neg (hz h hh), hR.2, ht]
        rfl
      · simp only
        rw [laneSum_addLane W _ hk, hR.1, pairError_lane, jacPair_error ht])
    (fun _ => 0, ⟨0, 0, J0, r0⟩) ⟨0, 0, J0, r0⟩ s' ⟨laneSum_zero W, rfl⟩ f1
  refine ⟨s', ?_, by rw [f2, zero_add], by rw [f3, Nat.zero_add], ?_, ?_⟩
  · unfold getJacobian
    rw [hb]
    simp only [Option.bind_eq_bind, Option.bind_some]
    rw [k1]
    simp only [Option.bind_some, Option.some.injEq, Prod.mk.injEq, and_true]
    rw [k2, k3]
  · intro t ht
    exact f4 t (Or.inr (by simpa using ht))
  · intro k h hk
    have := f5 k h hk
    simpa using this

/-! ## In general position -/

theorem twin_kept (hK : E.Kept skel tol eps g rest) : (E.twin (watchedCount skel tol eps g rest)).Kept skel tol eps g rest := by
  have k := hK.core
  refine ⟨k.skeleton_eq, k.tol_eq, k.eps_eq, k.geometry, k.excluded, k.size, k.common, ?_⟩
  have hg : E.collisionGeometry = g := k.geometry
  simp only [twin, hg, List.map_map]
  have : ((fun b : Box ℝ => b.id) ∘ fun i => (⟨0, 0, i⟩ : Box ℝ)) = id := rfl
  rw [this, List.map_id]

theorem twin_order (E : SimdCollision) (n : Nat) : (E.twin n).order = allIJ E.collisionGeometry.length := by
  unfold CollisionError.order twin
  simp only [List.map_map]
  have : ((fun b : Box ℝ => b.id) ∘ fun i => (⟨0, 0, i⟩ : Box ℝ)) = id := rfl
  rw [this, List.map_id, distinctPairs_range]

theorem simdInfo_const {a b : CapsuleState ℝ} (ha : a.radius1 = a.radius0) (hb : b.radius1 = b.radius0) :
    IsClosestPair a.origin a.direction b.origin b.direction (simdInfo a b).s (simdInfo a b).t ∧
    (simdInfo a b).distance = segmentDistance a.origin a.direction b.origin b.direction ∧
    (simdInfo a b).overlap = a.radius0 + b.radius0 - segmentDistance a.origin a.direction b.origin b.direction := by
  have hc := simdSegments_closest a.origin a.direction b.origin b.direction
  have hd : (simdInfo a b).distance = segmentDistance a.origin a.direction b.origin b.direction :=
    (segmentDistance_eq hc).symm
  refine ⟨hc, hd, ?_⟩
  have : (simdInfo a b).overlap = (a.radius0 * (1 - (simdInfo a b).s) + a.radius1 * (simdInfo a b).s) +
      (b.radius0 * (1 - (simdInfo a b).t) + b.radius1 * (simdInfo a b).t) - (simdInfo a b).distance := rfl
  rw [this, hd, ha, hb]; ring

theorem simd_hits_clear (htol : 0 < tol) (hr : ∀ tc ∈ g, 0 ≤ tc.radius0 ∧ 0 ≤ tc.radius1)
    (hsc : ∀ js ∈ st, 0 ≤ js.transform.scale) (hK : E.Kept skel tol eps g rest) (hC : Current skel tol eps g rest st E)
    (hclear : ∀ p ∈ watchedPairs skel tol eps g rest,
      ClearPair tol eps (capsuleAt E.collisionState p.1) (capsuleAt E.collisionState p.2)) :
    E.simdHits.Perm (E.twin (watchedCount skel tol eps g rest)).hits := by
  classical
  have hT := twin_kept hK
  have hP : (E.twin (watchedCount skel tol eps g rest)).Posed st := ⟨hC.posed.caps⟩
  have hg : E.collisionGeometry = g := hK.core.geometry
  have hl := state_length hK hC
  have hval := valid_states hT hP hr hsc
  refine hC.hits.trans ?_
  rw [CollisionError.hits, twin_order, hg, List.filterMap_filter]
  refine List.Perm.of_eq (List.filterMap_congr fun p hp => ?_)
  obtain ⟨p1, p2⟩ := mem_allIJ.1 hp
  have hord : p ∈ (E.twin (watchedCount skel tol eps g rest)).order := by
    rw [twin_order, hg]; exact hp
  obtain ⟨m1, m2⟩ := hit_eq hT hP hord
  have hsp : sortPair p = p := by simp [sortPair, p1.le]
  rw [hsp] at m1 m2
  by_cases hw : Watched skel tol eps g rest p.1 p.2
  · rw [if_pos (by simpa using hw)]
    have hcl := hclear p (by
      simp only [watchedPairs, Finset.mem_filter, Finset.mem_product, Finset.mem_range]
      exact ⟨⟨by omega, p2⟩, p1, hw⟩)
    have v1 : (capsuleAt E.collisionState p.1).Valid := hval _ (List.mem_of_getElem? (capsuleAt_eq (show p.1 < E.collisionState.length by omega)))
    have v2 : (capsuleAt E.collisionState p.2).Valid := hval _ (List.mem_of_getElem? (capsuleAt_eq (show p.2 < E.collisionState.length by omega)))
    obtain ⟨i1, i2⟩ := Momentum.clear_info htol v1 v2 hcl
    obtain ⟨c1, c2, c3⟩ := simdInfo_const hcl.constA hcl.constB
    by_cases ho : overlaps tol eps (capsuleAt E.collisionState p.1) (capsuleAt E.collisionState p.2) = true
    · obtain ⟨r, r1, r2⟩ := m1 hw ho
      have r1' : overlapInfo tol (capsuleAt E.collisionState p.1) (capsuleAt E.collisionState p.2) = some r := r1
      obtain ⟨q1, q2, q3, q4, q5⟩ := i2 r ho r1'
      have hlt := i1.1 ho
      obtain ⟨u1, u2⟩ := closest_pair_unique (lt_of_lt_of_le htol q5) c1 q1
      rw [r2]
      unfold simdHit
      rw [if_pos (by rw [c3]; linarith)]
      have : simdInfo (capsuleAt E.collisionState p.1) (capsuleAt E.collisionState p.2) = r := by
        have e3 : (simdInfo (capsuleAt E.collisionState p.1) (capsuleAt E.collisionState p.2)).distance = r.distance :=
          c2.trans q2.symm
        have e4 : (simdInfo (capsuleAt E.collisionState p.1) (capsuleAt E.collisionState p.2)).overlap = r.overlap := by
          rw [c3, q3, capsuleDepth, max_eq_right (by linarith)]
        obtain ⟨s, t, d, o⟩ := r
        simp only at u1 u2 e3 e4
        rw [← u1, ← u2, ← e3, ← e4]
      rw [this]
    · rw [m2 fun h => ho h.2]
      unfold simdHit
      rw [if_neg]
      rw [c3]
      have := i1.not.1 ho
      linarith
  · rw [if_neg (by simpa using hw), m2 fun h => hw h.1]

end
end SimdCollision
end Momentum
