import Verif.Lemmas.CollisionError3

/-!
# Sums over the pairs that take part, and the three evaluations
-/

namespace Momentum
open Skeleton
namespace CollisionError

section
variable {skel : Skeleton ℝ} {tol eps : ℝ} {g : List (TaperedCapsule ℝ)} {rest : List (CapsuleState ℝ)} {E : CollisionError}
  {st : List JointState}

theorem capsuleAt_eq {g : List (TaperedCapsule ℝ)} {st : List JointState} {cs : List (CapsuleState ℝ)}
    (h : capsules g st = some cs) {a : Nat} {ga : TaperedCapsule ℝ} (ha : g[a]? = some ga) :
    capsuleAt cs a = capsuleIn st ga ∧ cs[a]? = some (capsuleIn st ga) := by
  have := ((capsules_spec h).2 a ga ha).2
  refine ⟨?_, this⟩
  unfold capsuleAt
  rw [List.getD_eq_getElem?_getD, this]; rfl

/-- What is reported as the depth of an overlap, zero when none is reported. -/
theorem hit_eq (hK : E.Kept skel tol eps g rest) (hC : E.Posed st) {p : Nat × Nat} (hp : p ∈ E.order) : 
    (Watched skel tol eps g rest (sortPair p).1 (sortPair p).2 →
      overlaps tol eps (capsuleAt E.collisionState p.1) (capsuleAt E.collisionState p.2) = true →
      ∃ r, overlapInfo tol (capsuleAt E.collisionState p.1) (capsuleAt E.collisionState p.2) = some r ∧
        E.hit p = some (p.1, p.2, r)) ∧
    (¬ (Watched skel tol eps g rest (sortPair p).1 (sortPair p).2 ∧
      overlaps tol eps (capsuleAt E.collisionState p.1) (capsuleAt E.collisionState p.2) = true) → E.hit p = none) := by
  obtain ⟨a, b⟩ := p
  obtain ⟨ha, hb, hab⟩ := ((allPairs_distinct hK.ids).mem a b).1 (Or.inl hp)
  have hl := (capsules_spec hC.caps).1
  rw [hK.geometry] at hl
  have e1 : E.collisionState[a]? = some (capsuleAt E.collisionState a) := by
    rw [capsuleAt, List.getD_eq_getElem?_getD, List.getElem?_eq_getElem (by omega : a < E.collisionState.length)]; rfl
  have e2 : E.collisionState[b]? = some (capsuleAt E.collisionState b) := by
    rw [capsuleAt, List.getD_eq_getElem?_getD, List.getElem?_eq_getElem (by omega : b < E.collisionState.length)]; rfl
  have hw := excluded_iff hK hab ha hb
  simp only [sortPair]
  constructor
  · intro h1 h2
    rw [← hw] at h1
    have : ∃ r, overlapInfo tol (capsuleAt E.collisionState a) (capsuleAt E.collisionState b) = some r := by
      unfold overlaps at h2
      split at h2
      · cases h2
      · rename_i r hr; exact ⟨r, hr⟩
    obtain ⟨r, hr⟩ := this
    refine ⟨r, hr, ?_⟩
    unfold hit narrowPhase
    rw [if_neg (by rw [h1]; simp), e1, e2, hK.tol_eq, hK.eps_eq]
    simp only [Option.bind_eq_bind, Option.bind_some, if_pos h2, hr]
    rfl
  · intro h
    unfold hit narrowPhase
    by_cases hx : E.excluded a b = true
    · rw [if_pos hx]; rfl
    · rw [if_neg hx]
      have h1 := hw.1 (by simpa using hx)
      have h2 : ¬ overlaps E.tol E.eps (capsuleAt E.collisionState a) (capsuleAt E.collisionState b) = true := by
        rw [hK.tol_eq, hK.eps_eq]; exact fun h2 => h ⟨h1, h2⟩
      simp only [e1, e2, Option.bind_eq_bind, Option.bind_some, if_neg h2]
      rfl

theorem sum_filterMap {α β : Type} (f : α → Option β) (F : β → ℝ) (l : List α) :
    ((l.filterMap f).map F).sum = (l.map fun x => ((f x).map F).getD 0).sum := by
  induction l with
  | nil => rfl
  | cons x l ih =>
    rw [List.filterMap_cons, List.map_cons, List.sum_cons, ← ih]
    cases f x with
    | none => simp
    | some y => simp

open Classical in
/-- A sum over the pairs that take part as a sum over the watched pairs. -/
theorem sum_hits (hK : E.Kept skel tol eps g rest) (f : Nat × Nat → ℝ) (hf : ∀ p, f p.swap = f p)
    (F : Nat × Nat × OverlapInfo → ℝ) (h1 : ∀ h ∈ E.hits, F h = f (h.1, h.2.1))
    (h2 : ∀ p ∈ E.order, Watched skel tol eps g rest (sortPair p).1 (sortPair p).2 → E.hit p = none → f p = 0) :
    (E.hits.map F).sum = ∑ p ∈ watchedPairs skel tol eps g rest, f p := by
  have hsort : ∀ p, f (sortPair p) = f p := by
    rintro ⟨a, b⟩
    rcases le_total a b with h | h
    · simp [sortPair, h]
    · rw [sortPair]; simp only [min_eq_right h, max_eq_left h]; exact hf (a, b)
  have e1 : (E.hits.map F).sum = (E.order.map fun p =>
      (fun q : Nat × Nat => if Watched skel tol eps g rest q.1 q.2 then f q else 0) (sortPair p)).sum := by
    unfold hits
    rw [sum_filterMap]
    congr 1
    refine List.map_congr_left fun p hp => ?_
    simp only
    by_cases hw : Watched skel tol eps g rest (sortPair p).1 (sortPair p).2
    · rw [if_pos hw, hsort]
      cases hh : E.hit p with
      | none => simp [h2 p hp hw hh]
      | some h =>
        have hm : h ∈ E.hits := List.mem_filterMap.2 ⟨p, hp, hh⟩
        have : (h.1, h.2.1) = p := by
          unfold hit at hh
          rw [Option.map_eq_some_iff] at hh
          obtain ⟨r, _, rfl⟩ := hh; rfl
        rw [Option.map_some, Option.getD_some, h1 h hm, this]
    · rw [if_neg hw]
      cases hh : E.hit p with
      | none => rfl
      | some h =>
        have hm : h ∈ E.hits := List.mem_filterMap.2 ⟨p, hp, hh⟩
        have : (h.1, h.2.1) = p := by
          unfold hit at hh
          rw [Option.map_eq_some_iff] at hh
          obtain ⟨r, _, rfl⟩ := hh; rfl
        obtain ⟨_, _, _, _, hw', _⟩ := mem_hits hK hm
        rw [← this] at hw
        exact absurd hw' hw
  rw [e1]
  have e2 := ((allPairs_perm (allPairs_distinct hK.ids)).map
    (fun q : Nat × Nat => if Watched skel tol eps g rest q.1 q.2 then f q else 0)).sum_eq
  rw [List.map_map] at e2
  have e3 : (E.order.map fun p =>
      (fun q : Nat × Nat => if Watched skel tol eps g rest q.1 q.2 then f q else 0) (sortPair p)).sum =
      ((allIJ g.length).map fun q => if Watched skel tol eps g rest q.1 q.2 then f q else 0).sum := e2
  rw [e3, ← List.sum_toFinset _ (nodup_allIJ _), ← Finset.sum_filter]
  refine Finset.sum_congr ?_ fun _ _ => rfl
  ext ⟨i, j⟩
  simp only [watchedPairs, Finset.mem_filter, List.mem_toFinset, mem_allIJ, Finset.mem_product, Finset.mem_range]
  constructor
  · rintro ⟨⟨a, b⟩, c⟩; exact ⟨⟨by omega, b⟩, a, c⟩
  · rintro ⟨⟨a, b⟩, c, d⟩; exact ⟨⟨c, b⟩, d⟩

open Classical in
theorem size_card (hK : E.Kept skel tol eps g rest) : E.jacobianSize = (watchedPairs skel tol eps g rest).card := by
  rw [hK.size, ← List.toFinset_card_of_nodup ((nodup_allIJ _).filter _)]
  congr 1
  ext ⟨i, j⟩
  simp only [watchedPairs, Finset.mem_filter, List.mem_toFinset, List.mem_filter, mem_allIJ, Finset.mem_product,
    Finset.mem_range, decide_eq_true_eq]
  constructor
  · rintro ⟨⟨a, b⟩, c⟩; exact ⟨⟨by omega, b⟩, a, c⟩
  · rintro ⟨⟨a, b⟩, c, d⟩; exact ⟨⟨c, b⟩, d⟩

theorem valid_states (hK : E.Kept skel tol eps g rest) (hC : E.Posed st) (hr : ∀ tc ∈ g, 0 ≤ tc.radius0 ∧ 0 ≤ tc.radius1)
    (hsc : ∀ js ∈ st, 0 ≤ js.transform.scale) : ∀ c ∈ E.collisionState, c.Valid := by
  intro c hc
  obtain ⟨a, ha, rfl⟩ := List.mem_iff_getElem.1 hc
  have hl := (capsules_spec hC.caps).1
  rw [hK.geometry] at hl
  have e : g[a]? = some (g[a]'(by omega)) := List.getElem?_eq_getElem _
  have hcap := hC.caps
  rw [hK.geometry] at hcap
  obtain ⟨p1, p2⟩ := (capsules_spec hcap).2 a _ e
  rw [List.getElem?_eq_getElem ha, Option.some.injEq] at p2
  rw [p2]
  have hm := hr (g[a]'(by omega)) (List.getElem_mem _)
  have hs : stateAt st (g[a]'(by omega)).parent ∈ st := by
    have e : st[(g[a]'(by omega)).parent]? = some (st[(g[a]'(by omega)).parent]'p1) := List.getElem?_eq_getElem _
    rw [stateAt_eq e]; exact List.getElem_mem _
  exact C44_update_valid _ _ (hsc _ hs) _ hm.1 hm.2

end

theorem hits_sublist (E : CollisionError) : (E.hits.map fun h => (h.1, h.2.1)).Sublist E.order := by
  unfold hits
  have : ∀ O : List (Nat × Nat), ((O.filterMap E.hit).map fun h => (h.1, h.2.1)).Sublist O := by
    intro O
    induction O with
    | nil => simp
    | cons p O ih =>
      rw [List.filterMap_cons]
      cases hp : E.hit p with
      | none => exact ih.cons p
      | some h =>
        have : (h.1, h.2.1) = p := by
          unfold hit at hp
          rw [Option.map_eq_some_iff] at hp
          obtain ⟨r, _, rfl⟩ := hp; rfl
        simp only [List.map_cons, this]
        exact ih.cons_cons p
  exact this _

theorem sum_range_getElem {α : Type} (l : List α) (F : α → ℝ) :
    ∑ k ∈ Finset.range l.length, ((l[k]?).map F).getD 0 = (l.map F).sum := by
  induction l with
  | nil => simp
  | cons x l ih =>
    rw [List.length_cons, Finset.sum_range_succ', List.map_cons, List.sum_cons, ← ih, add_comm]
    simp

theorem clear_order {skel : Skeleton ℝ} {tol eps : ℝ} {g : List (TaperedCapsule ℝ)} {rest cs : List (CapsuleState ℝ)}
    (hclear : ∀ p ∈ watchedPairs skel tol eps g rest, ClearPair tol eps (capsuleAt cs p.1) (capsuleAt cs p.2)) {a b : Nat}
    (hab : a ≠ b) (ha : a < g.length) (hb : b < g.length) (hw : Watched skel tol eps g rest (min a b) (max a b)) :
    ClearPair tol eps (capsuleAt cs a) (capsuleAt cs b) := by
  classical
  have hm : (min a b, max a b) ∈ watchedPairs skel tol eps g rest := by
    simp only [watchedPairs, Finset.mem_filter, Finset.mem_product, Finset.mem_range]
    exact ⟨by omega, by omega, hw⟩
  have h := hclear _ hm
  rcases le_total a b with hle | hle
  · simpa [hle] using h
  · have h' := h.symm
    simpa [hle] using h'

/-- What the evaluations need. -/
structure Ready (skel : Skeleton ℝ) (tol eps : ℝ) (g : List (TaperedCapsule ℝ)) (rest : List (CapsuleState ℝ))
    (E : CollisionError) (st : List JointState) : Prop where
  kept : E.Kept skel tol eps g rest
  htol : 0 < tol
  radii : ∀ tc ∈ g, 0 ≤ tc.radius0 ∧ 0 ≤ tc.radius1
  small : 2 * g.length < kRootParentIndex
  scales : ∀ js ∈ st, 0 ≤ js.transform.scale
  nonempty : st ≠ []

section
variable {skel : Skeleton ℝ} {tol eps : ℝ} {g : List (TaperedCapsule ℝ)} {rest : List (CapsuleState ℝ)} {E E' : CollisionError}
  {st : List JointState}

theorem Ready.forPairs {σ : Type} (hR : Ready skel tol eps g rest E st) (hK : E'.Kept skel tol eps g rest)
    (hC : E'.Current st) (f : σ → Nat → Nat → OverlapInfo → Option σ) (s : σ) :
    ∃ H : List (Nat × Nat × OverlapInfo), H.Perm E'.hits ∧ E'.forPairs f s = H.foldlM (fun s h => f s h.1 h.2.1 h.2.2) s :=
  forPairs_spec (by rw [hK.tol_eq]; exact hR.htol) hK hC (valid_states hK hC hR.radii hR.scales) f s

theorem Ready.not_empty (hR : Ready skel tol eps g rest E st) : ¬ (st.isEmpty = true) := by
  intro h; exact hR.nonempty (List.isEmpty_iff.1 h)

theorem foldlM_error (E : CollisionError) (H : List (Nat × Nat × OverlapInfo)) : ∀ x : ℝ,
    H.foldlM (fun s h => some (s + E.pairError h.2.2)) x = some (x + (H.map fun h => E.pairError h.2.2).sum) := by
  induction H with
  | nil => intro x; simp
  | cons h H ih =>
    intro x
    rw [List.foldlM_cons]
    simp only [Option.bind_eq_bind, Option.bind_some, ih, List.map_cons, List.sum_cons, add_assoc]

/-- `getError`. -/
theorem getError_spec (hR : Ready skel tol eps g rest E st) {x : ℝ} (h : E.getError st = some (x, E')) :
    E.computeBroadPhase st = some E' ∧ x = (E'.hits.map fun h => E'.pairError h.2.2).sum := by
  unfold getError at h
  rw [if_neg hR.not_empty] at h
  simp only [Option.bind_eq_bind, Option.bind_eq_some_iff, Option.some.injEq, Prod.mk.injEq] at h
  obtain ⟨E1, h1, y, h2, rfl, rfl⟩ := h
  obtain ⟨hK, hC, _⟩ := broadPhase_spec hR.small hR.kept h1
  obtain ⟨H, p1, p2⟩ := hR.forPairs hK hC (fun error _ _ r => some (error + E1.pairError r)) 0
  refine ⟨h1, ?_⟩
  rw [p2, foldlM_error, Option.some.injEq, zero_add] at h2
  rw [← h2]
  exact (p1.map _).sum_eq

theorem getError_some (hR : Ready skel tol eps g rest E st) (h1 : E.computeBroadPhase st = some E') :
    ∃ x, E.getError st = some (x, E') := by
  obtain ⟨hK, hC, _⟩ := broadPhase_spec hR.small hR.kept h1
  obtain ⟨H, p1, p2⟩ := hR.forPairs hK hC (fun error _ _ r => some (error + E'.pairError r)) 0
  rw [foldlM_error] at p2
  refine ⟨0 + (List.map (fun h => E'.pairError h.2.2) H).sum, ?_⟩
  unfold getError
  rw [if_neg hR.not_empty, h1]
  simp only [Option.bind_eq_bind, Option.bind_some, p2]

theorem fits_of_base {E E' : CollisionError} {pt : ParameterTransform ℝ} (h : E'.toErrorBase = E.toErrorBase) (hF : E.Fits pt) :
    E'.Fits pt := by rw [h]; exact hF

/-- `getGradient`. -/
theorem getGradient_spec (hR : Ready skel tol eps g rest E st) {pt : ParameterTransform ℝ} (hF : E.Fits pt)
    (hpar : ∀ tc ∈ g, tc.parent < skel.joints.length)
    (hst : st.length = skel.joints.length) (hcl : ∀ js ∈ st, js.derivDirty = false) (g0 : Nat → ℝ) 
    (h1 : E.computeBroadPhase st = some E') :
    ∃ grad, E.getGradient st g0 = some (((E'.hits.map fun h => E'.pairError h.2.2).sum, grad), E') ∧
      ∀ i, E.enabledParameters.mem i = true →
        grad i = g0 i + (E'.hits.map (E'.pairGrad st fun r => pt.transform.coeff r i)).sum := by
  obtain ⟨hK, hC, hb⟩ := broadPhase_spec hR.small hR.kept h1
  have hF' := fits_of_base hb hF
  have hen : E'.enabledParameters = E.enabledParameters := by rw [hb]
  have hv : skel.Valid := by rw [← hK.skeleton_eq]; exact hF'.skeleton
  obtain ⟨H, p1, p2⟩ := hR.forPairs hK hC (E'.gradPair st) (0, g0)
  obtain ⟨s', e1, e2, e3⟩ := gradFold hF' (by rw [hK.skeleton_eq]; exact hst) hcl H
    (fun h hh => linked_of_hit hv hpar hK (p1.subset hh)) (0, g0)
  refine ⟨s'.2, ?_, fun i hi => ?_⟩
  · unfold getGradient
    rw [if_neg hR.not_empty, h1]
    simp only [Option.bind_eq_bind, Option.bind_some, p2, e1]
    rw [← (p1.map fun h => E'.pairError h.2.2).sum_eq, ← zero_add ((H.map _).sum), ← e2]
  · rw [e3 i (by rw [hen]; exact hi), (p1.map _).sum_eq]

/-- `getJacobian`. -/
theorem getJacobian_spec (hR : Ready skel tol eps g rest E st) {pt : ParameterTransform ℝ} (hF : E.Fits pt)
    (hpar : ∀ tc ∈ g, tc.parent < skel.joints.length)
    (hst : st.length = skel.joints.length) (hcl : ∀ js ∈ st, js.derivDirty = false) (n : Nat) (hn : E.jacobianSize ≤ n)
    (J0 : Nat → Nat → ℝ) (r0 : Nat → ℝ) (u0 : Nat) (h1 : E.computeBroadPhase st = some E') :
    ∃ (s : JacobianResult) (H : List (Nat × Nat × OverlapInfo)), H.Perm E'.hits ∧
      E.getJacobian st n J0 r0 u0 = some (s, E') ∧ s.error = (E'.hits.map fun h => E'.pairError h.2.2).sum ∧
      s.rows = H.length ∧ H.length ≤ E.jacobianSize ∧
      (∀ t, H.length ≤ t → s.residual t = r0 t ∧ ∀ i, E.enabledParameters.mem i = true → s.e i t = J0 i t) ∧
      ∀ k h, H[k]? = some h → s.residual k = h.2.2.overlap * Real.sqrt (kCollisionWeight * E.weight) ∧
        ∀ i, E.enabledParameters.mem i = true →
          s.e i k = J0 i k + E'.pairRow st (fun r => pt.transform.coeff r i) h := by
  obtain ⟨hK, hC, hb⟩ := broadPhase_spec hR.small hR.kept h1
  have hF' := fits_of_base hb hF
  have hen : E'.enabledParameters = E.enabledParameters := by rw [hb]
  have hwt : E'.weight = E.weight := by rw [hb]
  have hv : skel.Valid := by rw [← hK.skeleton_eq]; exact hF'.skeleton
  have hsz : E'.jacobianSize = E.jacobianSize := by rw [size_card hK, size_card hR.kept]
  obtain ⟨H, p1, p2⟩ := hR.forPairs hK hC (E'.jacPair st n) ⟨0, 0, J0, r0⟩
  have hHl : H.length ≤ E.jacobianSize := by
    rw [← hsz, p1.length_eq]; exact hits_length_le hK
  obtain ⟨s', e1, e2, e3, e4, e5⟩ := jacFold (n := n) hF' (by rw [hK.skeleton_eq]; exact hst) hcl H
    (fun h hh => linked_of_hit hv hpar hK (p1.subset hh)) ⟨0, 0, J0, r0⟩ (by simp only; omega)
  simp only [zero_add] at e2 e3 e4 e5
  refine ⟨s', H, p1, ?_, ?_, e3, hHl, fun t ht => ?_, fun k h hk => ?_⟩
  · unfold getJacobian
    rw [if_neg (by omega), if_neg hR.not_empty, h1]
    simp only [Option.bind_eq_bind, Option.bind_some, p2, e1]
  · rw [e2, (p1.map _).sum_eq]
  · obtain ⟨a, b⟩ := e4 t (Or.inr ht)
    exact ⟨a, fun i hi => b i (by rw [hen]; exact hi)⟩
  · obtain ⟨a, b⟩ := e5 k h hk
    exact ⟨by rw [a, hwt], fun i hi => b i (by rw [hen]; exact hi)⟩

end
end CollisionError
end Momentum
