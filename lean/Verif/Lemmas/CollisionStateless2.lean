import Verif.Lemmas.CollisionStateless

/-!
# The evaluations of the collision error function with stored pairs
-/

namespace Momentum
open Skeleton
namespace StatelessCollision
open CollisionError

section
variable {skel : Skeleton ℝ} {tol eps : ℝ} {g : List (TaperedCapsule ℝ)} {rest : List (CapsuleState ℝ)}
  {E E' : StatelessCollision} {st : List JointState}

theorem pair_bounds (hK : E.Kept skel tol eps g rest) {q : Nat × Nat × Option Nat} (hq : q ∈ E.collisionPairs) :
    q.1 < q.2.1 ∧ q.2.1 < g.length ∧ Watched skel tol eps g rest q.1 q.2.1 := by
  classical
  have : (q.1, q.2.1) ∈ E.collisionPairs.map fun q => (q.1, q.2.1) := List.mem_map.2 ⟨q, hq, rfl⟩
  rw [hK.pairs, List.mem_filter, mem_allIJ] at this
  simpa [and_assoc] using this

theorem activeStep_eq {σ : Type} (hK : E.Kept skel tol eps g rest) (hC : E.twin.Posed st)
    (f : σ → Nat × Nat × Option Nat → OverlapInfo → Option σ) {q : Nat × Nat × Option Nat} (hq : q ∈ E.collisionPairs)
    (k : Nat) (s : σ × List Bool) (hk : k < s.2.length) :
    E.activeStep f s (q, k) = match E.twin.hit (q.1, q.2.1) with
      | some h => (f s.1 q h.2.2).map fun x => (x, s.2.set k true)
      | none => some s := by
  obtain ⟨b1, b2, hw⟩ := pair_bounds hK hq
  have hT := twin_kept hK
  have hl : E.collisionState.length = g.length := by
    have := (capsules_spec hC.caps).1
    rw [hT.geometry] at this; exact this
  have e1 : E.collisionState[q.1]? = some (capsuleAt E.collisionState q.1) := by
    simp [capsuleAt, List.getD_eq_getElem?_getD, List.getElem?_eq_getElem (by omega : q.1 < E.collisionState.length)]
  have e2 : E.collisionState[q.2.1]? = some (capsuleAt E.collisionState q.2.1) := by
    simp [capsuleAt, List.getD_eq_getElem?_getD, List.getElem?_eq_getElem (by omega : q.2.1 < E.collisionState.length)]
  have hord : (q.1, q.2.1) ∈ E.twin.order := by
    rw [twin_order, hK.geometry, mem_allIJ]; exact ⟨b1, b2⟩
  obtain ⟨k1, k2⟩ := hit_eq hT hC hord
  have hw' : Watched skel tol eps g rest (sortPair (q.1, q.2.1)).1 (sortPair (q.1, q.2.1)).2 := by
    simpa [sortPair, b1.le] using hw
  simp only [activeStep, e1, e2, Option.bind_eq_bind, Option.bind_some, hK.tol_eq, hK.eps_eq]
  by_cases ho : overlaps tol eps (capsuleAt E.collisionState q.1) (capsuleAt E.collisionState q.2.1) = true
  · obtain ⟨r, r1, r2⟩ := k1 hw' ho
    rw [if_pos ho, r2]
    have r1' : overlapInfo tol (capsuleAt E.collisionState q.1) (capsuleAt E.collisionState q.2.1) = some r := r1
    rw [r1', Option.bind_some, if_pos hk]
    simp only
    cases f s.1 q r <;> rfl
  · rw [if_neg ho, k2 fun h => ho h.2]

/-- The loop over the stored pairs goes over the pairs that take part and marks them. -/
theorem forPairs_spec {σ : Type} (hK : E.Kept skel tol eps g rest) (hC : E.twin.Posed st)
    (hact : E.collisionActive = List.replicate E.collisionPairs.length false)
    (f : σ → Nat × Nat × Option Nat → OverlapInfo → Option σ) (f' : σ → Nat → Nat → OverlapInfo → Option σ)
    (hf : ∀ q ∈ E.collisionPairs, ∀ s r, f s q r = f' s q.1 q.2.1 r) (s : σ) :
    E.forPairs f s = (E.twin.hits.foldlM (fun s h => f' s h.1 h.2.1 h.2.2) s).map fun x =>
      (x, { E with collisionActive := E.collisionPairs.map fun q => (E.twin.hit (q.1, q.2.1)).isSome }) := by
  have key : ∀ (L : List (Nat × Nat × Option Nat)), (∀ q ∈ L, q ∈ E.collisionPairs) → ∀ (P : List Bool) (s : σ),
      (L.zipIdx P.length).foldlM (E.activeStep f) (s, P ++ List.replicate L.length false) =
        ((L.filterMap fun q => E.twin.hit (q.1, q.2.1)).foldlM (fun s h => f' s h.1 h.2.1 h.2.2) s).map fun x =>
          (x, P ++ L.map fun q => (E.twin.hit (q.1, q.2.1)).isSome) := by
    intro L
    induction L with
    | nil => intro _ P s; rfl
    | cons q L ih =>
      intro hL P s
      have hq := hL q (by simp)
      have ih := ih fun q hq => hL q (by simp [hq])
      rw [List.zipIdx_cons, List.foldlM_cons, activeStep_eq hK hC f hq _ _ (by simp), List.filterMap_cons]
      cases hh : E.twin.hit (q.1, q.2.1) with
      | none =>
        have e : P ++ List.replicate (q :: L).length false = (P ++ [false]) ++ List.replicate L.length false := by
          simp [List.replicate_succ]
        have := ih (P ++ [false]) s
        rw [List.length_append, List.length_singleton] at this
        simp only [Option.bind_eq_bind, Option.bind_some]
        rw [e, this]
        simp [hh]
      | some h =>
        have hh' : (h.1, h.2.1) = (q.1, q.2.1) := by
          unfold hit at hh
          rw [Option.map_eq_some_iff] at hh
          obtain ⟨r, _, rfl⟩ := hh; rfl
        simp only [Prod.mk.injEq] at hh'
        simp only [List.foldlM_cons]
        rw [hf q hq, hh'.1, hh'.2]
        cases f' s q.1 q.2.1 h.2.2 with
        | none => rfl
        | some x =>
          have e : (P ++ List.replicate (q :: L).length false).set P.length true =
              (P ++ [true]) ++ List.replicate L.length false := by
            simp [List.replicate_succ]
          have := ih (P ++ [true]) x
          rw [List.length_append, List.length_singleton] at this
          simp only [Option.map_some, Option.bind_eq_bind, Option.bind_some]
          rw [e, this]
          simp [hh]
  unfold forPairs
  rw [hact]
  have := key E.collisionPairs (fun _ h => h) [] s
  simp only [List.length_nil, List.nil_append] at this
  rw [this, twin_hits hK, Option.map_map]
  rfl

theorem pairPoints_eq (hK : E.Kept skel tol eps g rest) {q : Nat × Nat × Option Nat} (hq : q ∈ E.collisionPairs)
    (r : OverlapInfo) : E.twin.pairData q.1 q.2.1 r = (E.pairPoints q r).map fun x => (x.1, x.2.1, q.2.2, x.2.2.1, x.2.2.2) := by
  obtain ⟨ga, gb, c, a1, a2, _, _, a5⟩ := hK.stops q hq
  rw [← hK.skeleton_eq] at a5
  rw [← hK.geometry] at a1 a2
  have e1 : E.twin.collisionGeometry[q.1]? = some ga := a1
  have e2 : E.twin.collisionGeometry[q.2.1]? = some gb := a2
  have e3 : E.twin.skeleton.commonAncestor (some ga.parent) (some gb.parent) = some q.2.2 := a5
  have e4 : E.twin.collisionState = E.collisionState := rfl
  simp only [CollisionError.pairData, pairPoints, e1, e2, e3, e4, a1, a2, Option.bind_eq_bind, Option.bind_some]
  cases E.collisionState[q.1]? with
  | none => rfl
  | some ca => cases E.collisionState[q.2.1]? with
    | none => rfl
    | some cb => rfl

theorem gradPair_eq (hK : E.Kept skel tol eps g rest) {q : Nat × Nat × Option Nat} (hq : q ∈ E.collisionPairs)
    (s : ℝ × (Nat → ℝ)) (r : OverlapInfo) : E.gradPair st s q r = E.twin.gradPair st s q.1 q.2.1 r := by
  unfold gradPair CollisionError.gradPair
  rw [pairPoints_eq hK hq]
  cases E.pairPoints q r with
  | none => rfl
  | some x => rfl

theorem jacPair_eq (hK : E.Kept skel tol eps g rest) {q : Nat × Nat × Option Nat} (hq : q ∈ E.collisionPairs) (n : Nat)
    (s : JacobianResult) (r : OverlapInfo) : E.jacPair st n s q r = E.twin.jacPair st n s q.1 q.2.1 r := by
  unfold jacPair CollisionError.jacPair
  rw [pairPoints_eq hK hq]
  cases E.pairPoints q r with
  | none => rfl
  | some x => rfl

theorem update_spec (hK : E.Kept skel tol eps g rest) (h : E.update st = some E') :
    E'.Kept skel tol eps g rest ∧ E'.twin.Posed st ∧ E'.toErrorBase = E.toErrorBase ∧
      E'.collisionPairs = E.collisionPairs ∧ E'.collisionActive = List.replicate E'.collisionPairs.length false := by
  unfold update at h
  simp only [Option.bind_eq_bind, Option.bind_eq_some_iff, Option.some.injEq] at h
  obtain ⟨cs, h1, rfl⟩ := h
  exact ⟨⟨hK.skeleton_eq, hK.tol_eq, hK.eps_eq, hK.geometry, hK.pairs, hK.stops, by simp [hK.active]⟩, ⟨h1⟩, rfl, rfl,
    by simp [hK.active]⟩

theorem update_some (hK : E.Kept skel tol eps g rest) (hpar : ∀ tc ∈ g, tc.parent < st.length) :
    ∃ E', E.update st = some E' := by
  obtain ⟨cs, hcs⟩ := capsules_some hpar
  unfold update
  rw [hK.geometry, hcs]
  exact ⟨_, rfl⟩

/-- The object with the pairs marked that take part. -/
noncomputable def marked (E : StatelessCollision) : StatelessCollision :=
  { E with collisionActive := E.collisionPairs.map fun q => (E.twin.hit (q.1, q.2.1)).isSome }

theorem marked_kept (hK : E.Kept skel tol eps g rest) : E.marked.Kept skel tol eps g rest :=
  ⟨hK.skeleton_eq, hK.tol_eq, hK.eps_eq, hK.geometry, hK.pairs, hK.stops, by simp [marked]⟩

theorem not_empty (hne : st ≠ []) : ¬ (st.isEmpty = true) := by
  simpa using hne

theorem getError_eq (hK : E.Kept skel tol eps g rest) (hne : st ≠ []) (h : E.update st = some E') :
    E.getError st = some ((E'.twin.hits.map fun h => E'.twin.pairError h.2.2).sum, E'.marked) := by
  obtain ⟨k1, k2, _, _, k5⟩ := update_spec hK h
  unfold getError
  rw [if_neg (not_empty hne), h]
  simp only [Option.bind_eq_bind, Option.bind_some]
  rw [forPairs_spec k1 k2 k5 (fun error _ r => some (error + E'.pairError r))
    (fun error _ _ r => some (error + E'.twin.pairError r)) (fun _ _ _ _ => rfl),
    foldlM_error, zero_add]
  rfl

theorem getGradient_eq (hK : E.Kept skel tol eps g rest) (hv : skel.Valid)
    (hpar : ∀ tc ∈ g, tc.parent < skel.joints.length) (hne : st ≠ []) (h : E.update st = some E')
    {pt : ParameterTransform ℝ} (hF : E.Fits pt) (hst : st.length = skel.joints.length)
    (hcl : ∀ js ∈ st, js.derivDirty = false) (g0 : Nat → ℝ) :
    ∃ grad, E.getGradient st g0 = some (((E'.twin.hits.map fun h => E'.twin.pairError h.2.2).sum, grad), E'.marked) ∧
      ∀ i, E.enabledParameters.mem i = true →
        grad i = g0 i + (E'.twin.hits.map (E'.twin.pairGrad st fun r => pt.transform.coeff r i)).sum := by
  obtain ⟨k1, k2, k3, _, k5⟩ := update_spec hK h
  have hF' : E'.twin.Fits pt := by
    change E'.toErrorBase.Fits pt
    rw [k3]; exact hF
  have hlk : ∀ h ∈ E'.twin.hits, E'.twin.Linked h := fun h hh => linked_of_hit hv hpar (twin_kept k1) hh
  have hst' : st.length = E'.twin.skeleton.joints.length := by rw [(twin_kept k1).skeleton_eq]; exact hst
  obtain ⟨s', e1, e2, e3⟩ := gradFold hF' hst' hcl E'.twin.hits hlk (0, g0)
  refine ⟨s'.2, ?_, ?_⟩
  · unfold getGradient
    rw [if_neg (not_empty hne), h]
    simp only [Option.bind_eq_bind, Option.bind_some]
    rw [forPairs_spec k1 k2 k5 _ (E'.twin.gradPair st) (fun q hq s r => gradPair_eq k1 hq s r), e1]
    have : s' = ((E'.twin.hits.map fun h => E'.twin.pairError h.2.2).sum, s'.2) := by
      refine Prod.ext ?_ rfl
      rw [e2, zero_add]
    rw [← this]
    rfl
  · intro i hi
    exact e3 i (by
      have : E'.twin.enabledParameters = E.enabledParameters := congrArg ErrorBase.enabledParameters k3
      rw [this]; exact hi)

theorem getJacobian_eq (hK : E.Kept skel tol eps g rest) (hv : skel.Valid)
    (hpar : ∀ tc ∈ g, tc.parent < skel.joints.length) (hne : st ≠ []) (h : E.update st = some E')
    {pt : ParameterTransform ℝ} (hF : E.Fits pt) (hst : st.length = skel.joints.length)
    (hcl : ∀ js ∈ st, js.derivDirty = false) (n : Nat) (hn : E.collisionPairs.length ≤ n) (J0 : Nat → Nat → ℝ)
    (r0 : Nat → ℝ) (u0 : Nat) :
    ∃ s : JacobianResult,
      E.getJacobian st n J0 r0 u0 = some (s, E'.marked) ∧
      s.error = (E'.twin.hits.map fun h => E'.twin.pairError h.2.2).sum ∧
      s.rows = E'.twin.hits.length ∧ E'.twin.hits.length ≤ E.collisionPairs.length ∧
      (∀ t, E'.twin.hits.length ≤ t →
        s.residual t = r0 t ∧ ∀ i, E.enabledParameters.mem i = true → s.e i t = J0 i t) ∧
      ∀ (k : Nat) h, E'.twin.hits[k]? = some h →
        s.residual k = h.2.2.overlap * Real.sqrt (kCollisionWeight * E.weight) ∧
        ∀ i, E.enabledParameters.mem i = true →
          s.e i k = J0 i k + E'.twin.pairRow st (fun r => pt.transform.coeff r i) h := by
  obtain ⟨k1, k2, k3, k4, k5⟩ := update_spec hK h
  have hF' : E'.twin.Fits pt := by
    change E'.toErrorBase.Fits pt
    rw [k3]; exact hF
  have hlk : ∀ h ∈ E'.twin.hits, E'.twin.Linked h := fun h hh => linked_of_hit hv hpar (twin_kept k1) hh
  have hst' : st.length = E'.twin.skeleton.joints.length := by rw [(twin_kept k1).skeleton_eq]; exact hst
  have hen : E'.twin.enabledParameters = E.enabledParameters := congrArg ErrorBase.enabledParameters k3
  have hwt : E'.twin.weight = E.weight := congrArg ErrorBase.weight k3
  have hlen : E'.twin.hits.length ≤ E.collisionPairs.length := by
    have := hits_length_le (twin_kept k1)
    have e : E'.twin.jacobianSize = E'.collisionPairs.length := rfl
    rw [e, k4] at this
    exact this
  obtain ⟨s', e1, e2, e3, e4, e5⟩ := jacFold hF' hst' hcl (n := n) E'.twin.hits hlk ⟨0, 0, J0, r0⟩ (by simp; omega)
  refine ⟨s', ?_, by rw [e2, zero_add], by rw [e3, Nat.zero_add], hlen, ?_, ?_⟩
  · unfold getJacobian
    rw [if_neg (by omega), if_neg (not_empty hne), h]
    simp only [Option.bind_eq_bind, Option.bind_some]
    rw [forPairs_spec k1 k2 k5 _ (E'.twin.jacPair st n) (fun q hq s r => jacPair_eq k1 hq n s r), e1]
    rfl
  · intro t ht
    obtain ⟨a, b⟩ := e4 t (Or.inr (by simpa using ht))
    exact ⟨a, fun i hi => b i (by rw [hen]; exact hi)⟩
  · intro k h hk
    obtain ⟨a, b⟩ := e5 k h hk
    simp only [Nat.zero_add] at a b
    rw [hwt] at a
    exact ⟨a, fun i hi => b i (by rw [hen]; exact hi)⟩

end
end StatelessCollision
end Momentum
