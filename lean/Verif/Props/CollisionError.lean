import Verif.Lemmas.CollisionError5
import Verif.Props.StateError

/-!
# C67: the collision error function
-/

namespace Momentum
open Skeleton

/-- The capsules in the rest pose: joint parameters at their offsets. -/
def RestPose (B : ErrorBase) (offsets : List ℝ) (g : List (TaperedCapsule ℝ)) (rest : List (CapsuleState ℝ)) : Prop :=
  ∃ state, skeletonState B.skeleton offsets true = some state ∧ CollisionError.capsules g state = some rest

/-- A skeleton and collision geometry that fit together. -/
structure CollisionSetting (B : ErrorBase) (offsets : List ℝ) (tol : ℝ) (g : List (TaperedCapsule ℝ))
    (rest : List (CapsuleState ℝ)) : Prop where
  skeleton : B.skeleton.Valid
  parents : ∀ tc ∈ g, tc.parent < B.skeleton.joints.length
  radii : ∀ tc ∈ g, 0 ≤ tc.radius0 ∧ 0 ≤ tc.radius1
  htol : 0 < tol
  small : 2 * g.length < kRootParentIndex
  rest : RestPose B offsets g rest

/-- skeleton_error_function.h: `setWeight`, `setActiveJoints` and `setEnabledParameters`. -/
def CollisionError.configure (E : CollisionError) (w : ℝ) (active : List Bool) (enabled : ParameterSet) : CollisionError :=
  { E with weight := w, activeJointParams := active, enabledParameters := enabled }

/-- The objects a program can come to: built by the constructor, then configured and evaluated any number of times, in any
order, for any poses. -/
inductive CollisionError.Reached (B : ErrorBase) (offsets : List ℝ) (tol eps : ℝ) (g : List (TaperedCapsule ℝ)) :
    CollisionError → Prop
  | new {E} : CollisionError.construct B offsets tol eps g = some E → Reached B offsets tol eps g E
  | configure {E} (w a e) : Reached B offsets tol eps g E → Reached B offsets tol eps g (E.configure w a e)
  | error {E st x E'} : Reached B offsets tol eps g E → E.getError st = some (x, E') → Reached B offsets tol eps g E'
  | gradient {E st g0 x E'} : Reached B offsets tol eps g E → E.getGradient st g0 = some (x, E') →
      Reached B offsets tol eps g E'
  | jacobian {E st n J0 r0 u0 x E'} : Reached B offsets tol eps g E → E.getJacobian st n J0 r0 u0 = some (x, E') →
      Reached B offsets tol eps g E'

namespace CollisionError

theorem construct_kept {B : ErrorBase} {offsets : List ℝ} {tol eps : ℝ} {g : List (TaperedCapsule ℝ)}
    {rest : List (CapsuleState ℝ)} (hs : CollisionSetting B offsets tol g rest) {E : CollisionError}
    (h : construct B offsets tol eps g = some E) : E.Kept B.skeleton tol eps g rest := by
  obtain ⟨state, s1, s2⟩ := hs.rest
  unfold construct at h
  rw [s1] at h
  simp only [Option.bind_eq_bind, Option.bind_some, s2, Option.bind_eq_some_iff, Option.some.injEq] at h
  obtain ⟨bvh, h1, acc, h2, rfl⟩ := h
  have hl := (capsules_spec s2).1
  obtain ⟨k1, k2, k3⟩ := pairLoop_spec (E := ⟨B, tol, eps, g, [], 0, rest, bvh⟩) hs.skeleton hl hs.parents h2
  have hbl : (restBoxes rest).length = g.length := by
    have := congrArg List.length (restBoxes_ids rest); simpa [hl] using this
  obtain ⟨b1, -⟩ := setBoundingBoxes_some (by have := hs.small; omega) h1
  refine ⟨rfl, rfl, rfl, rfl, k1, k2, k3, ?_⟩
  refine (b1.map _).trans ?_
  rw [restBoxes_ids, hl]

theorem reached_kept {B : ErrorBase} {offsets : List ℝ} {tol eps : ℝ} {g : List (TaperedCapsule ℝ)}
    {rest : List (CapsuleState ℝ)} (hs : CollisionSetting B offsets tol g rest) {E : CollisionError}
    (h : E.Reached B offsets tol eps g) : E.Kept B.skeleton tol eps g rest := by
  induction h with
  | new h => exact construct_kept hs h
  | configure w a e _ ih =>
    exact ⟨ih.skeleton_eq, ih.tol_eq, ih.eps_eq, ih.geometry, ih.excluded, ih.size, ih.common, ih.ids⟩
  | @error E st x E' _ h ih =>
    unfold getError at h
    split at h
    · simp only [Option.some.injEq, Prod.mk.injEq] at h; rw [← h.2]; exact ih
    · simp only [Option.bind_eq_bind, Option.bind_eq_some_iff, Option.some.injEq, Prod.mk.injEq] at h
      obtain ⟨E1, h1, y, h2, rfl, rfl⟩ := h
      exact (broadPhase_spec hs.small ih h1).1
  | @gradient E st g0 x E' _ h ih =>
    unfold getGradient at h
    split at h
    · simp only [Option.some.injEq, Prod.mk.injEq] at h; rw [← h.2]; exact ih
    · simp only [Option.bind_eq_bind, Option.bind_eq_some_iff, Option.some.injEq, Prod.mk.injEq] at h
      obtain ⟨E1, h1, y, h2, rfl, rfl⟩ := h
      exact (broadPhase_spec hs.small ih h1).1
  | @jacobian E st n J0 r0 u0 x E' _ h ih =>
    unfold getJacobian at h
    split at h
    · cases h
    · split at h
      · simp only [Option.some.injEq, Prod.mk.injEq] at h; rw [← h.2]; exact ih
      · simp only [Option.bind_eq_bind, Option.bind_eq_some_iff, Option.some.injEq, Prod.mk.injEq] at h
        obtain ⟨E1, h1, y, h2, rfl, rfl⟩ := h
        exact (broadPhase_spec hs.small ih h1).1

theorem ready {B : ErrorBase} {offsets : List ℝ} {tol eps : ℝ} {g : List (TaperedCapsule ℝ)}
    {rest : List (CapsuleState ℝ)} (hs : CollisionSetting B offsets tol g rest) {E : CollisionError}
    (h : E.Reached B offsets tol eps g) {st : List JointState} (hsc : ∀ js ∈ st, 0 ≤ js.transform.scale) (hne : st ≠ []) :
    Ready B.skeleton tol eps g rest E st :=
  ⟨reached_kept hs h, hs.htol, hs.radii, hs.small, hsc, hne⟩

end CollisionError

open CollisionError in
/-- **C67**: construction succeeds for every skeleton in which any two joints with capsules have a common ancestor, when
there are no more than 128 capsules. -/
theorem C67_construct (B : ErrorBase) (offsets : List ℝ) (tol eps : ℝ) (g : List (TaperedCapsule ℝ))
    (rest : List (CapsuleState ℝ)) (hs : CollisionSetting B offsets tol g rest) (hn : g.length ≤ 128)
    (hone : ∀ a ∈ g, ∀ b ∈ g, ∃ c, B.skeleton.Anc a.parent c ∧ B.skeleton.Anc b.parent c) :
    ∃ E, CollisionError.construct B offsets tol eps g = some E := by
  obtain ⟨state, s1, s2⟩ := hs.rest
  have hl := (capsules_spec s2).1
  have hbl : (restBoxes rest).length = g.length := by
    have := congrArg List.length (restBoxes_ids rest); simpa [hl] using this
  obtain ⟨bvh, hb⟩ := setBoundingBoxes_small (prims := restBoxes rest) (by omega)
  have hstep : ∀ (i : Nat) (l : List Nat), i < g.length → (∀ j ∈ l, j < g.length) → ∀ acc,
      ∃ acc', l.foldlM ((⟨B, tol, eps, g, [], 0, rest, bvh⟩ : CollisionError).pairStep rest i) acc = some acc' := by
    intro i l hi
    induction l with
    | nil => intro _ acc; exact ⟨acc, rfl⟩
    | cons j l ih =>
      intro hj acc
      have hjl := hj j (by simp)
      have e : ∃ acc', (⟨B, tol, eps, g, [], 0, rest, bvh⟩ : CollisionError).pairStep rest i acc j = some acc' := by
        obtain ⟨c, h1, h2⟩ := hone g[i] (List.getElem_mem _) g[j] (List.getElem_mem _)
        obtain ⟨k, k1, _⟩ := pairSteps_spec hs.skeleton _ g[i].parent g[j].parent le_rfl (hs.parents _ (List.getElem_mem _))
          (hs.parents _ (List.getElem_mem _)) ⟨c, h1, h2⟩ 0
        simp only [pairStep, Option.bind_eq_bind]
        rw [List.getElem?_eq_getElem (by omega : i < rest.length), List.getElem?_eq_getElem (by omega : j < rest.length),
          List.getElem?_eq_getElem hi, List.getElem?_eq_getElem hjl]
        simp only [Option.bind_some, k1]
        split
        · exact ⟨_, rfl⟩
        · split <;> exact ⟨_, rfl⟩
      obtain ⟨acc1, e1⟩ := e
      obtain ⟨acc2, e2⟩ := ih (fun j' h' => hj j' (by simp [h'])) acc1
      exact ⟨acc2, by rw [List.foldlM_cons, e1]; exact e2⟩
  have hloop : ∀ (l : List Nat), (∀ i ∈ l, i < g.length) → ∀ acc, ∃ acc', l.foldlM (fun acc i =>
      (List.range' (i + 1) (g.length - (i + 1))).foldlM
        ((⟨B, tol, eps, g, [], 0, rest, bvh⟩ : CollisionError).pairStep rest i) acc) acc = some acc' := by
    intro l
    induction l with
    | nil => intro _ acc; exact ⟨acc, rfl⟩
    | cons i l ih =>
      intro hi acc
      obtain ⟨acc1, e1⟩ := hstep i (List.range' (i + 1) (g.length - (i + 1))) (hi i (by simp))
        (fun j hj => by rw [List.mem_range'_1] at hj; omega) acc
      obtain ⟨acc2, e2⟩ := ih (fun j' h' => hi j' (by simp [h'])) acc1
      exact ⟨acc2, by rw [List.foldlM_cons, e1]; exact e2⟩
  obtain ⟨acc, hacc⟩ := hloop (List.range g.length) (fun i hi => List.mem_range.1 hi) ([], 0)
  refine ⟨⟨B, tol, eps, g, acc.1, acc.2, rest, bvh⟩, ?_⟩
  unfold CollisionError.construct
  rw [s1]
  simp only [Option.bind_eq_bind, Option.bind_some, s2, hb]
  have : (⟨B, tol, eps, g, [], 0, rest, bvh⟩ : CollisionError).pairLoop rest g.length = some acc := hacc
  rw [this]
  rfl

open CollisionError in
/-- **C67**: whatever was done with the object, the Jacobian has as many rows as there are pairs of capsules to be kept
apart. -/
theorem C67_size (B : ErrorBase) (offsets : List ℝ) (tol eps : ℝ) (g : List (TaperedCapsule ℝ))
    (rest : List (CapsuleState ℝ)) (hs : CollisionSetting B offsets tol g rest) (E : CollisionError)
    (hE : E.Reached B offsets tol eps g) :
    E.getJacobianSize = (watchedPairs B.skeleton tol eps g rest).card := size_card (reached_kept hs hE)

open CollisionError in
/-- **C67**: after the error was evaluated for a pose, `getCollisionPairs` lists exactly the watched pairs that are reported
to overlap in that pose, each once; so the broad phase loses none and the history does not matter. -/
theorem C67_collision_pairs (B : ErrorBase) (offsets : List ℝ) (tol eps : ℝ) (g : List (TaperedCapsule ℝ))
    (rest : List (CapsuleState ℝ)) (hs : CollisionSetting B offsets tol g rest) (E : CollisionError)
    (hE : E.Reached B offsets tol eps g) (st : List JointState) (hne : st ≠ []) (hsc : ∀ js ∈ st, 0 ≤ js.transform.scale)
    (x : ℝ) (E' : CollisionError) (h : E.getError st = some (x, E')) :
    ∃ cs L, capsules g st = some cs ∧ E'.getCollisionPairs = some L ∧
      L.Pairwise (fun p q => p ≠ q ∧ p ≠ q.swap) ∧
      (∀ p ∈ L, p.1 ≠ p.2 ∧ Watched B.skeleton tol eps g rest (min p.1 p.2) (max p.1 p.2) ∧
        overlaps tol eps (capsuleAt cs p.1) (capsuleAt cs p.2) = true) ∧
      ∀ i j, i < j → Watched B.skeleton tol eps g rest i j → overlaps tol eps (capsuleAt cs i) (capsuleAt cs j) = true →
        overlaps tol eps (capsuleAt cs j) (capsuleAt cs i) = true → (i, j) ∈ L ∨ (j, i) ∈ L := by
  have hR := ready hs hE hsc hne
  obtain ⟨h1, -⟩ := getError_spec hR h
  obtain ⟨hK, hC, -⟩ := broadPhase_spec hs.small hR.kept h1
  have hcap := hC.caps
  rw [hK.geometry] at hcap
  obtain ⟨H, p1, p2⟩ := hR.forPairs hK hC (fun l a b _ => some (l ++ [(a, b)])) []
  have hfold : ∀ (H : List (Nat × Nat × OverlapInfo)) (l : List (Nat × Nat)),
      H.foldlM (fun l h => some (l ++ [(h.1, h.2.1)])) l = some (l ++ H.map fun h => (h.1, h.2.1)) := by
    intro H
    induction H with
    | nil => intro l; simp
    | cons h H ih => intro l; rw [List.foldlM_cons]; simp [ih]
  rw [hfold, List.nil_append] at p2
  refine ⟨E'.collisionState, _, hcap, p2, ?_, ?_, ?_⟩
  · have hap := allPairs_distinct hK.ids
    have := hap.once.sublist (hits_sublist E')
    refine (p1.symm.map (fun h => (h.1, h.2.1))).pairwise this ?_
    rintro ⟨a, b⟩ ⟨c, d⟩ ⟨q1, q2⟩
    refine ⟨q1.symm, fun e => q2 ?_⟩
    simp only [Prod.swap_prod_mk, Prod.mk.injEq] at e ⊢
    exact ⟨e.2.symm, e.1.symm⟩
  · intro p hp
    obtain ⟨h, hh, rfl⟩ := List.mem_map.1 hp
    obtain ⟨_, ha, hb, hab, hw, ca, cb, k1, k2, k3, k4⟩ := mem_hits hK (p1.subset hh)
    refine ⟨hab, hw, ?_⟩
    have e1 : capsuleAt E'.collisionState h.1 = ca := by rw [capsuleAt, List.getD_eq_getElem?_getD, k1]; rfl
    have e2 : capsuleAt E'.collisionState h.2.1 = cb := by rw [capsuleAt, List.getD_eq_getElem?_getD, k2]; rfl
    rw [e1, e2]; exact k3
  · intro i j hij hw o1 o2
    have hj : j < g.length := by
      obtain ⟨_, _, _, _, _, h2, _⟩ := hw
      exact (List.getElem?_eq_some_iff.1 h2).1
    rcases ((allPairs_distinct hK.ids).mem i j).2 ⟨by omega, hj, by omega⟩ with hm | hm
    · obtain ⟨r, _, hr⟩ := (hit_eq hK hC.toPosed hm).1 (by simpa [sortPair, hij.le] using hw) o1
      left
      have : (i, j, r) ∈ H := p1.symm.subset (List.mem_filterMap.2 ⟨_, hm, hr⟩)
      exact List.mem_map.2 ⟨_, this, rfl⟩
    · obtain ⟨r, _, hr⟩ := (hit_eq hK hC.toPosed hm).1 (by simpa [sortPair, hij.le] using hw) o2
      right
      have : (j, i, r) ∈ H := p1.symm.subset (List.mem_filterMap.2 ⟨_, hm, hr⟩)
      exact List.mem_map.2 ⟨_, this, rfl⟩

/-- The depth that is reported for a pair, zero when no overlap is reported. -/
noncomputable def reportedDepth (tol eps : ℝ) (a b : CapsuleState ℝ) : ℝ :=
  if overlaps tol eps a b = true then ((overlapInfo tol a b).map (·.overlap)).getD 0 else 0

open CollisionError Classical in
/-- **C67**: whatever was done with the object before, the error is the weighted sum of the squares of the depths reported
for the watched pairs, every pair taken once, in one of its orders. -/
theorem C67_error (B : ErrorBase) (offsets : List ℝ) (tol eps : ℝ) (g : List (TaperedCapsule ℝ))
    (rest : List (CapsuleState ℝ)) (hs : CollisionSetting B offsets tol g rest) (E : CollisionError)
    (hE : E.Reached B offsets tol eps g) (st : List JointState) (hne : st ≠ []) (hsc : ∀ js ∈ st, 0 ≤ js.transform.scale)
    (x : ℝ) (E' : CollisionError) (h : E.getError st = some (x, E')) :
    ∃ cs O, capsules g st = some cs ∧ AllPairs g.length O ∧
      x = kCollisionWeight * E.weight * (O.map fun p => if Watched B.skeleton tol eps g rest (min p.1 p.2) (max p.1 p.2)
        then reportedDepth tol eps (capsuleAt cs p.1) (capsuleAt cs p.2) ^ 2 else 0).sum := by
  have hR := ready hs hE hsc hne
  obtain ⟨h1, h2⟩ := getError_spec hR h
  obtain ⟨hK, hC, hb⟩ := broadPhase_spec hs.small hR.kept h1
  have hcap := hC.caps
  rw [hK.geometry] at hcap
  refine ⟨E'.collisionState, E'.order, hcap, allPairs_distinct hK.ids, ?_⟩
  rw [h2, hits, sum_filterMap, ← list_sum_map_mul]
  congr 1
  refine List.map_congr_left fun p hp => ?_
  have hwt : E'.weight = E.weight := by rw [hb]
  obtain ⟨k1, k2⟩ := hit_eq hK hC.toPosed hp
  by_cases hw : Watched B.skeleton tol eps g rest (min p.1 p.2) (max p.1 p.2)
  · rw [if_pos hw]
    by_cases ho : overlaps tol eps (capsuleAt E'.collisionState p.1) (capsuleAt E'.collisionState p.2) = true
    · obtain ⟨r, r1, r2⟩ := k1 hw ho
      rw [r2, reportedDepth, if_pos ho, r1]
      simp only [Option.map_some, Option.getD_some, pairError, hwt]
      ring
    · rw [k2 (fun h => ho h.2), reportedDepth, if_neg ho]
      simp
  · rw [if_neg hw, k2 (fun h => hw h.1)]
    simp

open CollisionError in
/-- **C67**: for at most 128 capsules all three evaluations return, whatever was done before. -/
theorem C67_returns (B : ErrorBase) (offsets : List ℝ) (tol eps : ℝ) (g : List (TaperedCapsule ℝ))
    (rest : List (CapsuleState ℝ)) (hs : CollisionSetting B offsets tol g rest) (hn : g.length ≤ 128) (E : CollisionError)
    (hE : E.Reached B offsets tol eps g) (pt : ParameterTransform ℝ) (hF : E.Fits pt) (st : List JointState) (hne : st ≠ [])
    (hlen : st.length = B.skeleton.joints.length) (hcl : ∀ js ∈ st, js.derivDirty = false)
    (hsc : ∀ js ∈ st, 0 ≤ js.transform.scale) (n : Nat) (hrows : E.getJacobianSize ≤ n) (g0 : Nat → ℝ) (J0 : Nat → Nat → ℝ)
    (r0 : Nat → ℝ) (u0 : Nat) :
    ∃ x grad s E', E.getError st = some (x, E') ∧ E.getGradient st g0 = some ((x, grad), E') ∧
      E.getJacobian st n J0 r0 u0 = some (s, E') ∧ s.error = x := by
  have hR := ready hs hE hsc hne
  obtain ⟨E', h1⟩ := broadPhase_some (st := st) hn hR.kept (fun tc ht => by rw [hlen]; exact hs.parents tc ht)
  obtain ⟨x, hx⟩ := getError_some hR h1
  obtain ⟨-, hx'⟩ := getError_spec hR hx
  obtain ⟨grad, hg, -⟩ := getGradient_spec hR hF hs.parents hlen hcl g0 h1
  obtain ⟨s, H, -, hj, he, -⟩ := getJacobian_spec hR hF hs.parents hlen hcl n hrows J0 r0 u0 h1
  exact ⟨x, grad, s, E', hx, by rw [hg, ← hx'], hj, by rw [he, hx']⟩

open CollisionError in
/-- **C67**: the rows that are filled are no more than announced, the squares of their residuals add up to the error, and
nothing else is touched. -/
theorem C67_rows (B : ErrorBase) (offsets : List ℝ) (tol eps : ℝ) (g : List (TaperedCapsule ℝ))
    (rest : List (CapsuleState ℝ)) (hs : CollisionSetting B offsets tol g rest) (E : CollisionError)
    (hE : E.Reached B offsets tol eps g) (pt : ParameterTransform ℝ) (hF : E.Fits pt) (hw : 0 ≤ E.weight)
    (st : List JointState) (hne : st ≠ [])
    (hlen : st.length = B.skeleton.joints.length) (hcl : ∀ js ∈ st, js.derivDirty = false)
    (hsc : ∀ js ∈ st, 0 ≤ js.transform.scale) (n : Nat) (J0 : Nat → Nat → ℝ)
    (r0 : Nat → ℝ) (u0 : Nat) (x : ℝ) (E' E'' : CollisionError) (s : JacobianResult)
    (hx : E.getError st = some (x, E')) (hj : E.getJacobian st n J0 r0 u0 = some (s, E'')) :
    s.error = x ∧ s.rows ≤ E.getJacobianSize ∧ ∑ t ∈ Finset.range s.rows, s.residual t ^ 2 = x ∧
      ∀ t, s.rows ≤ t → s.residual t = r0 t ∧ ∀ i, E.enabledParameters.mem i = true → s.e i t = J0 i t := by
  have hR := ready hs hE hsc hne
  have hrows : E.jacobianSize ≤ n := by
    by_contra hc
    rw [getJacobian, if_pos (by omega)] at hj; cases hj
  obtain ⟨h1, hx'⟩ := getError_spec hR hx
  obtain ⟨s', H, p1, j1, j2, j3, j4, j5, j6⟩ := getJacobian_spec hR hF hs.parents hlen hcl n hrows J0 r0 u0 h1
  rw [j1] at hj
  simp only [Option.some.injEq, Prod.mk.injEq] at hj
  obtain ⟨rfl, rfl⟩ := hj
  have hwt : E'.weight = E.weight := by rw [(broadPhase_spec hs.small hR.kept h1).2.2]
  refine ⟨by rw [j2, hx'], by rw [j3]; exact j4, ?_, fun t ht => j5 t (by omega)⟩
  rw [hx', ← (p1.map _).sum_eq, j3, ← sum_range_getElem H (fun h => E'.pairError h.2.2)]
  refine Finset.sum_congr rfl fun k hk => ?_
  have hk := Finset.mem_range.1 hk
  have e : H[k]? = some H[k] := List.getElem?_eq_getElem hk
  rw [(j6 k _ e).1, e]
  simp only [Option.map_some, Option.getD_some, pairError, hwt]
  rw [mul_pow, Real.sq_sqrt (mul_nonneg (by norm_num [kCollisionWeight]) hw)]
  ring

open CollisionError in
/-- **C67**: the product of the transposed Jacobian and the residual is the gradient.  (For the other error functions it is
half of the gradient.) -/
theorem C67_jacobian_residual (B : ErrorBase) (offsets : List ℝ) (tol eps : ℝ) (g : List (TaperedCapsule ℝ))
    (rest : List (CapsuleState ℝ)) (hs : CollisionSetting B offsets tol g rest) (E : CollisionError)
    (hE : E.Reached B offsets tol eps g) (pt : ParameterTransform ℝ) (hF : E.Fits pt) (hw : 0 ≤ E.weight)
    (st : List JointState) (hne : st ≠ [])
    (hlen : st.length = B.skeleton.joints.length) (hcl : ∀ js ∈ st, js.derivDirty = false)
    (hsc : ∀ js ∈ st, 0 ≤ js.transform.scale) (n : Nat)
    (x : ℝ) (grad : Nat → ℝ) (E' E'' : CollisionError) (s : JacobianResult)
    (hx : E.getGradient st (fun _ => 0) = some ((x, grad), E'))
    (hj : E.getJacobian st n (fun _ _ => 0) (fun _ => 0) 0 = some (s, E'')) (i : Nat)
    (hi : E.enabledParameters.mem i = true) :
    ∑ t ∈ Finset.range s.rows, s.e i t * s.residual t = grad i := by
  have hR := ready hs hE hsc hne
  have hrows : E.jacobianSize ≤ n := by
    by_contra hc
    rw [getJacobian, if_pos (by omega)] at hj; cases hj
  obtain ⟨E1, h1⟩ : ∃ E1, E.computeBroadPhase st = some E1 := by
    cases hb : E.computeBroadPhase st with
    | none =>
      rw [getGradient, if_neg hR.not_empty, hb] at hx; cases hx
    | some E1 => exact ⟨E1, rfl⟩
  obtain ⟨grad', g1, g2⟩ := getGradient_spec hR hF hs.parents hlen hcl (fun _ => 0) h1
  rw [g1] at hx
  simp only [Option.some.injEq, Prod.mk.injEq] at hx
  obtain ⟨⟨-, rfl⟩, rfl⟩ := hx
  obtain ⟨s', H, p1, j1, j2, j3, j4, j5, j6⟩ := getJacobian_spec hR hF hs.parents hlen hcl n hrows (fun _ _ => 0) (fun _ => 0) 0 h1
  rw [j1] at hj
  simp only [Option.some.injEq, Prod.mk.injEq] at hj
  obtain ⟨rfl, rfl⟩ := hj
  have hwt : E1.weight = E.weight := by rw [(broadPhase_spec hs.small hR.kept h1).2.2]
  rw [g2 i hi, zero_add, ← (p1.map _).sum_eq, j3, ← sum_range_getElem H]
  refine Finset.sum_congr rfl fun k hk => ?_
  have hk := Finset.mem_range.1 hk
  have e : H[k]? = some H[k] := List.getElem?_eq_getElem hk
  rw [(j6 k _ e).1, (j6 k _ e).2 i hi, e]
  simp only [Option.map_some, Option.getD_some, pairGrad, pairRow, hwt, zero_add]
  have := Real.mul_self_sqrt (mul_nonneg (by norm_num [kCollisionWeight] : 0 ≤ kCollisionWeight) hw)
  rw [mul_comm (H[k].2.2.overlap)]
  linear_combination (-(2 * (1 / H[k].2.2.distance)) * E1.pairRate st (fun r => pt.transform.coeff r i) H[k] *
    H[k].2.2.overlap) * this

/-! ## Capsules of constant radius -/

/-- The capsules for model parameters `p`. -/
noncomputable def posedCapsules (B : ErrorBase) (pt : ParameterTransform ℝ) (g : List (TaperedCapsule ℝ)) (p : Nat → ℝ) :
    List (CapsuleState ℝ) :=
  ((B.stateFor pt (paramVec pt.transform.cols p) true).bind (CollisionError.capsules g)).getD []

/-- The sum of the squared depths of the pairs. -/
noncomputable def penetration (pairs : Finset (Nat × Nat)) (cs : List (CapsuleState ℝ)) : ℝ :=
  ∑ p ∈ pairs, capsuleDepth (capsuleAt cs p.1) (capsuleAt cs p.2) ^ 2

open CollisionError in
/-- The error of the pairs that take part. -/
theorem CollisionError.hits_error {B : ErrorBase} {offsets : List ℝ} {tol eps : ℝ} {g : List (TaperedCapsule ℝ)}
    {rest : List (CapsuleState ℝ)} (hs : CollisionSetting B offsets tol g rest) {E' : CollisionError}
    (hK : E'.Kept B.skeleton tol eps g rest) {st : List JointState} (hC : E'.Posed st)
    (hsc : ∀ js ∈ st, 0 ≤ js.transform.scale)
    (hclear : ∀ p ∈ watchedPairs B.skeleton tol eps g rest,
      ClearPair tol eps (capsuleAt E'.collisionState p.1) (capsuleAt E'.collisionState p.2)) :
    (E'.hits.map fun h => E'.pairError h.2.2).sum =
      kCollisionWeight * E'.weight * penetration (watchedPairs B.skeleton tol eps g rest) E'.collisionState := by
  have hcs := hC.caps
  rw [hK.geometry] at hcs
  rw [penetration, Finset.mul_sum]
  have hval : ∀ a, a < g.length → (capsuleAt E'.collisionState a).Valid := by
    intro a ha
    refine valid_states hK hC hs.radii hsc _ ?_
    rw [capsuleAt, List.getD_eq_getElem?_getD, List.getElem?_eq_getElem (by rw [(capsules_spec hcs).1]; exact ha)]
    exact List.getElem_mem _
  exact sum_hits hK (fun p => kCollisionWeight * E'.weight *
    capsuleDepth (capsuleAt E'.collisionState p.1) (capsuleAt E'.collisionState p.2) ^ 2)
    (fun p => by simp only [Prod.fst_swap, Prod.snd_swap]; rw [capsuleDepth_comm]) _
    (fun q hq => by
      obtain ⟨_, ha, hb, hab, hw, ca, cb, k1, k2, k3, k4⟩ := mem_hits hK hq
      have e1 : capsuleAt E'.collisionState q.1 = ca := by rw [capsuleAt, List.getD_eq_getElem?_getD, k1]; rfl
      have e2 : capsuleAt E'.collisionState q.2.1 = cb := by rw [capsuleAt, List.getD_eq_getElem?_getD, k2]; rfl
      have hc := clear_order hclear hab ha hb hw
      have v1 := hval _ ha
      have v2 := hval _ hb
      simp only
      rw [e1] at hc v1 ⊢
      rw [e2] at hc v2 ⊢
      obtain ⟨_, r2, r3, _⟩ := (clear_info hs.htol v1 v2 hc).2 _ k3 k4
      rw [pairError, r3]; ring)
    (fun p hp hw hn => by
      obtain ⟨ha, hb, hab⟩ := ((allPairs_distinct hK.ids).mem p.1 p.2).1 (Or.inl hp)
      have hc := clear_order hclear hab ha hb hw
      have hno : ¬ overlaps tol eps (capsuleAt E'.collisionState p.1) (capsuleAt E'.collisionState p.2) = true := by
        intro ho
        obtain ⟨r, _, hr⟩ := (hit_eq hK hC hp).1 hw ho
        rw [hn] at hr; cases hr
      rw [(clear_info hs.htol (hval _ ha) (hval _ hb) hc).1] at hno
      have : capsuleDepth (capsuleAt E'.collisionState p.1) (capsuleAt E'.collisionState p.2) = 0 := by
        unfold capsuleDepth; exact max_eq_left (by linarith)
      rw [this]; ring)

open CollisionError in
/-- **C67**: when the capsules of every watched pair have constant radius, and are in general position when they overlap,
the error is the weighted sum of the squares of the true depths, whatever was done before. -/
theorem C67_error_exact (B : ErrorBase) (offsets : List ℝ) (tol eps : ℝ) (g : List (TaperedCapsule ℝ))
    (rest : List (CapsuleState ℝ)) (hs : CollisionSetting B offsets tol g rest) (E : CollisionError)
    (hE : E.Reached B offsets tol eps g) (st : List JointState) (hne : st ≠ []) (hsc : ∀ js ∈ st, 0 ≤ js.transform.scale)
    (x : ℝ) (E' : CollisionError) (h : E.getError st = some (x, E')) (cs : List (CapsuleState ℝ))
    (hcs : capsules g st = some cs)
    (hclear : ∀ p ∈ watchedPairs B.skeleton tol eps g rest, ClearPair tol eps (capsuleAt cs p.1) (capsuleAt cs p.2)) :
    x = kCollisionWeight * E.weight * penetration (watchedPairs B.skeleton tol eps g rest) cs := by
  have hR := ready hs hE hsc hne
  obtain ⟨h1, h2⟩ := getError_spec hR h
  obtain ⟨hK, hC, hb⟩ := broadPhase_spec hs.small hR.kept h1
  have hcap := hC.caps
  rw [hK.geometry, hcs, Option.some.injEq] at hcap
  subst hcap
  have hwt : E'.weight = E.weight := by rw [hb]
  rw [← hwt, h2]
  exact hits_error hs hK hC hsc hclear

open CollisionError in
/-- The states along a motion of parameter `i`. -/
theorem CollisionError.along {B : ErrorBase} {offsets : List ℝ} {tol eps : ℝ} {g : List (TaperedCapsule ℝ)}
    {rest : List (CapsuleState ℝ)} (hs : CollisionSetting B offsets tol g rest) {E : CollisionError}
    (hE : E.Kept B.skeleton tol eps g rest) {pt : ParameterTransform ℝ} (hF : E.Fits pt) (p : Nat → ℝ) {i : Nat}
    (hi : i < pt.transform.cols) :
    ∃ (θ : ℝ → List ℝ) (S : ℝ → List JointState),
      (∀ u, FKGood B.skeleton (θ u) true (S u)) ∧ (∀ u, (S u).length = B.skeleton.joints.length) ∧
      (∀ r t, HasDerivAt (fun u => (θ u).getD r 0) (pt.transform.coeff r i) t) ∧
      (∀ u, B.stateFor pt (paramVec pt.transform.cols (Function.update p i u)) true = some (S u)) ∧
      ∀ u a ga, g[a]? = some ga → capsuleAt (posedCapsules B pt g (Function.update p i u)) a = capsuleIn (S u) ga := by
  have hsk : E.skeleton = B.skeleton := hE.skeleton_eq
  obtain ⟨θ, S, S', h1, h2, h3, h4, h5, h6, h7⟩ := ErrorBase.states_curve hF (p := paramVec pt.transform.cols p)
    (StateError.paramVec_length _ _) hi
  rw [hsk] at h3
  simp only [hsk] at h4
  have hst : ∀ u, B.stateFor pt (paramVec pt.transform.cols (Function.update p i u)) true = some (S u) := by
    intro u
    have := h1 u
    rw [← StateError.paramVec_update] at this
    unfold ErrorBase.stateFor at this ⊢
    rw [← hsk]; exact this
  refine ⟨θ, S, h3, h4, h6, hst, fun u a ga ha => ?_⟩
  obtain ⟨cs, hcs⟩ := capsules_some (g := g) (st := S u) (fun tc ht => by rw [h4]; exact hs.parents tc ht)
  have : posedCapsules B pt g (Function.update p i u) = cs := by
    unfold posedCapsules
    rw [hst, Option.bind_some, hcs]; rfl
  rw [this]
  exact (capsuleAt_eq hcs ha).1

open CollisionError in
/-- What the pairs that take part add to the gradient. -/
theorem CollisionError.hits_gradient {B : ErrorBase} {offsets : List ℝ} {tol eps : ℝ} (heps : 0 < eps) {g : List (TaperedCapsule ℝ)}
    {rest : List (CapsuleState ℝ)} (hs : CollisionSetting B offsets tol g rest) {E1 : CollisionError}
    (hK : E1.Kept B.skeleton tol eps g rest) {pt : ParameterTransform ℝ} (hF : E1.Fits pt) (p : Nat → ℝ) {i : Nat}
    (hi : i < pt.transform.cols) (hscale : ∀ j, pt.transform.coeff (7 * j + 6) i = 0) {st : List JointState}
    (hst : B.stateFor pt (paramVec pt.transform.cols p) true = some st) (hC : E1.Posed st)
    (hclear : ∀ q ∈ watchedPairs B.skeleton tol eps g rest,
      ClearPair tol eps (capsuleAt E1.collisionState q.1) (capsuleAt E1.collisionState q.2)) :
    HasDerivAt (fun u => kCollisionWeight * E1.weight *
      penetration (watchedPairs B.skeleton tol eps g rest) (posedCapsules B pt g (Function.update p i u)))
      (E1.hits.map (E1.pairGrad st fun r => pt.transform.coeff r i)).sum (p i) := by
  obtain ⟨θ, S, hG, hlen, hθ, hS, hcap⟩ := along hs hK hF p hi
  have hsk : E1.skeleton = B.skeleton := hK.skeleton_eq
  have e0 : st = S (p i) := by
    have := hS (p i)
    rw [Function.update_eq_self, hst, Option.some.injEq] at this; exact this
  subst e0
  have hunit : ∀ jt ∈ B.skeleton.joints, jt.preRotation.normSq = 1 := by rw [← hsk]; exact hF.unit
  -- the derivative of one pair
  have hpair : ∀ a b ga gb, g[a]? = some ga → g[b]? = some gb →
      (fun u => capsuleDepth (capsuleAt (posedCapsules B pt g (Function.update p i u)) a)
        (capsuleAt (posedCapsules B pt g (Function.update p i u)) b) ^ 2) =
      fun u => capsuleDepth (capsuleIn (S u) ga) (capsuleIn (S u) gb) ^ 2 := by
    intro a b ga gb ha hb
    funext u; rw [hcap u a ga ha, hcap u b gb hb]
  have hmem : ∀ a, a < g.length → ∃ ga, g[a]? = some ga := fun a ha => ⟨_, List.getElem?_eq_getElem ha⟩
  set D : Nat × Nat → ℝ := fun q => deriv (fun u => capsuleDepth
    (capsuleAt (posedCapsules B pt g (Function.update p i u)) q.1)
    (capsuleAt (posedCapsules B pt g (Function.update p i u)) q.2) ^ 2) (p i) with hD
  have hhit : ∀ hh ∈ E1.hits, HasDerivAt (fun u => capsuleDepth
      (capsuleAt (posedCapsules B pt g (Function.update p i u)) hh.1)
      (capsuleAt (posedCapsules B pt g (Function.update p i u)) hh.2.1) ^ 2)
      (-2 * (hh.2.2.overlap / hh.2.2.distance) * E1.pairRate (S (p i)) (fun r => pt.transform.coeff r i) hh) (p i) := by
    intro hh hm
    obtain ⟨_, ha, hb', hab, hw, _⟩ := mem_hits hK hm
    obtain ⟨ga, g1⟩ := hmem _ ha
    obtain ⟨gb, g2⟩ := hmem _ hb'
    rw [hpair _ _ ga gb g1 g2]
    exact (hit_deriv hs.skeleton hunit hG hlen (fun r => hθ r (p i)) hscale hs.parents hs.radii hs.htol heps hK hC hm
      (clear_order hclear hab ha hb' hw) g1 g2).2.2
  have hmiss : ∀ q ∈ E1.order, Watched B.skeleton tol eps g rest (sortPair q).1 (sortPair q).2 → E1.hit q = none →
      HasDerivAt (fun u => capsuleDepth
      (capsuleAt (posedCapsules B pt g (Function.update p i u)) q.1)
      (capsuleAt (posedCapsules B pt g (Function.update p i u)) q.2) ^ 2) 0 (p i) := by
    intro q hq hw hn
    obtain ⟨ha, hb', hab⟩ := ((allPairs_distinct hK.ids).mem q.1 q.2).1 (Or.inl hq)
    obtain ⟨ga, g1⟩ := hmem _ ha
    obtain ⟨gb, g2⟩ := hmem _ hb'
    rw [hpair _ _ ga gb g1 g2]
    exact miss_deriv hs.skeleton hunit hG hlen (fun r => hθ r (p i)) hscale hs.parents hs.radii hs.htol hK hC hq hw hn
      (clear_order hclear hab ha hb' hw) g1 g2
  have hswap : ∀ q, D q.swap = D q := by
    intro q
    simp only [hD, Prod.fst_swap, Prod.snd_swap]
    congr 1; funext u; rw [capsuleDepth_comm]
  have hall : ∀ q ∈ watchedPairs B.skeleton tol eps g rest, HasDerivAt (fun u => capsuleDepth
      (capsuleAt (posedCapsules B pt g (Function.update p i u)) q.1)
      (capsuleAt (posedCapsules B pt g (Function.update p i u)) q.2) ^ 2) (D q) (p i) := by
    intro q hq
    classical
    simp only [watchedPairs, Finset.mem_filter, Finset.mem_product, Finset.mem_range] at hq
    obtain ⟨⟨qa, qb⟩, qlt, qw⟩ := hq
    have hone : ∀ q' ∈ E1.order, Watched B.skeleton tol eps g rest (sortPair q').1 (sortPair q').2 →
        ∃ d, HasDerivAt (fun u => capsuleDepth
      (capsuleAt (posedCapsules B pt g (Function.update p i u)) q'.1)
      (capsuleAt (posedCapsules B pt g (Function.update p i u)) q'.2) ^ 2) d (p i) := by
      intro q' hq' hw'
      cases hh : E1.hit q' with
      | none => exact ⟨0, hmiss q' hq' hw' hh⟩
      | some r =>
        have hm : r ∈ E1.hits := List.mem_filterMap.2 ⟨q', hq', hh⟩
        have : (r.1, r.2.1) = q' := by
          unfold hit at hh
          rw [Option.map_eq_some_iff] at hh
          obtain ⟨r, _, rfl⟩ := hh; rfl
        rw [← this]
        exact ⟨_, hhit r hm⟩
    rcases ((allPairs_distinct hK.ids).mem q.1 q.2).2 ⟨qa, qb, qlt.ne⟩ with hm | hm
    · obtain ⟨d, hd⟩ := hone q hm (by simpa [sortPair, qlt.le] using qw)
      exact hd.differentiableAt.hasDerivAt
    · obtain ⟨d, hd⟩ := hone (q.2, q.1) hm (by simpa [sortPair, qlt.le] using qw)
      rw [← hswap]
      have e : (fun u => capsuleDepth
        (capsuleAt (posedCapsules B pt g (Function.update p i u)) q.1)
        (capsuleAt (posedCapsules B pt g (Function.update p i u)) q.2) ^ 2) = fun u => capsuleDepth
        (capsuleAt (posedCapsules B pt g (Function.update p i u)) q.2)
        (capsuleAt (posedCapsules B pt g (Function.update p i u)) q.1) ^ 2 := by
        funext u; rw [capsuleDepth_comm]
      rw [e]
      exact hd.differentiableAt.hasDerivAt
  have hsum := (HasDerivAt.fun_sum (u := watchedPairs B.skeleton tol eps g rest) fun q hq => hall q hq).const_mul
    (kCollisionWeight * E1.weight)
  refine hsum.congr_deriv ?_
  rw [Finset.mul_sum]
  symm
  exact sum_hits hK (fun q => kCollisionWeight * E1.weight * D q) (fun q => by simp only [hswap]) _
    (fun hh hm => by
      have : D (hh.1, hh.2.1) = _ := (hhit hh hm).deriv
      simp only [this, pairGrad]; ring)
    (fun q hq hw hn => by
      have : D q = _ := (hmiss q hq hw hn).deriv
      simp only [this, mul_zero])

open CollisionError in
/-- **C67**: the gradient is the derivative of the weighted sum of the squares of the true depths in every enabled parameter
that does not scale a joint, when the capsules of the watched pairs have constant radius and are in general position when
they overlap.  (Parameters that scale a joint: `C67_scale_counterexample`.) -/
theorem C67_gradient_partial (B : ErrorBase) (offsets : List ℝ) (tol eps : ℝ) (heps : 0 < eps) (g : List (TaperedCapsule ℝ))
    (rest : List (CapsuleState ℝ)) (hs : CollisionSetting B offsets tol g rest) (E : CollisionError)
    (hE : E.Reached B offsets tol eps g) (pt : ParameterTransform ℝ) (hF : E.Fits pt) (hne : B.skeleton.joints ≠ [])
    (p : Nat → ℝ) (i : Nat) (hi : i < pt.transform.cols) (hen : E.enabledParameters.mem i = true)
    (hscale : ∀ j, pt.transform.coeff (7 * j + 6) i = 0)
    (hclear : ∀ q ∈ watchedPairs B.skeleton tol eps g rest,
      ClearPair tol eps (capsuleAt (posedCapsules B pt g p) q.1) (capsuleAt (posedCapsules B pt g p) q.2))
    (st : List JointState) (hst : B.stateFor pt (paramVec pt.transform.cols p) true = some st) (x : ℝ) (grad : Nat → ℝ)
    (E' : CollisionError) (h : E.getGradient st (fun _ => 0) = some ((x, grad), E')) :
    x = kCollisionWeight * E.weight * penetration (watchedPairs B.skeleton tol eps g rest) (posedCapsules B pt g p) ∧
    HasDerivAt (fun u => kCollisionWeight * E.weight *
      penetration (watchedPairs B.skeleton tol eps g rest) (posedCapsules B pt g (Function.update p i u))) (grad i) (p i) := by
  obtain ⟨θ, S, hG, hlen, hθ, hS, hcap⟩ := along hs (reached_kept hs hE) hF p hi
  have hsk : E.skeleton = B.skeleton := (reached_kept hs hE).skeleton_eq
  have e0 : st = S (p i) := by
    have := hS (p i)
    rw [Function.update_eq_self, hst, Option.some.injEq] at this; exact this
  subst e0
  have hsc := scale_nonneg_of_good hs.skeleton (hG (p i)) (hlen (p i))
  have hne' : S (p i) ≠ [] := by
    intro h0
    have := hlen (p i)
    rw [h0, List.length_nil] at this
    exact hne (List.length_eq_zero_iff.1 this.symm)
  have hR := ready hs hE hsc hne'
  obtain ⟨E1, h1⟩ : ∃ E1, E.computeBroadPhase (S (p i)) = some E1 := by
    cases hb : E.computeBroadPhase (S (p i)) with
    | none => rw [getGradient, if_neg hR.not_empty, hb] at h; cases h
    | some E1 => exact ⟨E1, rfl⟩
  obtain ⟨grad', q1, q2⟩ := getGradient_spec hR hF hs.parents (hlen _)
    (ErrorBase.clean_of_good (hG (p i)) (hlen _)) (fun _ => 0) h1
  rw [q1] at h
  simp only [Option.some.injEq, Prod.mk.injEq] at h
  obtain ⟨⟨hx, rfl⟩, rfl⟩ := h
  obtain ⟨hK, hC, hb⟩ := broadPhase_spec hs.small hR.kept h1
  have hwt : E1.weight = E.weight := by rw [hb]
  have hcs := hC.caps
  rw [hK.geometry] at hcs
  have hpc : posedCapsules B pt g p = E1.collisionState := by
    unfold posedCapsules
    rw [hst, Option.bind_some, hcs]; rfl
  rw [hpc] at hclear ⊢
  constructor
  · obtain ⟨x', hx'⟩ := getError_some hR h1
    obtain ⟨-, k⟩ := getError_spec hR hx'
    rw [← hx, ← k]
    exact C67_error_exact B offsets tol eps g rest hs E hE _ hne' hsc x' _ hx' _ hcs hclear
  · rw [q2 i hen, zero_add, ← hwt]
    exact hits_gradient heps hs hK (fits_of_base hb hF) p hi hscale hst hC hclear

open CollisionError in
/-- What the pairs that take part write into their rows. -/
theorem CollisionError.hits_rows {B : ErrorBase} {offsets : List ℝ} {tol eps : ℝ} (heps : 0 < eps) {g : List (TaperedCapsule ℝ)}
    {rest : List (CapsuleState ℝ)} (hs : CollisionSetting B offsets tol g rest) {E1 : CollisionError}
    (hK : E1.Kept B.skeleton tol eps g rest) {pt : ParameterTransform ℝ} (hF : E1.Fits pt) (p : Nat → ℝ) {i : Nat}
    (hi : i < pt.transform.cols) (hscale : ∀ j, pt.transform.coeff (7 * j + 6) i = 0) {st : List JointState}
    (hst : B.stateFor pt (paramVec pt.transform.cols p) true = some st) (hC : E1.Posed st)
    (hclear : ∀ q ∈ watchedPairs B.skeleton tol eps g rest,
      ClearPair tol eps (capsuleAt E1.collisionState q.1) (capsuleAt E1.collisionState q.2))
    (H : List (Nat × Nat × OverlapInfo)) (p1 : H.Perm E1.hits) :
    (H.map fun h => sortPair (h.1, h.2.1)).Nodup ∧
      (∀ q ∈ H.map fun h => sortPair (h.1, h.2.1), q ∈ watchedPairs B.skeleton tol eps g rest) ∧
      ∀ (t : Nat) hh, H[t]? = some hh →
        hh.2.2.overlap * Real.sqrt (kCollisionWeight * E1.weight) = Real.sqrt (kCollisionWeight * E1.weight) *
          capsuleDepth (capsuleAt E1.collisionState (sortPair (hh.1, hh.2.1)).1)
            (capsuleAt E1.collisionState (sortPair (hh.1, hh.2.1)).2) ∧
        HasDerivAt (fun u => Real.sqrt (kCollisionWeight * E1.weight) *
          capsuleDepth (capsuleAt (posedCapsules B pt g (Function.update p i u)) (sortPair (hh.1, hh.2.1)).1)
            (capsuleAt (posedCapsules B pt g (Function.update p i u)) (sortPair (hh.1, hh.2.1)).2))
          (E1.pairRow st (fun r => pt.transform.coeff r i) hh / 2) (p i) := by
  obtain ⟨θ, S, hG, hlen, hθ, hS, hcap⟩ := along hs hK hF p hi
  have hsk : E1.skeleton = B.skeleton := hK.skeleton_eq
  have e0 : st = S (p i) := by
    have := hS (p i)
    rw [Function.update_eq_self, hst, Option.some.injEq] at this; exact this
  subst e0
  have hcs := hC.caps
  rw [hK.geometry] at hcs
  have hunit : ∀ jt ∈ B.skeleton.joints, jt.preRotation.normSq = 1 := by rw [← hsk]; exact hF.unit
  have hmem : ∀ a, a < g.length → ∃ ga, g[a]? = some ga := fun a ha => ⟨_, List.getElem?_eq_getElem ha⟩
  refine ⟨?_, ?_, ?_⟩
  · have hN : ((E1.hits.map fun h => (h.1, h.2.1)).map sortPair).Nodup := by
      have := (sort_nodup (allPairs_distinct hK.ids).once).sublist ((hits_sublist E1).map sortPair)
      exact this
    rw [List.map_map] at hN
    exact (p1.map _).nodup_iff.2 hN
  · intro q hq
    classical
    obtain ⟨hh, hm, rfl⟩ := List.mem_map.1 hq
    obtain ⟨_, ha, hb', hab, hw, _⟩ := mem_hits hK (p1.subset hm)
    simp only [watchedPairs, Finset.mem_filter, Finset.mem_product, Finset.mem_range, sortPair]
    exact ⟨by omega, by omega, hw⟩
  · intro t hh hk
    have hm := p1.subset (List.mem_of_getElem? hk)
    obtain ⟨_, ha, hb', hab, hw, _⟩ := mem_hits hK hm
    obtain ⟨ga, g1⟩ := hmem _ ha
    obtain ⟨gb, g2⟩ := hmem _ hb'
    obtain ⟨d1, d2, d3⟩ := hit_deriv hs.skeleton hunit hG hlen (fun r => hθ r (p i)) hscale hs.parents hs.radii hs.htol heps
      hK hC hm (clear_order hclear hab ha hb' hw) g1 g2
    have hsort : ∀ cs : List (CapsuleState ℝ), capsuleDepth (capsuleAt cs (sortPair (hh.1, hh.2.1)).1)
        (capsuleAt cs (sortPair (hh.1, hh.2.1)).2) = capsuleDepth (capsuleAt cs hh.1) (capsuleAt cs hh.2.1) := by
      intro cs
      rcases le_total hh.1 hh.2.1 with hle | hle
      · simp [sortPair, hle]
      · simp only [sortPair, min_eq_right hle, max_eq_left hle]; exact capsuleDepth_comm _ _
    simp only [hsort]
    have e1 := (capsuleAt_eq hcs g1).1
    have e2 := (capsuleAt_eq hcs g2).1
    refine ⟨by rw [d2, e1, e2, mul_comm], ?_⟩
    have hdn : ∀ a b, 0 ≤ capsuleDepth a b := fun _ _ => le_max_left _ _
    have hroot : (fun u => Real.sqrt (kCollisionWeight * E1.weight) *
          capsuleDepth (capsuleAt (posedCapsules B pt g (Function.update p i u)) hh.1)
            (capsuleAt (posedCapsules B pt g (Function.update p i u)) hh.2.1)) = fun u =>
        Real.sqrt (kCollisionWeight * E1.weight) * Real.sqrt (capsuleDepth (capsuleIn (S u) ga) (capsuleIn (S u) gb) ^ 2) := by
      funext u
      rw [hcap u _ ga g1, hcap u _ gb g2, Real.sqrt_sq (hdn _ _)]
    rw [hroot]
    have hpos : capsuleDepth (capsuleIn (S (p i)) ga) (capsuleIn (S (p i)) gb) ^ 2 ≠ 0 := by
      rw [← d2]; positivity
    refine ((d3.sqrt hpos).const_mul _).congr_deriv ?_
    rw [Real.sqrt_sq (hdn _ _), pairRow, ← d2]
    field_simp

open CollisionError in
/-- **C67**: every row of the Jacobian belongs to a watched pair of its own; its residual is the weighted true depth of the
pair, but its entries are twice the derivative of that residual. -/
theorem C67_jacobian_twice (B : ErrorBase) (offsets : List ℝ) (tol eps : ℝ) (heps : 0 < eps) (g : List (TaperedCapsule ℝ))
    (rest : List (CapsuleState ℝ)) (hs : CollisionSetting B offsets tol g rest) (E : CollisionError)
    (hE : E.Reached B offsets tol eps g) (pt : ParameterTransform ℝ) (hF : E.Fits pt) (hne : B.skeleton.joints ≠ [])
    (p : Nat → ℝ) (i : Nat) (hi : i < pt.transform.cols) (hen : E.enabledParameters.mem i = true)
    (hscale : ∀ j, pt.transform.coeff (7 * j + 6) i = 0)
    (hclear : ∀ q ∈ watchedPairs B.skeleton tol eps g rest,
      ClearPair tol eps (capsuleAt (posedCapsules B pt g p) q.1) (capsuleAt (posedCapsules B pt g p) q.2))
    (st : List JointState) (hst : B.stateFor pt (paramVec pt.transform.cols p) true = some st) (n : Nat)
    (s : JacobianResult) (E' : CollisionError)
    (h : E.getJacobian st n (fun _ _ => 0) (fun _ => 0) 0 = some (s, E')) :
    ∃ L : List (Nat × Nat), L.Nodup ∧ L.length = s.rows ∧ (∀ q ∈ L, q ∈ watchedPairs B.skeleton tol eps g rest) ∧
      ∀ t q, L[t]? = some q →
        s.residual t = Real.sqrt (kCollisionWeight * E.weight) *
          capsuleDepth (capsuleAt (posedCapsules B pt g p) q.1) (capsuleAt (posedCapsules B pt g p) q.2) ∧
        HasDerivAt (fun u => Real.sqrt (kCollisionWeight * E.weight) *
          capsuleDepth (capsuleAt (posedCapsules B pt g (Function.update p i u)) q.1)
            (capsuleAt (posedCapsules B pt g (Function.update p i u)) q.2)) (s.e i t / 2) (p i) := by
  obtain ⟨θ, S, hG, hlen, hθ, hS, hcap⟩ := along hs (reached_kept hs hE) hF p hi
  have hsk : E.skeleton = B.skeleton := (reached_kept hs hE).skeleton_eq
  have e0 : st = S (p i) := by
    have := hS (p i)
    rw [Function.update_eq_self, hst, Option.some.injEq] at this; exact this
  subst e0
  have hsc := scale_nonneg_of_good hs.skeleton (hG (p i)) (hlen (p i))
  have hne' : S (p i) ≠ [] := by
    intro h0
    have := hlen (p i)
    rw [h0, List.length_nil] at this
    exact hne (List.length_eq_zero_iff.1 this.symm)
  have hR := ready hs hE hsc hne'
  have hrows : E.jacobianSize ≤ n := by
    by_contra hc
    rw [getJacobian, if_pos (by omega)] at h; cases h
  obtain ⟨E1, h1⟩ : ∃ E1, E.computeBroadPhase (S (p i)) = some E1 := by
    cases hb : E.computeBroadPhase (S (p i)) with
    | none => rw [getJacobian, if_neg (by omega), if_neg hR.not_empty, hb] at h; cases h
    | some E1 => exact ⟨E1, rfl⟩
  obtain ⟨s', H, p1, j1, j2, j3, j4, j5, j6⟩ := getJacobian_spec hR hF hs.parents (hlen _)
    (ErrorBase.clean_of_good (hG (p i)) (hlen _)) n hrows (fun _ _ => 0) (fun _ => 0) 0 h1
  rw [j1] at h
  simp only [Option.some.injEq, Prod.mk.injEq] at h
  obtain ⟨rfl, rfl⟩ := h
  obtain ⟨hK, hC, hb⟩ := broadPhase_spec hs.small hR.kept h1
  have hwt : E1.weight = E.weight := by rw [hb]
  have hcs := hC.caps
  rw [hK.geometry] at hcs
  have hpc : posedCapsules B pt g p = E1.collisionState := by
    unfold posedCapsules
    rw [hst, Option.bind_some, hcs]; rfl
  rw [hpc] at hclear ⊢
  obtain ⟨r1, r2, r3⟩ := hits_rows heps hs hK (fits_of_base hb hF) p hi hscale hst hC hclear H p1
  refine ⟨H.map fun h => sortPair (h.1, h.2.1), r1, by rw [List.length_map, j3], r2, ?_⟩
  intro t q hq
  rw [List.getElem?_map, Option.map_eq_some_iff] at hq
  obtain ⟨hh, hk, rfl⟩ := hq
  obtain ⟨k1, k2⟩ := r3 t hh hk
  rw [(j6 t hh hk).1, (j6 t hh hk).2 i hen, zero_add, ← hwt]
  exact ⟨k1, k2⟩

end Momentum
