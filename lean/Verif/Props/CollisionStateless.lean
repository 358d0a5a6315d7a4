import Verif.Lemmas.CollisionStateless2

/-!
# C82: the collision error function with stored pairs
-/

namespace Momentum
open Skeleton

/-- The objects a program can come to: built by the constructor, then configured and evaluated any number of times, in any
order, for any poses. -/
inductive StatelessCollision.Reached (B : ErrorBase) (offsets : List ℝ) (tol eps : ℝ) (g : List (TaperedCapsule ℝ)) :
    StatelessCollision → Prop
  | new {E} : StatelessCollision.construct B offsets tol eps g = some E → Reached B offsets tol eps g E
  | configure {E} (w a e) : Reached B offsets tol eps g E → Reached B offsets tol eps g (E.configure w a e)
  | error {E st x E'} : Reached B offsets tol eps g E → E.getError st = some (x, E') → Reached B offsets tol eps g E'
  | gradient {E st g0 x E'} : Reached B offsets tol eps g E → E.getGradient st g0 = some (x, E') →
      Reached B offsets tol eps g E'
  | jacobian {E st n J0 r0 u0 x E'} : Reached B offsets tol eps g E → E.getJacobian st n J0 r0 u0 = some (x, E') →
      Reached B offsets tol eps g E'

namespace StatelessCollision
open CollisionError

/-- Everything that is not overwritten by an evaluation stays. -/
theorem forPairs_same {σ : Type} {E E' : StatelessCollision} {f : σ → Nat × Nat × Option Nat → OverlapInfo → Option σ}
    {s x : σ} (h : E.forPairs f s = some (x, E')) : ∃ A, A.length = E.collisionActive.length ∧
      E' = { E with collisionActive := A } := by
  unfold forPairs at h
  rw [Option.map_eq_some_iff] at h
  obtain ⟨⟨y, A⟩, h1, h2⟩ := h
  simp only [Prod.mk.injEq] at h2
  refine ⟨A, ?_, h2.2.symm⟩
  have : ∀ (L : List ((Nat × Nat × Option Nat) × Nat)) (s : σ × List Bool) r, L.foldlM (E.activeStep f) s = some r →
      r.2.length = s.2.length := by
    intro L
    induction L with
    | nil => intro s r h; rw [← Option.some.inj h]
    | cons q L ih =>
      intro s r h
      rw [List.foldlM_cons] at h
      simp only [Option.bind_eq_bind, Option.bind_eq_some_iff] at h
      obtain ⟨s', h1, h2⟩ := h
      rw [ih s' r h2]
      simp only [activeStep, Option.bind_eq_bind, Option.bind_eq_some_iff] at h1
      obtain ⟨ca, _, cb, _, h3⟩ := h1
      split at h3
      · simp only [Option.bind_eq_some_iff] at h3
        obtain ⟨r, _, h4⟩ := h3
        split at h4
        · simp only [Option.bind_eq_some_iff, Option.some.injEq] at h4
          obtain ⟨y, _, rfl⟩ := h4
          simp
        · cases h4
      · rw [← Option.some.inj h3]
  exact this _ _ _ h1

theorem update_same {E E' : StatelessCollision} {st : List JointState} (h : E.update st = some E') :
    ∃ cs, E' = { E with collisionState := cs, collisionActive := List.replicate E.collisionActive.length false } := by
  unfold update at h
  simp only [Option.bind_eq_bind, Option.bind_eq_some_iff, Option.some.injEq] at h
  obtain ⟨cs, _, rfl⟩ := h
  exact ⟨cs, rfl⟩

/-- The object after evaluations differs from that of the constructor in its settings and in what is overwritten. -/
def Later (E0 E : StatelessCollision) : Prop :=
  ∃ w a e A cs, A.length = E0.collisionActive.length ∧
    E = { E0.configure w a e with collisionActive := A, collisionState := cs }

theorem Later.step {σ : Type} {E0 E E1 E' : StatelessCollision} {st : List JointState} (h : Later E0 E)
    {f : σ → Nat × Nat × Option Nat → OverlapInfo → Option σ} {s x : σ} (h1 : E.update st = some E1)
    (h2 : E1.forPairs f s = some (x, E')) : Later E0 E' := by
  obtain ⟨w, a, e, A, cs, hA, rfl⟩ := h
  obtain ⟨cs', rfl⟩ := update_same h1
  obtain ⟨A', hA', rfl⟩ := forPairs_same h2
  exact ⟨w, a, e, A', cs', by simpa [hA] using hA', rfl⟩

theorem reached_later {B : ErrorBase} {offsets : List ℝ} {tol eps : ℝ} {g : List (TaperedCapsule ℝ)} {E : StatelessCollision}
    (h : E.Reached B offsets tol eps g) : ∃ E0, construct B offsets tol eps g = some E0 ∧ Later E0 E := by
  induction h with
  | @new E h => exact ⟨E, h, E.weight, E.activeJointParams, E.enabledParameters, _, _, rfl, rfl⟩
  | configure w a e _ ih =>
    obtain ⟨E0, h0, _, _, _, A, cs, hA, rfl⟩ := ih
    exact ⟨E0, h0, w, a, e, A, cs, hA, rfl⟩
  | @error E st x E' _ h ih =>
    obtain ⟨E0, h0, hl⟩ := ih
    refine ⟨E0, h0, ?_⟩
    unfold getError at h
    split at h
    · simp only [Option.some.injEq, Prod.mk.injEq] at h; rw [← h.2]; exact hl
    · simp only [Option.bind_eq_bind, Option.bind_eq_some_iff] at h
      obtain ⟨E1, h1, h2⟩ := h
      exact hl.step h1 h2
  | @gradient E st g0 x E' _ h ih =>
    obtain ⟨E0, h0, hl⟩ := ih
    refine ⟨E0, h0, ?_⟩
    unfold getGradient at h
    split at h
    · simp only [Option.some.injEq, Prod.mk.injEq] at h; rw [← h.2]; exact hl
    · simp only [Option.bind_eq_bind, Option.bind_eq_some_iff] at h
      obtain ⟨E1, h1, h2⟩ := h
      exact hl.step h1 h2
  | @jacobian E st n J0 r0 u0 x E' _ h ih =>
    obtain ⟨E0, h0, hl⟩ := ih
    refine ⟨E0, h0, ?_⟩
    unfold getJacobian at h
    split at h
    · cases h
    · split at h
      · simp only [Option.some.injEq, Prod.mk.injEq] at h; rw [← h.2]; exact hl
      · simp only [Option.bind_eq_bind, Option.bind_eq_some_iff] at h
        obtain ⟨E1, h1, h2⟩ := h
        exact hl.step h1 h2

theorem reached_kept {B : ErrorBase} {offsets : List ℝ} {tol eps : ℝ} {g : List (TaperedCapsule ℝ)}
    {rest : List (CapsuleState ℝ)} (hs : CollisionSetting B offsets tol g rest) {E : StatelessCollision}
    (h : E.Reached B offsets tol eps g) : E.Kept B.skeleton tol eps g rest := by
  obtain ⟨E0, h0, w, a, e, A, cs, hA, rfl⟩ := reached_later h
  have k := construct_kept hs.skeleton hs.parents hs.rest h0
  exact ⟨k.skeleton_eq, k.tol_eq, k.eps_eq, k.geometry, k.pairs, k.stops, hA.trans k.active⟩

end StatelessCollision

open StatelessCollision in
/-- **C82**: construction succeeds for every skeleton in which any two joints with capsules have a common ancestor, with any
number of capsules. -/
theorem C82_construct (B : ErrorBase) (offsets : List ℝ) (tol eps : ℝ) (g : List (TaperedCapsule ℝ))
    (rest : List (CapsuleState ℝ)) (hs : CollisionSetting B offsets tol g rest)
    (hone : ∀ a ∈ g, ∀ b ∈ g, ∃ c, B.skeleton.Anc a.parent c ∧ B.skeleton.Anc b.parent c) :
    ∃ E, StatelessCollision.construct B offsets tol eps g = some E := by
  obtain ⟨state, s1, s2⟩ := hs.rest
  have hl := (CollisionError.capsules_spec s2).1
  have hfold : ∀ (l : List (Nat × Nat)), (∀ p ∈ l, p ∈ allIJ g.length) → ∀ a, ∃ r,
      l.foldlM (fun acc (p : Nat × Nat) => (⟨B, tol, eps, g, [], [], rest⟩ : StatelessCollision).pairStep rest p.1 acc p.2) a
        = some r := by
    intro l
    induction l with
    | nil => intro _ a; exact ⟨a, rfl⟩
    | cons x l ih =>
      intro hx a
      obtain ⟨a', e⟩ := (pairStep_spec (E := ⟨B, tol, eps, g, [], [], rest⟩) hs.skeleton hl hs.parents
        (hx x (by simp)) a).2 hone
      obtain ⟨r, e'⟩ := ih (fun p hp => hx p (by simp [hp])) a'
      exact ⟨r, by rw [List.foldlM_cons]; simp only [Option.bind_eq_bind]; rw [e]; exact e'⟩
  obtain ⟨pairs, hp⟩ := hfold _ (fun _ h => h) []
  rw [← pairLoop_flat] at hp
  unfold StatelessCollision.construct
  rw [s1]
  simp only [Option.bind_eq_bind, Option.bind_some, s2]
  rw [hp]
  exact ⟨_, rfl⟩

open StatelessCollision in
/-- **C82**: whatever was done with the object, the Jacobian has as many rows as there are pairs of capsules to be kept
apart. -/
theorem C82_size (B : ErrorBase) (offsets : List ℝ) (tol eps : ℝ) (g : List (TaperedCapsule ℝ))
    (rest : List (CapsuleState ℝ)) (hs : CollisionSetting B offsets tol g rest) (E : StatelessCollision)
    (hE : E.Reached B offsets tol eps g) :
    E.getJacobianSize = (watchedPairs B.skeleton tol eps g rest).card :=
  CollisionError.size_card (twin_kept (StatelessCollision.reached_kept hs hE))

open StatelessCollision in
/-- **C82**: for objects with the same settings, a call has the same result and leaves the same object, whatever was done
with each before: no trace of an earlier pose is left. -/
theorem C82_history (B : ErrorBase) (offsets : List ℝ) (tol eps : ℝ) (g : List (TaperedCapsule ℝ))
    (E F : StatelessCollision) (hE : E.Reached B offsets tol eps g) (hF : F.Reached B offsets tol eps g)
    (hw : E.weight = F.weight) (ha : E.activeJointParams = F.activeJointParams)
    (he : E.enabledParameters = F.enabledParameters) (st : List JointState) (hne : st ≠ []) :
    E.getError st = F.getError st ∧ (∀ g0, E.getGradient st g0 = F.getGradient st g0) ∧
      ∀ n J0 r0 u0, E.getJacobian st n J0 r0 u0 = F.getJacobian st n J0 r0 u0 := by
  obtain ⟨E0, h0, w, a, e, A, cs, hA, rfl⟩ := reached_later hE
  obtain ⟨E0', h0', w', a', e', A', cs', hA', rfl⟩ := reached_later hF
  rw [h0, Option.some.injEq] at h0'
  subst h0'
  simp only [configure] at hw ha he
  subst hw ha he
  have hu : ({ E0.configure w a e with collisionActive := A, collisionState := cs } : StatelessCollision).update st =
      ({ E0.configure w a e with collisionActive := A', collisionState := cs' } : StatelessCollision).update st := by
    simp only [update, hA, hA']
  have hn := not_empty hne
  refine ⟨?_, fun g0 => ?_, fun n J0 r0 u0 => ?_⟩
  · unfold getError; rw [if_neg hn, if_neg hn, hu]
  · unfold getGradient; rw [if_neg hn, if_neg hn, hu]
  · unfold getJacobian
    rw [if_neg hn, if_neg hn, hu]

open StatelessCollision CollisionError in
/-- **C82**: after the error was evaluated for a pose, `getCollisionPairs` lists exactly the watched pairs that are reported
to overlap in that pose, each once, in lexicographic order. -/
theorem C82_collision_pairs (B : ErrorBase) (offsets : List ℝ) (tol eps : ℝ) (g : List (TaperedCapsule ℝ))
    (rest : List (CapsuleState ℝ)) (hs : CollisionSetting B offsets tol g rest) (E : StatelessCollision)
    (hE : E.Reached B offsets tol eps g) (st : List JointState) (hne : st ≠ [])
    (x : ℝ) (E' : StatelessCollision) (h : E.getError st = some (x, E')) :
    ∃ cs L, capsules g st = some cs ∧ E'.getCollisionPairs = some L ∧
      L.Pairwise (fun p q => p.1 < q.1 ∨ p.1 = q.1 ∧ p.2 < q.2) ∧
      ∀ i j, (i, j) ∈ L ↔ i < j ∧ Watched B.skeleton tol eps g rest i j ∧
        overlaps tol eps (capsuleAt cs i) (capsuleAt cs j) = true := by
  have hK := StatelessCollision.reached_kept hs hE
  obtain ⟨E1, h1⟩ : ∃ E1, E.update st = some E1 := by
    cases hu : E.update st with
    | none => rw [StatelessCollision.getError, if_neg (not_empty hne), hu] at h; cases h
    | some E1 => exact ⟨E1, rfl⟩
  rw [getError_eq hK hne h1] at h
  simp only [Option.some.injEq, Prod.mk.injEq] at h
  obtain ⟨-, rfl⟩ := h
  obtain ⟨k1, k2, _, _, _⟩ := update_spec hK h1
  have hT := twin_kept k1
  have hcap := k2.caps
  rw [hT.geometry] at hcap
  have hget : ∀ (L : List (Nat × Nat × Option Nat)) (P A : List Bool) (acc : List (Nat × Nat)),
      (L.zipIdx P.length).foldlM (init := acc) (fun result q =>
        ((P ++ L.map (fun q => (E1.twin.hit (q.1, q.2.1)).isSome) ++ A)[q.2]?).map fun on =>
          if on = true then result ++ [(q.1.1, q.1.2.1)] else result) =
      some (acc ++ ((L.map fun q => (q.1, q.2.1)).filter fun p => (E1.twin.hit p).isSome)) := by
    intro L
    induction L with
    | nil => intro P A acc; simp
    | cons q L ih =>
      intro P A acc
      rw [List.zipIdx_cons, List.foldlM_cons]
      have e : (P ++ (q :: L).map (fun q => (E1.twin.hit (q.1, q.2.1)).isSome) ++ A)[P.length]? =
          some (E1.twin.hit (q.1, q.2.1)).isSome := by simp
      have e' : P ++ (q :: L).map (fun q => (E1.twin.hit (q.1, q.2.1)).isSome) ++ A =
          (P ++ [(E1.twin.hit (q.1, q.2.1)).isSome]) ++ L.map (fun q => (E1.twin.hit (q.1, q.2.1)).isSome) ++ A := by simp
      simp only [e, Option.map_some, Option.bind_eq_bind, Option.bind_some]
      have := ih (P ++ [(E1.twin.hit (q.1, q.2.1)).isSome]) A
      rw [List.length_append, List.length_singleton] at this
      rw [e', this]
      by_cases hh : (E1.twin.hit (q.1, q.2.1)).isSome = true
      · simp [hh]
      · simp [hh]
  have hL : E1.marked.getCollisionPairs =
      some ((E1.collisionPairs.map fun q => (q.1, q.2.1)).filter fun p => (E1.twin.hit p).isSome) := by
    have := hget E1.collisionPairs [] [] []
    simp only [List.length_nil, List.nil_append, List.append_nil] at this
    exact this
  refine ⟨E1.collisionState, _, hcap, hL, ?_, ?_⟩
  · rw [k1.pairs]
    have hlex : (allIJ g.length).Pairwise fun p q => p.1 < q.1 ∨ p.1 = q.1 ∧ p.2 < q.2 := by
      unfold allIJ
      rw [List.pairwise_flatMap]
      refine ⟨fun i _ => ?_, ?_⟩
      · rw [List.pairwise_map]
        exact (List.pairwise_lt_range' (s := i + 1) (n := g.length - (i + 1))).imp fun h => Or.inr ⟨rfl, h⟩
      · refine (List.pairwise_lt_range (n := g.length)).imp fun {i i'} hii p hp q hq => ?_
        obtain ⟨_, _, rfl⟩ := List.mem_map.1 hp
        obtain ⟨_, _, rfl⟩ := List.mem_map.1 hq
        exact Or.inl hii
    exact (hlex.sublist List.filter_sublist).sublist List.filter_sublist
  · intro i j
    rw [k1.pairs, List.mem_filter, List.mem_filter, mem_allIJ]
    simp only [decide_eq_true_eq]
    constructor
    · rintro ⟨⟨⟨a, b⟩, hw⟩, hh⟩
      refine ⟨a, hw, ?_⟩
      have hord : (i, j) ∈ E1.twin.order := by rw [twin_order, k1.geometry, mem_allIJ]; exact ⟨a, b⟩
      by_contra ho
      rw [(hit_eq hT k2 hord).2 fun h => ho h.2] at hh
      cases hh
    · rintro ⟨a, hw, ho⟩
      have b : j < g.length := by
        obtain ⟨_, _, _, _, _, h2, _⟩ := hw
        exact (List.getElem?_eq_some_iff.1 h2).1
      have hord : (i, j) ∈ E1.twin.order := by rw [twin_order, k1.geometry, mem_allIJ]; exact ⟨a, b⟩
      obtain ⟨r, _, hr⟩ := (hit_eq hT k2 hord).1 (by simpa [sortPair, a.le] using hw) ho
      exact ⟨⟨⟨a, b⟩, hw⟩, by rw [hr]; rfl⟩

open StatelessCollision CollisionError in
/-- **C82**: whatever was done with the object before, the error is the weighted sum of the squares of the depths reported
for the watched pairs, every pair taken once, the capsule with the smaller number first. -/
theorem C82_error (B : ErrorBase) (offsets : List ℝ) (tol eps : ℝ) (g : List (TaperedCapsule ℝ))
    (rest : List (CapsuleState ℝ)) (hs : CollisionSetting B offsets tol g rest) (E : StatelessCollision)
    (hE : E.Reached B offsets tol eps g) (st : List JointState) (hne : st ≠ [])
    (x : ℝ) (E' : StatelessCollision) (h : E.getError st = some (x, E')) :
    ∃ cs, capsules g st = some cs ∧
      x = kCollisionWeight * E.weight * ∑ p ∈ watchedPairs B.skeleton tol eps g rest,
        reportedDepth tol eps (capsuleAt cs p.1) (capsuleAt cs p.2) ^ 2 := by
  classical
  have hK := StatelessCollision.reached_kept hs hE
  obtain ⟨E1, h1⟩ : ∃ E1, E.update st = some E1 := by
    cases hu : E.update st with
    | none => rw [StatelessCollision.getError, if_neg (not_empty hne), hu] at h; cases h
    | some E1 => exact ⟨E1, rfl⟩
  rw [getError_eq hK hne h1] at h
  simp only [Option.some.injEq, Prod.mk.injEq] at h
  obtain ⟨rfl, rfl⟩ := h
  obtain ⟨k1, k2, k3, _, _⟩ := update_spec hK h1
  have hT := twin_kept k1
  have hcap := k2.caps
  rw [hT.geometry] at hcap
  have hwt : E1.twin.weight = E.weight := congrArg ErrorBase.weight k3
  refine ⟨E1.collisionState, hcap, ?_⟩
  have hset : watchedPairs B.skeleton tol eps g rest =
      ((allIJ g.length).filter fun p => Watched B.skeleton tol eps g rest p.1 p.2).toFinset := by
    ext ⟨i, j⟩
    simp only [watchedPairs, Finset.mem_filter, List.mem_toFinset, List.mem_filter, mem_allIJ, Finset.mem_product,
      Finset.mem_range, decide_eq_true_eq]
    constructor
    · rintro ⟨⟨a, b⟩, c, d⟩; exact ⟨⟨c, b⟩, d⟩
    · rintro ⟨⟨a, b⟩, c⟩; exact ⟨⟨by omega, b⟩, a, c⟩
  rw [hset, List.sum_toFinset _ ((nodup_allIJ _).filter _), ← k1.pairs, twin_hits k1, sum_filterMap, ← list_sum_map_mul,
    List.map_map]
  congr 1
  refine List.map_congr_left fun q hq => ?_
  obtain ⟨b1, b2, hw⟩ := pair_bounds k1 hq
  have hord : (q.1, q.2.1) ∈ E1.twin.order := by rw [twin_order, k1.geometry, mem_allIJ]; exact ⟨b1, b2⟩
  obtain ⟨m1, m2⟩ := hit_eq hT k2 hord
  simp only [Function.comp]
  by_cases ho : overlaps tol eps (capsuleAt E1.collisionState q.1) (capsuleAt E1.collisionState q.2.1) = true
  · obtain ⟨r, r1, r2⟩ := m1 (by simpa [sortPair, b1.le] using hw) ho
    have r1' : overlapInfo tol (capsuleAt E1.collisionState q.1) (capsuleAt E1.collisionState q.2.1) = some r := r1
    rw [r2, reportedDepth, if_pos ho, r1']
    simp only [Option.map_some, Option.getD_some, CollisionError.pairError, hwt]
    ring
  · rw [m2 fun h => ho h.2, reportedDepth, if_neg ho]
    simp

open StatelessCollision CollisionError in
/-- **C82**: all three evaluations return and agree on the error, whatever was done before and for any number of capsules. -/
theorem C82_returns (B : ErrorBase) (offsets : List ℝ) (tol eps : ℝ) (g : List (TaperedCapsule ℝ))
    (rest : List (CapsuleState ℝ)) (hs : CollisionSetting B offsets tol g rest) (E : StatelessCollision)
    (hE : E.Reached B offsets tol eps g) (pt : ParameterTransform ℝ) (hF : E.Fits pt) (st : List JointState) (hne : st ≠ [])
    (hlen : st.length = B.skeleton.joints.length) (hcl : ∀ js ∈ st, js.derivDirty = false)
    (n : Nat) (hrows : E.getJacobianSize ≤ n) (g0 : Nat → ℝ) (J0 : Nat → Nat → ℝ) (r0 : Nat → ℝ) (u0 : Nat) :
    ∃ x grad s E', E.getError st = some (x, E') ∧ E.getGradient st g0 = some ((x, grad), E') ∧
      E.getJacobian st n J0 r0 u0 = some (s, E') ∧ s.error = x := by
  have hK := StatelessCollision.reached_kept hs hE
  obtain ⟨E1, h1⟩ := update_some (st := st) hK (fun tc ht => by rw [hlen]; exact hs.parents tc ht)
  obtain ⟨grad, hg, -⟩ := getGradient_eq hK hs.skeleton hs.parents hne h1 hF hlen hcl g0
  obtain ⟨s, hj, he, -⟩ := getJacobian_eq hK hs.skeleton hs.parents hne h1 hF hlen hcl n hrows J0 r0 u0
  exact ⟨_, grad, s, _, getError_eq hK hne h1, hg, hj, he⟩

open StatelessCollision CollisionError in
/-- **C82**: the rows that are filled are no more than announced, the squares of their residuals add up to the error, and
nothing else is touched. -/
theorem C82_rows (B : ErrorBase) (offsets : List ℝ) (tol eps : ℝ) (g : List (TaperedCapsule ℝ))
    (rest : List (CapsuleState ℝ)) (hs : CollisionSetting B offsets tol g rest) (E : StatelessCollision)
    (hE : E.Reached B offsets tol eps g) (pt : ParameterTransform ℝ) (hF : E.Fits pt) (hw : 0 ≤ E.weight)
    (st : List JointState) (hne : st ≠ [])
    (hlen : st.length = B.skeleton.joints.length) (hcl : ∀ js ∈ st, js.derivDirty = false) (n : Nat) (J0 : Nat → Nat → ℝ)
    (r0 : Nat → ℝ) (u0 : Nat) (x : ℝ) (E' E'' : StatelessCollision) (s : JacobianResult)
    (hx : E.getError st = some (x, E')) (hj : E.getJacobian st n J0 r0 u0 = some (s, E'')) :
    s.error = x ∧ s.rows ≤ E.getJacobianSize ∧ ∑ t ∈ Finset.range s.rows, s.residual t ^ 2 = x ∧
      ∀ t, s.rows ≤ t → s.residual t = r0 t ∧ ∀ i, E.enabledParameters.mem i = true → s.e i t = J0 i t := by
  have hK := StatelessCollision.reached_kept hs hE
  have hrows : E.collisionPairs.length ≤ n := by
    by_contra hc
    rw [StatelessCollision.getJacobian, if_pos (by omega)] at hj; cases hj
  obtain ⟨E1, h1⟩ := update_some (st := st) hK (fun tc ht => by rw [hlen]; exact hs.parents tc ht)
  obtain ⟨s', j1, j2, j3, j4, j5, j6⟩ := getJacobian_eq hK hs.skeleton hs.parents hne h1 hF hlen hcl n hrows J0 r0 u0
  rw [getError_eq hK hne h1] at hx
  rw [j1] at hj
  simp only [Option.some.injEq, Prod.mk.injEq] at hj hx
  obtain ⟨rfl, rfl⟩ := hj
  obtain ⟨rfl, rfl⟩ := hx
  have hwt : E1.twin.weight = E.weight := congrArg ErrorBase.weight (update_spec hK h1).2.2.1
  refine ⟨j2, by rw [j3]; exact j4, ?_, fun t ht => j5 t (by omega)⟩
  rw [j3, ← sum_range_getElem E1.twin.hits (fun h => E1.twin.pairError h.2.2)]
  refine Finset.sum_congr rfl fun k hk => ?_
  have hk := Finset.mem_range.1 hk
  have e : E1.twin.hits[k]? = some E1.twin.hits[k] := List.getElem?_eq_getElem hk
  rw [(j6 k _ e).1, e]
  simp only [Option.map_some, Option.getD_some, CollisionError.pairError, hwt]
  rw [mul_pow, Real.sq_sqrt (mul_nonneg (by norm_num [kCollisionWeight]) hw)]
  ring

open StatelessCollision CollisionError in
/-- **C82**: the gradient is the derivative of the weighted sum of the squares of the true depths in every enabled parameter
that does not scale a joint, when the capsules of the watched pairs have constant radius and are in general position when
they overlap. -/
theorem C82_gradient_partial (B : ErrorBase) (offsets : List ℝ) (tol eps : ℝ) (heps : 0 < eps) (g : List (TaperedCapsule ℝ))
    (rest : List (CapsuleState ℝ)) (hs : CollisionSetting B offsets tol g rest) (E : StatelessCollision)
    (hE : E.Reached B offsets tol eps g) (pt : ParameterTransform ℝ) (hF : E.Fits pt) (hne : B.skeleton.joints ≠ [])
    (p : Nat → ℝ) (i : Nat) (hi : i < pt.transform.cols) (hen : E.enabledParameters.mem i = true)
    (hscale : ∀ j, pt.transform.coeff (7 * j + 6) i = 0)
    (hclear : ∀ q ∈ watchedPairs B.skeleton tol eps g rest,
      ClearPair tol eps (capsuleAt (posedCapsules B pt g p) q.1) (capsuleAt (posedCapsules B pt g p) q.2))
    (st : List JointState) (hst : B.stateFor pt (paramVec pt.transform.cols p) true = some st) (x : ℝ) (grad : Nat → ℝ)
    (E' : StatelessCollision) (h : E.getGradient st (fun _ => 0) = some ((x, grad), E')) :
    x = kCollisionWeight * E.weight * penetration (watchedPairs B.skeleton tol eps g rest) (posedCapsules B pt g p) ∧
    HasDerivAt (fun u => kCollisionWeight * E.weight *
      penetration (watchedPairs B.skeleton tol eps g rest) (posedCapsules B pt g (Function.update p i u))) (grad i) (p i) := by
  have hK := StatelessCollision.reached_kept hs hE
  obtain ⟨θ, S, hG, hlen, hθ, hS, hcap⟩ := along hs (E := E.twin) (twin_kept hK) hF p hi
  have e0 : st = S (p i) := by
    have := hS (p i)
    rw [Function.update_eq_self, hst, Option.some.injEq] at this; exact this
  have hsc : ∀ js ∈ st, 0 ≤ js.transform.scale := by
    rw [e0]; exact scale_nonneg_of_good hs.skeleton (hG (p i)) (hlen (p i))
  have hl : st.length = B.skeleton.joints.length := by rw [e0]; exact hlen _
  have hcl : ∀ js ∈ st, js.derivDirty = false := by
    rw [e0]; exact ErrorBase.clean_of_good (hG (p i)) (hlen _)
  have hne' : st ≠ [] := by
    intro h0
    rw [h0, List.length_nil] at hl
    exact hne (List.length_eq_zero_iff.1 hl.symm)
  obtain ⟨E1, h1⟩ := update_some (st := st) hK (fun tc ht => by rw [hl]; exact hs.parents tc ht)
  obtain ⟨grad', q1, q2⟩ := getGradient_eq hK hs.skeleton hs.parents hne' h1 hF hl hcl (fun _ => 0)
  rw [q1] at h
  simp only [Option.some.injEq, Prod.mk.injEq] at h
  obtain ⟨⟨rfl, rfl⟩, rfl⟩ := h
  obtain ⟨k1, k2, k3, _, _⟩ := update_spec hK h1
  have hT := twin_kept k1
  have hcs := k2.caps
  rw [hT.geometry] at hcs
  have hwt : E1.twin.weight = E.weight := congrArg ErrorBase.weight k3
  have hpc : posedCapsules B pt g p = E1.twin.collisionState := by
    unfold posedCapsules
    rw [hst, Option.bind_some, hcs]; rfl
  have hF' : E1.twin.Fits pt := by
    change E1.toErrorBase.Fits pt
    rw [k3]; exact hF
  rw [hpc] at hclear
  constructor
  · rw [hpc, ← hwt]
    exact hits_error hs hT k2 hsc hclear
  · rw [q2 i hen, zero_add, ← hwt]
    exact hits_gradient heps hs hT hF' p hi hscale hst k2 hclear

open StatelessCollision CollisionError in
/-- **C82**: every row of the Jacobian belongs to a watched pair of its own; its residual is the weighted true depth of the
pair, but its entries are twice the derivative of that residual. -/
theorem C82_jacobian_twice (B : ErrorBase) (offsets : List ℝ) (tol eps : ℝ) (heps : 0 < eps) (g : List (TaperedCapsule ℝ))
    (rest : List (CapsuleState ℝ)) (hs : CollisionSetting B offsets tol g rest) (E : StatelessCollision)
    (hE : E.Reached B offsets tol eps g) (pt : ParameterTransform ℝ) (hF : E.Fits pt) (hne : B.skeleton.joints ≠ [])
    (p : Nat → ℝ) (i : Nat) (hi : i < pt.transform.cols) (hen : E.enabledParameters.mem i = true)
    (hscale : ∀ j, pt.transform.coeff (7 * j + 6) i = 0)
    (hclear : ∀ q ∈ watchedPairs B.skeleton tol eps g rest,
      ClearPair tol eps (capsuleAt (posedCapsules B pt g p) q.1) (capsuleAt (posedCapsules B pt g p) q.2))
    (st : List JointState) (hst : B.stateFor pt (paramVec pt.transform.cols p) true = some st) (n : Nat)
    (s : JacobianResult) (E' : StatelessCollision)
    (h : E.getJacobian st n (fun _ _ => 0) (fun _ => 0) 0 = some (s, E')) :
    ∃ L : List (Nat × Nat), L.Nodup ∧ L.length = s.rows ∧ (∀ q ∈ L, q ∈ watchedPairs B.skeleton tol eps g rest) ∧
      ∀ t q, L[t]? = some q →
        s.residual t = Real.sqrt (kCollisionWeight * E.weight) *
          capsuleDepth (capsuleAt (posedCapsules B pt g p) q.1) (capsuleAt (posedCapsules B pt g p) q.2) ∧
        HasDerivAt (fun u => Real.sqrt (kCollisionWeight * E.weight) *
          capsuleDepth (capsuleAt (posedCapsules B pt g (Function.update p i u)) q.1)
            (capsuleAt (posedCapsules B pt g (Function.update p i u)) q.2)) (s.e i t / 2) (p i) := by
  have hK := StatelessCollision.reached_kept hs hE
  obtain ⟨θ, S, hG, hlen, hθ, hS, hcap⟩ := along hs (E := E.twin) (twin_kept hK) hF p hi
  have e0 : st = S (p i) := by
    have := hS (p i)
    rw [Function.update_eq_self, hst, Option.some.injEq] at this; exact this
  have hl : st.length = B.skeleton.joints.length := by rw [e0]; exact hlen _
  have hcl : ∀ js ∈ st, js.derivDirty = false := by
    rw [e0]; exact ErrorBase.clean_of_good (hG (p i)) (hlen _)
  have hne' : st ≠ [] := by
    intro h0
    rw [h0, List.length_nil] at hl
    exact hne (List.length_eq_zero_iff.1 hl.symm)
  have hrows : E.collisionPairs.length ≤ n := by
    by_contra hc
    rw [StatelessCollision.getJacobian, if_pos (by omega)] at h; cases h
  obtain ⟨E1, h1⟩ := update_some (st := st) hK (fun tc ht => by rw [hl]; exact hs.parents tc ht)
  obtain ⟨s', j1, j2, j3, j4, j5, j6⟩ := getJacobian_eq hK hs.skeleton hs.parents hne' h1 hF hl hcl n hrows
    (fun _ _ => 0) (fun _ => 0) 0
  rw [j1] at h
  simp only [Option.some.injEq, Prod.mk.injEq] at h
  obtain ⟨rfl, rfl⟩ := h
  obtain ⟨k1, k2, k3, _, _⟩ := update_spec hK h1
  have hT := twin_kept k1
  have hcs := k2.caps
  rw [hT.geometry] at hcs
  have hwt : E1.twin.weight = E.weight := congrArg ErrorBase.weight k3
  have hpc : posedCapsules B pt g p = E1.twin.collisionState := by
    unfold posedCapsules
    rw [hst, Option.bind_some, hcs]; rfl
  have hF' : E1.twin.Fits pt := by
    change E1.toErrorBase.Fits pt
    rw [k3]; exact hF
  rw [hpc] at hclear ⊢
  obtain ⟨r1, r2, r3⟩ := hits_rows heps hs hT hF' p hi hscale hst k2 hclear E1.twin.hits (List.Perm.refl _)
  refine ⟨E1.twin.hits.map fun h => sortPair (h.1, h.2.1), r1, by rw [List.length_map, j3], r2, ?_⟩
  intro t q hq
  rw [List.getElem?_map, Option.map_eq_some_iff] at hq
  obtain ⟨hh, hk, rfl⟩ := hq
  obtain ⟨m1, m2⟩ := r3 t hh hk
  rw [(j6 t hh hk).1, (j6 t hh hk).2 i hen, zero_add, ← hwt]
  exact ⟨m1, m2⟩

open StatelessCollision CollisionError in
/-- **C82**: both collision error functions have the same error and, in every enabled parameter that does not scale a joint,
the same gradient, for the same settings and whatever was done with either before; when the capsules of the watched pairs
have constant radius and are in general position when they overlap. -/
theorem C82_same (B : ErrorBase) (offsets : List ℝ) (tol eps : ℝ) (heps : 0 < eps) (g : List (TaperedCapsule ℝ))
    (rest : List (CapsuleState ℝ)) (hs : CollisionSetting B offsets tol g rest) (E : StatelessCollision)
    (hE : E.Reached B offsets tol eps g) (F : CollisionError) (hF : F.Reached B offsets tol eps g)
    (hbase : F.toErrorBase = E.toErrorBase) (pt : ParameterTransform ℝ) (hfit : E.Fits pt) (hne : B.skeleton.joints ≠ [])
    (p : Nat → ℝ)
    (hclear : ∀ q ∈ watchedPairs B.skeleton tol eps g rest,
      ClearPair tol eps (capsuleAt (posedCapsules B pt g p) q.1) (capsuleAt (posedCapsules B pt g p) q.2))
    (st : List JointState) (hst : B.stateFor pt (paramVec pt.transform.cols p) true = some st) (x y : ℝ)
    (gradE gradF : Nat → ℝ) (E' : StatelessCollision) (F' : CollisionError)
    (h1 : E.getGradient st (fun _ => 0) = some ((x, gradE), E'))
    (h2 : F.getGradient st (fun _ => 0) = some ((y, gradF), F')) (i : Nat) (hi : i < pt.transform.cols)
    (hen : E.enabledParameters.mem i = true) (hscale : ∀ j, pt.transform.coeff (7 * j + 6) i = 0) :
    x = y ∧ gradE i = gradF i ∧ E.getJacobianSize = F.getJacobianSize := by
  obtain ⟨a1, a2⟩ := C82_gradient_partial B offsets tol eps heps g rest hs E hE pt hfit hne p i hi hen hscale hclear st hst x
    gradE E' h1
  obtain ⟨b1, b2⟩ := C67_gradient_partial B offsets tol eps heps g rest hs F hF pt (by rw [hbase]; exact hfit) hne p i hi
    (by rw [hbase]; exact hen) hscale hclear st hst y gradF F' h2
  rw [hbase] at b1 b2
  exact ⟨a1.trans b1.symm, a2.unique b2, by
    rw [C82_size B offsets tol eps g rest hs E hE, C67_size B offsets tol eps g rest hs F hF]⟩

open StatelessCollision CollisionError in
/-- **C82**: the product of the transposed Jacobian and the residual is the gradient.  (For the other error functions it is
half of the gradient.) -/
theorem C82_jacobian_residual (B : ErrorBase) (offsets : List ℝ) (tol eps : ℝ) (g : List (TaperedCapsule ℝ))
    (rest : List (CapsuleState ℝ)) (hs : CollisionSetting B offsets tol g rest) (E : StatelessCollision)
    (hE : E.Reached B offsets tol eps g) (pt : ParameterTransform ℝ) (hF : E.Fits pt) (hw : 0 ≤ E.weight)
    (st : List JointState) (hne : st ≠ [])
    (hlen : st.length = B.skeleton.joints.length) (hcl : ∀ js ∈ st, js.derivDirty = false) (n : Nat)
    (x : ℝ) (grad : Nat → ℝ) (E' E'' : StatelessCollision) (s : JacobianResult)
    (hx : E.getGradient st (fun _ => 0) = some ((x, grad), E'))
    (hj : E.getJacobian st n (fun _ _ => 0) (fun _ => 0) 0 = some (s, E'')) (i : Nat)
    (hi : E.enabledParameters.mem i = true) :
    ∑ t ∈ Finset.range s.rows, s.e i t * s.residual t = grad i := by
  have hK := StatelessCollision.reached_kept hs hE
  have hrows : E.collisionPairs.length ≤ n := by
    by_contra hc
    rw [StatelessCollision.getJacobian, if_pos (by omega)] at hj; cases hj
  obtain ⟨E1, h1⟩ := update_some (st := st) hK (fun tc ht => by rw [hlen]; exact hs.parents tc ht)
  obtain ⟨grad', g1, g2⟩ := getGradient_eq hK hs.skeleton hs.parents hne h1 hF hlen hcl (fun _ => 0)
  obtain ⟨s', j1, j2, j3, j4, j5, j6⟩ := getJacobian_eq hK hs.skeleton hs.parents hne h1 hF hlen hcl n hrows
    (fun _ _ => 0) (fun _ => 0) 0
  rw [g1] at hx
  rw [j1] at hj
  simp only [Option.some.injEq, Prod.mk.injEq] at hj hx
  obtain ⟨rfl, rfl⟩ := hj
  obtain ⟨⟨-, rfl⟩, -⟩ := hx
  have hwt : E1.twin.weight = E.weight := congrArg ErrorBase.weight (update_spec hK h1).2.2.1
  rw [g2 i hi, zero_add, j3, ← sum_range_getElem E1.twin.hits]
  refine Finset.sum_congr rfl fun k hk => ?_
  have hk := Finset.mem_range.1 hk
  have e : E1.twin.hits[k]? = some E1.twin.hits[k] := List.getElem?_eq_getElem hk
  rw [(j6 k _ e).1, (j6 k _ e).2 i hi, e]
  simp only [Option.map_some, Option.getD_some, pairGrad, pairRow, hwt, zero_add]
  have := Real.mul_self_sqrt (mul_nonneg (by norm_num [kCollisionWeight] : 0 ≤ kCollisionWeight) hw)
  rw [mul_comm (E1.twin.hits[k].2.2.overlap)]
  linear_combination (-(2 * (1 / E1.twin.hits[k].2.2.distance)) *
    E1.twin.pairRate st (fun r => pt.transform.coeff r i) E1.twin.hits[k] * E1.twin.hits[k].2.2.overlap) * this

open StatelessCollision in
/-- **C82**, what fails: construction reads past the joints as soon as two capsules that are apart at rest have no common
ancestor, as in a skeleton with several roots. -/
theorem C82_forest (B : ErrorBase) (offsets : List ℝ) (tol eps : ℝ) (g : List (TaperedCapsule ℝ))
    (rest : List (CapsuleState ℝ)) (hs : CollisionSetting B offsets tol g rest) (i j : Nat) (hij : i < j)
    (ga gb : TaperedCapsule ℝ) (hi : g[i]? = some ga) (hj : g[j]? = some gb)
    (hno : overlaps tol eps (capsuleAt rest i) (capsuleAt rest j) = false)
    (hroots : ¬ ∃ c, B.skeleton.Anc ga.parent c ∧ B.skeleton.Anc gb.parent c) :
    StatelessCollision.construct B offsets tol eps g = none := by
  obtain ⟨state, s1, s2⟩ := hs.rest
  have hl := (CollisionError.capsules_spec s2).1
  have hjl := (List.getElem?_eq_some_iff.1 hj).1
  have hnone : ∀ acc, (⟨B, tol, eps, g, [], [], rest⟩ : StatelessCollision).pairStep rest i acc j = none := by
    intro acc
    have e1 : rest[i]? = some (capsuleAt rest i) := by
      simp [capsuleAt, List.getD_eq_getElem?_getD, List.getElem?_eq_getElem (by omega : i < rest.length)]
    have e2 : rest[j]? = some (capsuleAt rest j) := by
      simp [capsuleAt, List.getD_eq_getElem?_getD, List.getElem?_eq_getElem (by omega : j < rest.length)]
    have ha := hs.parents ga (List.mem_of_getElem? hi)
    have hb := hs.parents gb (List.mem_of_getElem? hj)
    simp only [StatelessCollision.pairStep, e1, e2, hi, hj, hno, Option.bind_eq_bind, Option.bind_some, Bool.false_eq_true,
      if_false]
    rw [pairWalk_eq hs.skeleton _ _ _ le_rfl ha hb, pairSteps_none hs.skeleton _ _ _ le_rfl ha hb hroots]
    rfl
  have hfold : ∀ (l : List (Nat × Nat)), (i, j) ∈ l → ∀ a,
      l.foldlM (fun acc (p : Nat × Nat) => (⟨B, tol, eps, g, [], [], rest⟩ : StatelessCollision).pairStep rest p.1 acc p.2) a
        = none := by
    intro l
    induction l with
    | nil => intro h; cases h
    | cons x l ih =>
      intro h a
      rw [List.foldlM_cons]
      rcases List.mem_cons.1 h with rfl | h
      · simp only [hnone]; rfl
      · cases hx : (⟨B, tol, eps, g, [], [], rest⟩ : StatelessCollision).pairStep rest x.1 a x.2 with
        | none => rfl
        | some a' => exact ih h a'
  have hp := hfold _ (mem_allIJ.2 ⟨hij, hjl⟩) []
  rw [← pairLoop_flat] at hp
  unfold StatelessCollision.construct
  rw [s1]
  simp only [Option.bind_eq_bind, Option.bind_some, s2]
  rw [hp]
  rfl

end Momentum
