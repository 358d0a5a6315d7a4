import Verif.Lemmas.TransformPose2

namespace Momentum
open Skeleton Transform

theorem JointState.set_local_any (jt : Joint ℝ) (p : JointVec) (ps ps' : Option JointState) (cd cd' : Bool) :
    (JointState.set jt p ps cd).localTransform = (JointState.set jt p ps' cd').localTransform := by
  ext1
  · rw [JointState.set_localRotation, JointState.set_localRotation]
  · rfl
  · rfl

theorem state_prefix {s : Skeleton ℝ} (hv : s.Valid) {n : Nat} (hn : n ≤ s.joints.length) {jp jq : List ℝ} {st stq : List JointState}
    (hg : FKGood s jp false st) (hl : st.length = s.joints.length) (hgq : FKGood ⟨s.joints.take n⟩ jq false stq)
    (hlq : stq.length = n) (h : ∀ j < n, jointSlice jq j = jointSlice jp j) : ∀ j < n, stq[j]? = st[j]? := by
  intro j
  induction j using Nat.strong_induction_on with
  | _ j ih =>
    intro hj
    have hjs : s.joints[j]? = some (s.joints[j]'(by omega)) := List.getElem?_eq_getElem _
    have hjq : (⟨s.joints.take n⟩ : Skeleton ℝ).joints[j]? = some (s.joints[j]'(by omega)) := by
      rw [← hjs]; exact List.getElem?_take_of_lt hj
    have e1 := hg.eq j _ _ hjs (List.getElem?_eq_getElem (by omega))
    have e2 := hgq.eq j _ _ hjq (List.getElem?_eq_getElem (by omega))
    rw [List.getElem?_eq_getElem (by omega), List.getElem?_eq_getElem (by omega), e1, e2, h j hj]
    congr 2
    cases hp : (s.joints[j]'(by omega)).parent with
    | none => rfl
    | some p =>
      have := hv j _ p hjs hp
      exact ih p this (by omega)

theorem anc_ge {s : Skeleton ℝ} (hv : s.Valid) {j a : Nat} (h : s.Anc j a) : a ≤ j := by
  induction h using Relation.ReflTransGen.head_induction_on with
  | refl => exact le_rfl
  | head hab _ ih =>
    obtain ⟨jt, h1, h2⟩ := hab
    have := hv _ jt _ h1 h2
    omega

theorem state_relative {s : Skeleton ℝ} (hv : s.Valid) (hu : ∀ jt ∈ s.joints, jt.preRotation.normSq = 1) {r : Nat}
    {jp jp' : List ℝ} {st st' : List JointState} (hg : FKGood s jp false st) (hl : st.length = s.joints.length)
    (hg' : FKGood s jp' false st') (hl' : st'.length = s.joints.length) (h : ∀ j, r < j → jointSlice jp' j = jointSlice jp j)
    {j : Nat} (ha : s.Anc j r) :
    ∃ R : Transform ℝ, R.rotation.normSq = 1 ∧ worldOf st (some j) = worldOf st (some r) * R ∧
      worldOf st' (some j) = worldOf st' (some r) * R := by
  induction ha using Relation.ReflTransGen.head_induction_on with
  | refl => exact ⟨Transform.one, by simp [Transform.one], (mul_one' _).symm, (mul_one' _).symm⟩
  | @head j p hjp hpr ih =>
    obtain ⟨R, hR, h1, h2⟩ := ih
    obtain ⟨jt, hj, hp⟩ := hjp
    have hlt := hv j jt p hj hp
    have hjl := getElem?_lt hj
    have hrp : r ≤ p := anc_ge hv hpr
    have hst : st[j]? = some (st[j]'(by omega)) := List.getElem?_eq_getElem _
    have hst' : st'[j]? = some (st'[j]'(by omega)) := List.getElem?_eq_getElem _
    have w1 := hg.worldOf_eq hv hj hst
    have w2 := hg'.worldOf_eq hv hj hst'
    have hloc : (st'[j]'(by omega)).localTransform = (st[j]'(by omega)).localTransform := by
      rw [hg'.eq j jt _ hj hst', hg.eq j jt _ hj hst, h j (by omega)]
      exact JointState.set_local_any ..
    have hlu := (hg.local_unit hu hst).1
    refine ⟨R * (st[j]'(by omega)).localTransform, Transform.normSq_mul hR hlu, ?_, ?_⟩
    · rw [w1, hp, h1, mul_assoc' (hg.worldOf_unit hv hu _).1 hR]
    · rw [w2, hp, hloc, h2, mul_assoc' (hg'.worldOf_unit hv hu _).1 hR]

theorem kept_nodup (s : ParameterSet) (n : Nat) : (keptParams s n).Nodup :=
  List.Nodup.filter _ List.nodup_range

namespace PoseTransformSolver

theorem test_true {s : ParameterSet} {k : Nat} : s.test k = some true ↔ s.mem k = true := by
  unfold ParameterSet.test ParameterSet.mem
  split <;> simp

/-- Writing back: the rigid parameters that the simplified character has. -/
theorem write_fold (S : PoseTransformSolver) (hnd : S.toFull.Nodup) (solved : List ℝ) (m : Nat) (hm : m ≤ S.toFull.length)
    (full : List ℝ) (hf : ∀ c ∈ S.toFull, c < full.length) :
    ((List.range m).foldl (S.writeStep solved) full).length = full.length ∧
      (∀ c, (∀ k < m, S.rigid.mem k = true → S.toFull[k]? ≠ some c) →
        ((List.range m).foldl (S.writeStep solved) full)[c]? = full[c]?) ∧
      ∀ k < m, S.rigid.mem k = true → ∀ c, S.toFull[k]? = some c →
        ((List.range m).foldl (S.writeStep solved) full)[c]? = some (solved.getD k 0) := by
  induction m with
  | zero => exact ⟨rfl, fun c _ => rfl, fun k hk => by omega⟩
  | succ m ih =>
    obtain ⟨h1, h2, h3⟩ := ih (by omega)
    rw [List.range_succ, List.foldl_append]
    simp only [List.foldl_cons, List.foldl_nil]
    generalize (List.range m).foldl (S.writeStep solved) full = g at *
    have hget : S.toFull[m]? = some (S.toFull.getD m 0) := by
      rw [List.getElem?_eq_getElem (by omega), List.getD_eq_getElem _ _ (by omega)]
    have hmem : S.toFull.getD m 0 ∈ S.toFull := List.mem_of_getElem? hget
    unfold writeStep
    by_cases hr : S.rigid.mem m = true
    · rw [if_pos (test_true.2 hr)]
      refine ⟨by simpa using h1, fun c hc => ?_, fun k hk hkr c hc => ?_⟩
      · have : S.toFull.getD m 0 ≠ c := fun e => hc m (by omega) hr (by rw [hget, e])
        rw [List.getElem?_set_ne this]
        exact h2 c fun k hk => hc k (by omega)
      · by_cases hkm : k = m
        · subst hkm
          rw [hget] at hc
          have := Option.some.inj hc
          rw [this, List.getElem?_set_self (by rw [h1]; exact this ▸ hf _ hmem)]
        · have : S.toFull.getD m 0 ≠ c := by
            intro e
            rw [← e, ← hget] at hc
            have hk2 : k < S.toFull.length := by omega
            have := (List.getElem?_inj hk2 hnd).1 hc
            exact hkm this
          rw [List.getElem?_set_ne this]
          exact h3 k (by omega) hkr c hc
    · rw [if_neg (by rw [test_true]; exact hr)]
      refine ⟨h1, fun c hc => h2 c fun k hk => hc k (by omega), fun k hk hkr c hc => ?_⟩
      by_cases hkm : k = m
      · subst hkm; exact absurd hkr hr
      · exact h3 k (by omega) hkr c hc

end PoseTransformSolver

section
variable {s : Skeleton ℝ} {pt : ParameterTransform ℝ} {S : PoseTransformSolver} {n : Nat} {keep : ParameterSet}

theorem RigidPart.copy (hS : RigidPart s pt S n keep) {p p0 : List ℝ} (hp : p.length = pt.transform.cols)
    (h : S.toFull.mapM (fun i => p[i]?) = some p0) : p0 = restrictTo keep p := by
  unfold restrictTo
  rw [hp, ← hS.toFull]
  have := mapM_some_iff.1 h
  have h2 := congrArg (List.filterMap id) this
  rw [filterMap_id_map, filterMap_id_map] at h2
  rw [h2]; simp

/-- The first joints of the two characters move alike. -/
theorem RigidPart.pose (hC : PoseCharacter s pt) (hS : RigidPart s pt S n keep) {p : List ℝ} (hp : p.length = pt.transform.cols) :
    ∃ jp st jq stq, pt.apply p = some jp ∧ skeletonState s jp false = some st ∧ FKGood s jp false st ∧
      st.length = s.joints.length ∧ S.transform.apply (restrictTo keep p) = some jq ∧
      skeletonState S.skeleton jq false = some stq ∧ stq.length = n ∧ ∀ j < n, stq[j]? = st[j]? := by
  obtain ⟨jq, jp, h1, h2, h3, h4, h5⟩ := hS.apply p hp
  obtain ⟨st, hs1, hs2⟩ := skeletonState_good hC.skeleton false (params := jp) (by rw [h4, hC.rows])
  have hvq : (⟨s.joints.take n⟩ : Skeleton ℝ).Valid := by
    intro j jt q hj hq
    refine hC.skeleton j jt q ?_ hq
    by_cases hjn : j < n
    · rw [← hj]; exact (List.getElem?_take_of_lt hjn).symm
    · rw [List.getElem?_eq_none (by simp; omega)] at hj; cases hj
  have hlq : (⟨s.joints.take n⟩ : Skeleton ℝ).joints.length = n := by
    simp only [List.length_take]; exact min_eq_left hS.le
  obtain ⟨stq, hq1, hq2⟩ := skeletonState_good hvq false (params := jq) (by rw [h3, hlq])
  obtain ⟨-, hl, -⟩ := skeletonState_some hC.skeleton hs1
  obtain ⟨hgq, hl2, -⟩ := skeletonState_some hvq hq1
  obtain ⟨hg, -, -⟩ := skeletonState_some hC.skeleton hs1
  refine ⟨jp, st, jq, stq, h2, hs1, hg, hl, h1, by rw [hS.skeleton]; exact hq1, by rw [hl2, hlq], ?_⟩
  refine state_prefix hC.skeleton hS.le hg hl hgq (by rw [hl2, hlq]) fun j hj => ?_
  funext k
  unfold jointSlice
  have := h5 j hj k.val k.isLt
  rw [mul_comm 7 j, List.getD_eq_getElem?_getD, List.getD_eq_getElem?_getD, this]

/-- The root of the simplified character is where it is in the full one. -/
theorem RigidPart.rootAt (hC : PoseCharacter s pt) (hS : RigidPart s pt S n keep) {p : List ℝ} (hp : p.length = pt.transform.cols) :
    ∃ ts T, characterPose s pt p = some ts ∧ ts[S.root]? = some T ∧ S.rootAt (restrictTo keep p) = some T ∧
      ∃ tq, characterPose S.skeleton S.transform (restrictTo keep p) = some tq ∧ tq[S.root]? = some T := by
  obtain ⟨jp, st, jq, stq, h1, h2, -, h3, h4, h5, h6, h7⟩ := hS.pose hC hp
  have hpos := hS.pos
  have hr : S.root < n := by rw [hS.root]; omega
  have hle := hS.le
  have hst : st[S.root]? = some (st[S.root]'(by omega)) := List.getElem?_eq_getElem _
  refine ⟨st.map JointState.transform, (st[S.root]'(by omega)).transform, ?_, ?_, ?_, stq.map JointState.transform, ?_, ?_⟩
  · unfold characterPose; rw [h1, Option.bind_some, h2]; rfl
  · rw [List.getElem?_map, hst]; rfl
  · unfold PoseTransformSolver.rootAt
    rw [h4, Option.bind_some, h5, Option.bind_some, h7 _ hr, hst]; rfl
  · unfold characterPose; rw [h4, Option.bind_some, h5]; rfl
  · rw [List.getElem?_map, h7 _ hr, hst]; rfl

end

end Momentum
