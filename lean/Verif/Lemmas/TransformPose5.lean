import Verif.Lemmas.TransformPose4

namespace Momentum
open Skeleton Transform

section
variable {s : Skeleton ℝ} {pt : ParameterTransform ℝ} {S : PoseTransformSolver} {n : Nat} {keep : ParameterSet}

/-- The world scale of the joints depends on the scale parameters only. -/
theorem state_scale {s : Skeleton ℝ} (hv : s.Valid) {jp jp' : List ℝ} {st st' : List JointState} (hg : FKGood s jp false st)
    (hl : st.length = s.joints.length) (hg' : FKGood s jp' false st') (hl' : st'.length = s.joints.length)
    (h : ∀ j, jointSlice jp' j 6 = jointSlice jp j 6) :
    ∀ j, j < s.joints.length → (worldOf st' (some j)).scale = (worldOf st (some j)).scale := by
  intro j
  induction j using Nat.strong_induction_on with
  | _ j ih =>
    intro hj
    have hjs : s.joints[j]? = some (s.joints[j]) := List.getElem?_eq_getElem hj
    have hst : st[j]? = some (st[j]'(by omega)) := List.getElem?_eq_getElem _
    have hst' : st'[j]? = some (st'[j]'(by omega)) := List.getElem?_eq_getElem _
    rw [hg.worldOf_eq hv hjs hst, hg'.worldOf_eq hv hjs hst']
    show (worldOf st' _).scale * _ = (worldOf st _).scale * _
    congr 1
    · cases hp : (s.joints[j]).parent with
      | none => rfl
      | some p =>
        have := hv j _ p hjs hp
        exact ih p this (by omega)
    · rw [hg'.eq j _ _ hjs hst', hg.eq j _ _ hjs hst]
      show (2 : ℝ) ^ jointSlice jp' j 6 = (2 : ℝ) ^ jointSlice jp j 6
      rw [h j]

end

theorem make_defined {s : Skeleton ℝ} {pt : ParameterTransform ℝ} (hC : PoseCharacter s pt) {r : Nat} (hr : LastRigidJoint pt r) :
    ∃ S, PoseTransformSolver.make s pt = some S := by
  have hrows : ∀ e ∈ pt.transform.entries, e.row / 7 < s.joints.length := by
    intro e he
    have := (hC.valid.wf e he).1
    rw [hC.rows] at this
    omega
  have hcolb : ∀ e ∈ pt.transform.entries, e.col < pt.transform.cols := fun e he => (hC.valid.wf e he).2
  have hmax := hC.valid.bound
  obtain ⟨rigid, h1⟩ := getRigid_some (names := pt.name) (by rw [hC.valid.names]; exact hmax)
  obtain ⟨rj, h2⟩ : ∃ rj, parametersToActiveJoints s.joints.length pt.transform rigid = some rj := by
    refine foldlM_of_forall _ _ (fun b e he => ?_) _
    unfold activeJointStep
    have : e.col < kMaxModelParams := lt_of_lt_of_le (hcolb e he) hmax
    obtain ⟨t, ht⟩ : ∃ t, rigid.test e.col = some t := by
      unfold ParameterSet.test; simp [this]
    rw [ht, Option.bind_some, if_pos (hrows e he)]
    split <;> exact ⟨_, rfl⟩
  obtain ⟨hrl, hrj⟩ := activeJoints_fold _ _ _ (by simp) h2
  obtain ⟨hn1, hn2, hn3⟩ := numRigid_spec rj
  have hn0 : numRigidJoints rj ≠ 0 := by
    obtain ⟨i, hi, e, he, rfl, rfl⟩ := hr.moved
    have := hn2 (e.row / 7) ((hrj _).2 (.inr ⟨e, he, (getRigid_mem h1 _).2 hi, rfl⟩))
    omega
  obtain ⟨keep, h3⟩ : ∃ keep, activeJointsToParameters s.joints.length pt.transform
      (List.replicate (numRigidJoints rj) true ++ rj.drop (numRigidJoints rj)) = some keep := by
    unfold activeJointsToParameters
    have hl : (List.replicate (numRigidJoints rj) true ++ rj.drop (numRigidJoints rj)).length = s.joints.length := by
      simp; omega
    rw [if_pos hl]
    refine foldlM_of_forall _ _ (fun b e he => ?_) _
    unfold activeParamStep
    rw [if_pos (hcolb e he), List.getElem?_eq_getElem (by rw [hl]; exact hrows e he), Option.bind_some]
    split
    · unfold ParameterSet.set
      rw [if_pos (lt_of_lt_of_le (hcolb e he) hmax)]; exact ⟨_, rfl⟩
    · exact ⟨_, rfl⟩
  obtain ⟨it, L, h4, hval⟩ := C15_subset_valid pt [] keep hC.valid
  obtain ⟨hnm, hcols, hrows', -⟩ := C15_subset_names pt it [] L keep hC.valid h4
  obtain ⟨q, h5⟩ := C16_defined it (numRigidJoints rj)
    ((List.range s.joints.length).map fun i => if i < numRigidJoints rj then some i else none) hval.wf hval.offs
    (by rw [hrows', hC.rows]; simp) (by
      intro i t hi
      rw [List.getElem?_map] at hi
      obtain ⟨i', -, hi⟩ := Option.map_eq_some_iff.1 hi
      split at hi
      · cases hi; assumption
      · cases hi)
  obtain ⟨-, -, hqn, -, -⟩ := C16_drops_blendShapes it q _ _ h5
  have hqt := (mapJoints_some h5).2.1
  have hqcols : q.transform.cols = it.name.length := by rw [hqt]
  have hsub : ∀ nm ∈ q.name, nm ∈ pt.name := by
    intro nm hm
    rw [hqn, hnm] at hm
    unfold restrictTo at hm
    obtain ⟨c, -, hc⟩ := List.mem_filterMap.1 hm
    exact List.mem_of_getElem? hc
  obtain ⟨rigid', h6⟩ := getRigid_some (names := q.name) (by rw [hqn, hval.names]; exact hval.bound)
  obtain ⟨toFull, h7⟩ : ∃ toFull, (List.range q.transform.cols).mapM (fun i => q.name[i]?.bind fun nm =>
      getParameterIdByName pt.name nm) = some toFull := by
    refine ⟨(List.range q.transform.cols).map fun i => (q.name[i]?.bind fun nm => getParameterIdByName pt.name nm).getD 0,
      mapM_of_forall fun i hi => ?_⟩
    have hi : i < q.name.length := by rw [hqn, ← hqcols]; exact List.mem_range.1 hi
    rw [List.getElem?_eq_getElem hi, Option.bind_some]
    obtain ⟨c, hc, he⟩ := List.getElem_of_mem (hsub _ (List.getElem_mem hi))
    rw [findIdx_nodup hC.names (List.getElem?_eq_some_iff.2 ⟨hc, he⟩)]; rfl
  refine ⟨⟨pt.transform.cols, ⟨s.joints.take (numRigidJoints rj)⟩, q, (s.joints.take (numRigidJoints rj)).length - 1, rigid', toFull⟩, ?_⟩
  unfold PoseTransformSolver.make createRigidBodySkeleton
  simp only [Option.bind_eq_bind, h1, h2, h3, h4, h5, Option.bind_some, if_neg hn0, h6, h7]
  rw [if_neg]
  rw [List.length_take]; omega

section
variable {s : Skeleton ℝ} {pt : ParameterTransform ℝ} {S : PoseTransformSolver} {n : Nat} {keep : ParameterSet}

/-- Every pose of the simplified character is that of a pose of the full one. -/
theorem RigidPart.extend (hS : RigidPart s pt S n keep) {x : List ℝ} (hx : x.length = S.transform.transform.cols) :
    ∃ p : List ℝ, p.length = pt.transform.cols ∧ restrictTo keep p = x := by
  refine ⟨(List.range pt.transform.cols).map fun c => x.getD (rank keep c) 0, by simp, ?_⟩
  rw [restrictTo_map]
  rw [hS.cols] at hx
  apply List.ext_getElem?
  intro k
  simp only [List.length_map, List.length_range, List.getElem?_map]
  cases hk : (keptParams keep pt.transform.cols)[k]? with
  | none =>
    have := List.getElem?_eq_none_iff.1 hk
    rw [List.getElem?_eq_none (by omega)]; rfl
  | some c =>
    obtain ⟨h1, h2, h3⟩ := kept_rank_of_getElem hk
    have hkl := (List.getElem?_eq_some_iff.1 hk).1
    simp [List.getD_eq_getElem?_getD, List.getElem?_range h1, h3, List.getElem?_eq_getElem (show k < x.length by omega)]

theorem RigidPart.rootAt_some (hC : PoseCharacter s pt) (hS : RigidPart s pt S n keep) {x : List ℝ}
    (hx : x.length = S.transform.transform.cols) : ∃ T, S.rootAt x = some T := by
  obtain ⟨p, hp, rfl⟩ := hS.extend hx
  obtain ⟨-, T, -, -, h, -⟩ := hS.rootAt hC hp
  exact ⟨T, h⟩

theorem RigidPart.loop_some (hC : PoseCharacter s pt) (hS : RigidPart s pt S n keep) {solve : Transform ℝ → Nat → List ℝ → List ℝ}
    (hsolve : ∀ t i p, (solve t i p).length = p.length) (rng : Nat → Nat → ℝ) (target : Transform ℝ) (fuel : Nat) :
    ∀ (i : Nat) {x : List ℝ}, x.length = S.transform.transform.cols → ∃ y, S.restartLoop solve rng target fuel i x = some y := by
  induction fuel with
  | zero => intro i x hx; exact ⟨x, rfl⟩
  | succ fuel ih =>
    intro i x hx
    have hl : (solve target i x).length = S.transform.transform.cols := by rw [hsolve, hx]
    obtain ⟨T, hT⟩ := hS.rootAt_some hC hl
    rw [PoseTransformSolver.restartLoop, hT, Option.bind_some]
    split
    · exact ⟨_, rfl⟩
    · exact ih (i + 1) (by simpa [PoseTransformSolver.randomize] using hl)

theorem RigidPart.transformPose_defined (hC : PoseCharacter s pt) (hS : RigidPart s pt S n keep)
    {solve : Transform ℝ → Nat → List ℝ → List ℝ} (hsolve : ∀ t i p, (solve t i p).length = p.length) (rng : Nat → Nat → ℝ)
    (t : Transform ℝ) {full prev : List ℝ} (hf : full.length = pt.transform.cols)
    (hprev : prev.length = pt.transform.cols ∨ prev.length = 0) :
    ∃ r, S.transformPose solve rng full t prev = some r ∧ r.length = pt.transform.cols := by
  have hm : S.toFull.mapM (fun i => full[i]?) = some (S.toFull.map fun c => full.getD c 0) := by
    refine mapM_of_forall fun c hc => ?_
    rw [hS.toFull] at hc
    have := (mem_keptParams.1 hc).1
    rw [← hf] at this
    rw [List.getElem?_eq_getElem this, List.getD_eq_getElem _ _ this]
  have h0 := hS.copy hf hm
  have hl0 : (restrictTo keep full).length = S.transform.transform.cols := by
    rw [restrictTo_map, List.length_map, hf, hS.cols]
  obtain ⟨T, hT⟩ := hS.rootAt_some hC hl0
  obtain ⟨y, hy⟩ := hS.loop_some hC hsolve rng (t * T) 10001 0 (x := if prev.length = 0 then restrictTo keep full else
    S.copyRigid prev (restrictTo keep full)) (by
      split
      · exact hl0
      · simpa [PoseTransformSolver.copyRigid] using hl0)
  refine ⟨(List.range S.toFull.length).foldl (S.writeStep y) full, ?_, by rw [(hS.written hf y).1, hf]⟩
  unfold PoseTransformSolver.transformPose
  rw [if_pos (by rw [hS.numFull]; exact ⟨hf, hprev⟩), hm, Option.bind_some, h0, hT, Option.bind_some, hy]; rfl

end

end Momentum
