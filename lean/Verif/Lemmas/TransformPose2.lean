import Verif.Lemmas.TransformPose

namespace Momentum

/-- What the constructor computes: the first `n` joints, and the parameters that have coefficients for them. -/
structure RigidPart (s : Skeleton ℝ) (pt : ParameterTransform ℝ) (S : PoseTransformSolver) (n : Nat) (keep : ParameterSet) : Prop where
  pos : 0 < n
  le : n ≤ s.joints.length
  last : LastRigidJoint pt (n - 1)
  keep_mem : ∀ c, keep.mem c = true ↔ ∃ e ∈ pt.transform.entries, e.col = c ∧ e.row / 7 < n
  numFull : S.numFull = pt.transform.cols
  skeleton : S.skeleton = ⟨s.joints.take n⟩
  root : S.root = n - 1
  toFull : S.toFull = keptParams keep pt.transform.cols
  rigid : ∀ k, S.rigid.mem k = true ↔ ∃ c, (keptParams keep pt.transform.cols)[k]? = some c ∧ RigidParameter pt c
  cols : S.transform.transform.cols = (keptParams keep pt.transform.cols).length
  apply : ∀ p : List ℝ, p.length = pt.transform.cols → ∃ jq jp, S.transform.apply (restrictTo keep p) = some jq ∧
    pt.apply p = some jp ∧ jq.length = n * 7 ∧ jp.length = pt.transform.rows ∧
      ∀ j < n, ∀ d < 7, jq[j * 7 + d]? = jp[j * 7 + d]?

theorem findIdx_nodup {names : List String} (hn : names.Nodup) {c : Nat} {nm : String} (h : names[c]? = some nm) :
    getParameterIdByName names nm = some c := by
  unfold getParameterIdByName
  obtain ⟨hc, he⟩ := List.getElem?_eq_some_iff.1 h
  rw [List.findIdx?_eq_some_iff_getElem]
  refine ⟨hc, by simp [he], fun j hj hp => ?_⟩
  have h2 : names[j] = names[c] := by rw [he]; simpa using hp
  have := (List.Nodup.getElem_inj_iff hn).1 h2
  omega

theorem apply_getElem {pt : ParameterTransform ℝ} {limits : List (ParameterLimit ℝ)} (hv : pt.Valid limits) {p : List ℝ}
    (hp : p.length = pt.transform.cols) : ∃ jp, pt.apply p = some jp ∧ jp.length = pt.transform.rows ∧
      ∀ r < pt.transform.rows, jp[r]? = some (rowSum pt.transform.entries r (fun j => p.getD j 0) + pt.offsets.getD r 0) := by
  refine ⟨addVec (pt.transform.mulVec p) pt.offsets, ?_, ?_, ?_⟩
  · unfold ParameterTransform.apply
    rw [if_pos hp, if_pos hv.offs]
  · rw [addVec_length, mulVec_length, hv.offs, min_self]
  · intro r hr
    unfold addVec
    refine zipWith_getElem _ _ _ _ (mulVec_getElem _ _ _ hr) ?_
    have h := hv.offs
    rw [List.getElem?_eq_getElem (by omega), List.getD_eq_getElem _ _ (by omega)]

theorem rowSum_congr_row {es : List (Triplet ℝ)} {i : Nat} {f g : Nat → ℝ} (h : ∀ e ∈ es, e.row = i → f e.col = g e.col) :
    rowSum es i f = rowSum es i g := by
  unfold rowSum
  congr 1
  apply List.map_congr_left
  intro e he
  obtain ⟨he, hr⟩ := List.mem_filter.1 he
  rw [h e he (by simpa using hr)]

theorem make_spec {s : Skeleton ℝ} {pt : ParameterTransform ℝ} (hC : PoseCharacter s pt) {S : PoseTransformSolver}
    (h : PoseTransformSolver.make s pt = some S) : ∃ n keep, RigidPart s pt S n keep := by
  unfold PoseTransformSolver.make createRigidBodySkeleton at h
  simp only [Option.bind_eq_bind, Option.bind_eq_some_iff] at h
  obtain ⟨c, ⟨rigid, hr, rj, hrj, h1⟩, h2⟩ := h
  split at h1
  · cases h1
  rename_i hn0
  simp only [Option.bind_eq_some_iff] at h1
  obtain ⟨keep, hkeep, ⟨it, L⟩, hsub, q, hq, h1⟩ := h1
  simp only at hq
  cases h1
  split at h2
  · cases h2
  simp only [Option.bind_eq_some_iff] at h2
  obtain ⟨rigid', hr', toFull, htf, h2⟩ := h2
  cases h2
  obtain ⟨hrl, hrj2⟩ := activeJoints_fold _ _ _ (by simp) hrj
  obtain ⟨hn1, hn2, hn3⟩ := numRigid_spec rj
  generalize numRigidJoints rj = n at *
  have hn3 := hn3 (by omega)
  have hrj3 : ∀ j, rj.getD j false = true ↔ ∃ e ∈ pt.transform.entries, rigid.mem e.col = true ∧ e.row / 7 = j := by
    intro j
    rw [hrj2 j]
    have : (List.replicate s.joints.length false).getD j false = false := by
      simp only [List.getD_eq_getElem?_getD, List.getElem?_replicate]
      split <;> rfl
    rw [this]; simp
  have hrig : ∀ i, rigid.mem i = true ↔ RigidParameter pt i := getRigid_mem hr
  have hlast : LastRigidJoint pt (n - 1) := by
    constructor
    · obtain ⟨e, he, h1, h2⟩ := (hrj3 _).1 hn3
      exact ⟨e.col, (hrig _).1 h1, e, he, rfl, h2⟩
    · rintro i j h1 ⟨e, he, rfl, h2⟩
      have := hn2 j ((hrj3 j).2 ⟨e, he, (hrig _).2 h1, h2⟩)
      omega
  unfold activeJointsToParameters at hkeep
  split at hkeep
  case isFalse => cases hkeep
  rename_i hlen
  have hkm : ∀ c, keep.mem c = true ↔ ∃ e ∈ pt.transform.entries, e.col = c ∧ e.row / 7 < n := by
    intro c
    rw [activeParams_fold _ _ _ hkeep c, ParameterSet.empty_mem]
    have hact : ∀ j, (List.replicate n true ++ rj.drop n).getD j false = true ↔ j < n := by
      intro j
      simp only [List.getD_eq_getElem?_getD]
      by_cases hj : j < n
      · rw [List.getElem?_append_left (by simpa using hj)]
        simp [hj]
      · rw [List.getElem?_append_right (by simpa using hj)]
        simp only [List.length_replicate, List.getElem?_drop]
        have e : n + (j - n) = j := by omega
        rw [e]
        have := hn2 j
        simp only [List.getD_eq_getElem?_getD] at this
        constructor
        · intro h; exact this h
        · intro h; exact absurd h hj
    simp only [hact]
    simp
  obtain ⟨q', L', hsub', hval⟩ := C15_subset_valid pt [] keep hC.valid
  rw [hsub] at hsub'
  cases hsub'
  obtain ⟨hnm, hcols, hrows, hoffs⟩ := C15_subset_names pt it [] L keep hC.valid hsub
  have hitv : it.Valid [] := ⟨hval.names, hval.bound, hval.offs, hval.wf, hval.constraints, hval.blend, hval.face, by simp⟩
  obtain ⟨-, -, hqn, -, -⟩ := C16_drops_blendShapes it q n _ hq
  have hqt := (mapJoints_some hq).2.1
  have hqcols : q.transform.cols = (keptParams keep pt.transform.cols).length := by
    rw [hqt]
    show it.name.length = _
    rw [hnm, restrictTo_length, hC.valid.names]
  have hname : ∀ k : Nat, q.name[k]? = (keptParams keep pt.transform.cols)[k]?.bind fun c => pt.name[c]? := by
    intro k
    rw [hqn, hnm, restrictTo_eq_map _ _ "", List.getElem?_map, hC.valid.names]
    cases hk : (keptParams keep pt.transform.cols)[k]? with
    | none => rfl
    | some c =>
      have hc := (mem_keptParams.1 (List.mem_of_getElem? hk)).1
      rw [← hC.valid.names] at hc
      simp [List.getElem?_eq_getElem hc]
  refine ⟨n, keep, ⟨by omega, by rw [← hrl]; exact hn1, hlast, hkm, rfl, rfl, ?_, ?_, ?_, hqcols, ?_⟩⟩
  · show (List.take n s.joints).length - 1 = n - 1
    rw [List.length_take, min_eq_left (by omega)]
  · show toFull = _
    have h3 := mapM_some_iff.1 htf
    have h4 : (List.range q.transform.cols).map (fun i => q.name[i]?.bind fun nm => getParameterIdByName pt.name nm) =
        (keptParams keep pt.transform.cols).map some := by
      apply List.ext_getElem?
      intro k
      rw [List.getElem?_map, List.getElem?_map, hqcols]
      by_cases hk : k < (keptParams keep pt.transform.cols).length
      · rw [List.getElem?_range hk, List.getElem?_eq_getElem hk]
        simp only [Option.map_some, Option.some.injEq]
        rw [hname k, List.getElem?_eq_getElem hk]
        simp only [Option.bind_some]
        have hc := lt_of_lt_of_eq (mem_keptParams.1 (List.getElem_mem hk)).1 hC.valid.names.symm
        rw [List.getElem?_eq_getElem hc, Option.bind_some]
        exact findIdx_nodup hC.names (List.getElem?_eq_getElem hc)
      · rw [List.getElem?_eq_none (by simpa using hk), List.getElem?_eq_none (by omega)]; rfl
    rw [h4] at h3
    exact (List.map_injective_iff.2 (Option.some_injective _) h3).symm
  · intro k
    show rigid'.mem k = true ↔ _
    rw [getRigid_mem hr' k, hname k]
    unfold RigidParameter
    constructor
    · rintro ⟨nm, h1, h2⟩
      obtain ⟨c, hc, h1⟩ := Option.bind_eq_some_iff.1 h1
      exact ⟨c, hc, nm, h1, h2⟩
    · rintro ⟨c, hc, nm, h1, h2⟩
      exact ⟨nm, by rw [hc]; exact h1, h2⟩
  · intro p hp
    obtain ⟨jp, g1, g2, g3⟩ := apply_getElem hC.valid hp
    obtain ⟨jz, z1, z2, z3⟩ := apply_getElem hC.valid (p := zeroOutside keep p) (by simp [zeroOutside, hp])
    have h5 := C15_subset_apply pt it [] L keep hsub p hp
    rw [z1] at h5
    have hinj : ∀ i j t : Nat, ((List.range s.joints.length).map fun i => if i < n then some i else none)[i]? = some (some t) →
        ((List.range s.joints.length).map fun i => if i < n then some i else none)[j]? = some (some t) → i = j := by
      have : ∀ i t : Nat, ((List.range s.joints.length).map fun i => if i < n then some i else none)[i]? = some (some t) → i = t := by
        intro i t hi
        rw [List.getElem?_map] at hi
        obtain ⟨i', hi', hi⟩ := Option.map_eq_some_iff.1 hi
        have := List.getElem?_eq_some_iff.1 hi'
        obtain ⟨_, h6⟩ := this
        simp only [List.getElem_range] at h6
        subst h6
        split at hi
        · simpa using hi
        · cases hi
      intro i j t hi hj
      rw [this i t hi, this j t hj]
    obtain ⟨jq, q1, q2, q3⟩ := C16_same_pose it q n _ hval.wf hval.names hinj hq (restrictTo keep p) jz h5
    refine ⟨jq, jp, q1, g1, q2, g2, fun j hj d hd => ?_⟩
    have hr7 : j * 7 + d < pt.transform.rows := by rw [hC.rows]; omega
    rw [q3 j j d hd hj (by rw [hrows]; exact hr7) (by
      rw [List.getElem?_map, List.getElem?_range (by omega)]; simp [hj]), g3 _ hr7, z3 _ hr7]
    congr 2
    apply rowSum_congr_row
    intro e he hre
    have e1 := mapIdx_getD keep p e.col
    have hm : keep.mem e.col = true := (hkm _).2 ⟨e, he, rfl, by rw [hre]; omega⟩
    rw [if_pos hm] at e1
    exact e1

end Momentum
