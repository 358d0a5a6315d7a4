import Verif.Lemmas.TrackerUtils4

/-!
# C75: turning locators into joints, and back
-/

namespace Momentum

/-- **C75 (defined).** The character with the locators as joints can be built whenever its parameters fit into a parameter set. -/
theorem C75_defined {c : Character ℝ} (pre : String) (hv : c.Valid)
    (h : c.parameterTransform.transform.cols + (freeAxes c.locators).length ≤ kMaxModelParams) :
    ∃ c', createLocatorCharacter c pre = some c' :=
  create_some pre (by rw [hv.pt.names]; exact h)

/-- **C75 (valid).** It is a valid character. -/
theorem C75_valid {c c' : Character ℝ} {pre : String} (hv : c.Valid) (h : createLocatorCharacter c pre = some c') : c'.Valid :=
  (created_of h).valid hv

/-- **C75 (parameters).** Its parameters are those of the given character followed by one for each axis along which a
locator may be moved, named after the locator and the axis; these are the parameter set "locators".  The joint parameters of the new
joints are active.  The mesh, its skin weights
and the collision geometry are kept. -/
theorem C75_parameters {c c' : Character ℝ} {pre : String} (hv : c.Valid) (h : createLocatorCharacter c pre = some c') :
    c'.parameterTransform.transform.cols = c.parameterTransform.transform.cols + (freeAxes c.locators).length ∧
      (∀ i < c.parameterTransform.transform.cols, c'.parameterTransform.name[i]? = c.parameterTransform.name[i]?) ∧
      (∀ i k j, (freeAxes c.locators)[i]? = some (k, j) → ∃ l, c.locators[k]? = some l ∧ l.locked.coord j = 0 ∧
        c'.parameterTransform.name[c.parameterTransform.transform.cols + i]? = some (pre ++ l.name ++ ["_tx", "_ty", "_tz"].getD j.val "")) ∧
      (∀ nm s, (nm, s) ∈ c'.parameterTransform.parameterSets ↔
        (nm, s) ∈ c.parameterTransform.parameterSets ∧ nm ≠ "locators" ∨ nm = "locators" ∧
          ∀ i, s.mem i = true ↔ c.parameterTransform.transform.cols ≤ i ∧ i < c'.parameterTransform.transform.cols) ∧
      (∀ i < c.parameterTransform.activeJointParams.length,
        c'.parameterTransform.activeJointParams[i]? = c.parameterTransform.activeJointParams[i]?) ∧
      (∀ i b, c.parameterTransform.activeJointParams.length ≤ i → c'.parameterTransform.activeJointParams[i]? = some b → b = true) ∧
      c'.parameterTransform.activeJointParams.length + c.skeleton.joints.length * 7 =
        c.parameterTransform.activeJointParams.length + c'.skeleton.joints.length * 7 ∧
      c'.mesh = c.mesh ∧ c'.skinWeights = c.skinWeights ∧ c'.collision = c.collision := by
  have hc := created_of h
  have hn := hv.pt.names
  have ha := created_active h
  refine ⟨by rw [hc.cols, hc.name_length, hn], fun i hi => ?_, fun i k j hi => ?_, fun nm s => ?_, fun i hi => ?_, fun i b hi hb => ?_, ?_, hc.mesh,
    hc.skin, hc.collision⟩
  · rw [hc.names, List.getElem?_append_left (by omega)]
  · obtain ⟨l, h1, h2⟩ := mem_freeAxes.1 (List.mem_of_getElem? hi)
    refine ⟨l, h1, h2, ?_⟩
    rw [hc.names, List.getElem?_append_right (by omega), List.getElem?_map, hn, Nat.add_sub_cancel_left, hi]
    have hj : translationNames j = ["_tx", "_ty", "_tz"].getD j.val "" := by
      match j with
      | 0 => rfl
      | 1 => rfl
      | 2 => rfl
    simp [h1, hj]
  · obtain ⟨t, ht, hm⟩ := hc.set
    rw [ht, hc.cols, ← hn]
    unfold assignSet
    rw [List.mem_append, List.mem_filter, List.mem_singleton]
    apply or_congr
    · simp
    · rw [Prod.mk.injEq]
      refine and_congr_right fun _ => ?_
      constructor
      · rintro rfl; exact hm
      · intro hs
        funext i
        have h1 := hm i.val
        have h2 := hs i.val
        simp only [ParameterSet.mem, i.isLt, dif_pos] at h1 h2
        rw [Bool.eq_iff_iff, h2, h1]
  · rw [ha, List.getElem?_append_left hi]
  · rw [ha, List.getElem?_append_right hi] at hb
    have := List.mem_of_getElem? hb
    simp only [List.mem_flatMap, List.mem_replicate] at this
    obtain ⟨_, _, _, h⟩ := this
    exact h
  · rw [ha, hc.joints]
    simp only [List.length_append, List.length_flatMap, List.length_replicate, List.map_const', List.sum_replicate, List.length_map,
      smul_eq_mul]
    ring

/-- **C75 (pose kept, locators moved).** In every pose of the new character the joints of the given character are where its
own parameters put them, and the locators are where they would be on the given character with their offsets moved along the free
axes by the new parameters. -/
theorem C75_pose {c c' : Character ℝ} {pre : String} (hv : c.Valid) (h : createLocatorCharacter c pre = some c') (p : List ℝ)
    (hp : p.length = c'.parameterTransform.transform.cols) :
    ∃ ts ts' x, characterPose c.skeleton c.parameterTransform (p.take c.parameterTransform.transform.cols) = some ts ∧
      characterPose c'.skeleton c'.parameterTransform p = some ts' ∧ ts'.take c.skeleton.joints.length = ts ∧
      LocatorsAt ts' c'.locators x ∧ LocatorsAt ts (movedLocators c.locators c.parameterTransform.transform.cols p) x := by
  have hc := created_of h
  obtain ⟨jp, jp', e1, e2, hf⟩ := hc.fits hv hp
  obtain ⟨st, st', s1, s2, -, l1, l2, hpre, hnew⟩ := hc.state hv hf
  refine ⟨st.map JointState.transform, st'.map JointState.transform,
    c.locators.mapIdx (fun k l => ((st.map JointState.transform)[l.parent]?.getD Transform.one).transformPoint
      (l.offset + locatorShift c.locators c.parameterTransform.transform.cols p k)), ?_, ?_, ?_, ⟨?_, ?_⟩, ⟨?_, ?_⟩⟩
  · simp [characterPose, e1, s1]
  · simp [characterPose, e2, s2]
  · have hlen := hc.length
    apply List.ext_getElem?
    intro i
    by_cases hi : i < c.skeleton.joints.length
    · rw [List.getElem?_take_of_lt hi, List.getElem?_map, List.getElem?_map, hpre i hi]
    · rw [List.getElem?_eq_none (by simp; omega), List.getElem?_eq_none (by simp; omega)]
  · rw [hc.locators]; simp [newLocators]
  · intro k l' hk'
    rw [hc.locator] at hk'
    obtain ⟨l, hk, rfl⟩ := Option.map_eq_some_iff.1 hk'
    have hpar := hv.locs l (List.mem_of_getElem? hk)
    have hsp : st[l.parent]? = some (st[l.parent]'(by omega)) := List.getElem?_eq_getElem _
    rw [List.getElem?_mapIdx, hk]
    by_cases hl : l.allLocked = true
    · rw [if_pos hl]
      refine ⟨(st[l.parent]'(by omega)).transform, ?_, ?_⟩
      · rw [List.getElem?_map, ← hpre _ hpar, hsp]; rfl
      · simp only [Option.map_some, locatorShift_allLocked hk hl, List.getElem?_map, hsp]
        simp
    · rw [if_neg hl]
      obtain ⟨sp, sn, h1, h2, h3⟩ := hnew k l hk (by simpa using hl)
      refine ⟨sn.transform, ?_, ?_⟩
      · rw [List.getElem?_map, h2]; rfl
      · simp only [Option.map_some, List.getElem?_map, h1]
        simp [transformPoint_zero, h3]
  · simp [movedLocators]
  · intro k l' hk'
    rw [movedLocators_getElem] at hk'
    obtain ⟨l, hk, rfl⟩ := Option.map_eq_some_iff.1 hk'
    have hpar := hv.locs l (List.mem_of_getElem? hk)
    refine ⟨(st[l.parent]'(by omega)).transform, ?_, ?_⟩
    · simp [List.getElem?_eq_getElem (show l.parent < st.length by omega)]
    · rw [List.getElem?_mapIdx, hk]
      simp [List.getElem?_eq_getElem (show l.parent < st.length by omega)]

/-- **C75 (unmoved).** With zeros for the new parameters the locators are where they were. -/
theorem C75_unmoved {c c' : Character ℝ} {pre : String} (hv : c.Valid) (h : createLocatorCharacter c pre = some c') (p : List ℝ)
    (hp : p.length = c.parameterTransform.transform.cols) :
    ∃ ts ts' x, characterPose c.skeleton c.parameterTransform p = some ts ∧
      characterPose c'.skeleton c'.parameterTransform (p ++ List.replicate (freeAxes c.locators).length 0) = some ts' ∧
      LocatorsAt ts c.locators x ∧ LocatorsAt ts' c'.locators x := by
  obtain ⟨ts, ts', x, h1, h2, -, h4, h5⟩ := C75_pose hv h (p ++ List.replicate (freeAxes c.locators).length 0)
    (by rw [(C75_parameters hv h).1]; simp [hp])
  rw [List.take_left' hp] at h1
  rw [movedLocators_zero] at h5
  · exact ⟨ts, ts', x, h1, h2, h5, h4⟩
  · intro i hi
    rw [List.getD_eq_getElem?_getD, List.getElem?_append_right (by omega)]
    cases hx : (List.replicate (freeAxes c.locators).length (0 : ℝ))[i - p.length]? with
    | none => rfl
    | some x => exact List.eq_of_mem_replicate (List.mem_of_getElem? hx)

/-- **C75 (locked axes).** Along a locked axis a locator is never moved. -/
theorem C75_locked (locators : List (Locator ℝ)) (n : Nat) (p : List ℝ) {k : Nat} {l : Locator ℝ} (hk : locators[k]? = some l)
    {j : Fin 3} (hl : l.locked.coord j ≠ 0) : ∃ l', (movedLocators locators n p)[k]? = some l' ∧ l'.offset.coord j = l.offset.coord j := by
  rw [movedLocators_getElem, hk]
  refine ⟨_, rfl, ?_⟩
  have h0 := axisShift_locked (n := n) (p := p) hk hl
  match j with
  | 0 => show l.offset.x + axisShift locators n p k 0 = _; rw [h0, add_zero]; rfl
  | 1 => show l.offset.y + axisShift locators n p k 1 = _; rw [h0, add_zero]; rfl
  | 2 => show l.offset.z + axisShift locators n p k 2 = _; rw [h0, add_zero]; rfl

/-- **C75 (free axes).** Along the free axes the locators can be moved anywhere, each independently of the others. -/
theorem C75_free (locators : List (Locator ℝ)) (p : List ℝ) (d : Nat → Fin 3 → ℝ) :
    ∃ x : List ℝ, x.length = (freeAxes locators).length ∧ ∀ (k : Nat) (l : Locator ℝ), locators[k]? = some l →
      ∃ l', (movedLocators locators p.length (p ++ x))[k]? = some l' ∧
        ∀ j, l.locked.coord j = 0 → l'.offset.coord j = l.offset.coord j + d k j := by
  refine ⟨(freeAxes locators).map fun kj => d kj.1 kj.2, by simp, fun k l hk => ?_⟩
  rw [movedLocators_getElem, hk]
  refine ⟨_, rfl, fun j hj => ?_⟩
  have hm : (k, j) ∈ freeAxes locators := mem_freeAxes.2 ⟨l, hk, hj⟩
  have hs : axisShift locators p.length (p ++ (freeAxes locators).map fun kj => d kj.1 kj.2) k j = d k j := by
    unfold axisShift
    rw [if_pos hm, List.getD_eq_getElem?_getD, List.getElem?_append_right (by omega), Nat.add_sub_cancel_left, List.getElem?_map,
      List.getElem?_eq_getElem (List.idxOf_lt_length_of_mem hm), List.getElem_idxOf]
    rfl
  rw [← hs]
  match j with
  | 0 => rfl
  | 1 => rfl
  | 2 => rfl

/-- **C75 (extracted).** Reading the locators back from the new character gives the locators of the given one with the
offsets moved by the new parameters, whatever the pose. -/
theorem C75_extracted {c c' : Character ℝ} {pre : String} (hv : c.Valid)
    (hu : ∀ jt ∈ c.skeleton.joints, jt.preRotation.normSq = 1) (h : createLocatorCharacter c pre = some c') (p : List ℝ)
    (hp : p.length = c'.parameterTransform.transform.cols) :
    extractLocatorsFromCharacter c' ⟨p, []⟩ = some (movedLocators c.locators c.parameterTransform.transform.cols p) := by
  have hc := created_of h
  obtain ⟨jp, jp', e2, hf⟩ := hc.fits_character hv hp
  obtain ⟨st, st', s1, s2, g2, l1, l2, hpre, hnew⟩ := hc.state hv hf
  have hunit := fun j => g2.worldOf_unit (hc.skeleton_valid hv) (hc.unit hu) j
  unfold extractLocatorsFromCharacter
  simp only [Option.bind_eq_bind, e2, s2, Option.bind_some]
  rw [mapM_mapIdx _ _ (fun k l' => (movedLocators c.locators c.parameterTransform.transform.cols p)[k]?.getD l')]
  · congr 1
    apply List.ext_getElem?
    intro k
    rw [List.getElem?_mapIdx, hc.locator, movedLocators_getElem]
    cases c.locators[k]? <;> rfl
  · intro k l' hk'
    rw [hc.locator] at hk'
    obtain ⟨l, hk, rfl⟩ := Option.map_eq_some_iff.1 hk'
    rw [movedLocators_getElem, hk]
    by_cases hl : l.allLocked = true
    · rw [if_pos hl, locatorShift_allLocked hk hl]
      unfold extractLocator
      rw [if_pos hl]
      simp
    · rw [if_neg hl]
      obtain ⟨sp, sn, h1, h2, h3⟩ := hnew k l hk (by simpa using hl)
      have hpar := hv.locs l (List.mem_of_getElem? hk)
      have h4 : st'[l.parent]? = some sp := by rw [← hpre _ hpar]; exact h1
      have h5 := hunit (some l.parent)
      simp only [worldOf, h4] at h5
      unfold extractLocator
      rw [if_neg (by exact hl)]
      simp only [worldAffines, List.getElem?_map, h2, hc.new hk (by simpa using hl), h4, Option.map_some, Option.bind_eq_bind,
        Option.bind_some, Option.getD_some, Option.some.injEq]
      congr 1
      rw [toAffine3_apply, transformPoint_zero, h3, ← toAffine3_apply, Affine.inverse_apply (affine_det h5.1 h5.2)]

/-- **C75 (round trip).** With zeros for the new parameters the locators that are read back are the given ones. -/
theorem C75_round_trip {c c' : Character ℝ} {pre : String} (hv : c.Valid)
    (hu : ∀ jt ∈ c.skeleton.joints, jt.preRotation.normSq = 1) (h : createLocatorCharacter c pre = some c') (p : List ℝ)
    (hp : p.length = c.parameterTransform.transform.cols) :
    extractLocatorsFromCharacter c' ⟨p ++ List.replicate (freeAxes c.locators).length 0, []⟩ = some c.locators := by
  rw [C75_extracted hv hu h _ (by rw [(C75_parameters hv h).1]; simp [hp]), movedLocators_zero]
  intro i hi
  rw [List.getD_eq_getElem?_getD, List.getElem?_append_right (by omega)]
  cases hx : (List.replicate (freeAxes c.locators).length (0 : ℝ))[i - p.length]? with
  | none => rfl
  | some x => exact List.eq_of_mem_replicate (List.mem_of_getElem? hx)

/-- **C75 (calibrated).** The locators read back, put on the given character, are where the new character had them. -/
theorem C75_calibrated {c c' : Character ℝ} {pre : String} (hv : c.Valid)
    (hu : ∀ jt ∈ c.skeleton.joints, jt.preRotation.normSq = 1) (h : createLocatorCharacter c pre = some c') (p : List ℝ)
    (hp : p.length = c'.parameterTransform.transform.cols) :
    ∃ ls ts ts' x, extractLocatorsFromCharacter c' ⟨p, []⟩ = some ls ∧
      characterPose c.skeleton c.parameterTransform (p.take c.parameterTransform.transform.cols) = some ts ∧
      characterPose c'.skeleton c'.parameterTransform p = some ts' ∧ LocatorsAt ts ls x ∧ LocatorsAt ts' c'.locators x := by
  obtain ⟨ts, ts', x, h1, h2, -, h4, h5⟩ := C75_pose hv h p hp
  exact ⟨_, ts, ts', x, C75_extracted hv hu h p hp, h1, h2, h5, h4⟩

/-- **C75 (calibration).** Splitting the parameters of the new character gives the values of the given character's scale
parameters, zeros for its other parameters, and the moved locators. -/
theorem C75_id_and_locators {c c' : Character ℝ} {pre : String} (hv : c.Valid)
    (hu : ∀ jt ∈ c.skeleton.joints, jt.preRotation.normSq = 1) (h : createLocatorCharacter c pre = some c') (p : List ℝ)
    (hp : p.length = c'.parameterTransform.transform.cols) :
    ∃ ids : List ℝ, extractIdAndLocatorsFromParams p c' c =
        some (ids, movedLocators c.locators c.parameterTransform.transform.cols p) ∧
      ids.length = c.parameterTransform.transform.cols ∧
      ∀ (i : Nat) (nm : String), c.parameterTransform.name[i]? = some nm →
        ("scale_".toList <:+: nm.toList → ids[i]? = p[i]?) ∧ (¬"scale_".toList <:+: nm.toList → ids[i]? = some 0) := by
  have hc := created_of h
  have hv' := C75_valid hv h
  have hcol := (C75_parameters hv h).1
  obtain ⟨s, hs⟩ := getScaling_some (names := c.parameterTransform.name) (by rw [hv.pt.names]; exact hv.pt.bound)
  refine ⟨(p.mapIdx fun i x => if s.mem i then x else 0).take c.parameterTransform.transform.cols, ?_, ?_, fun i nm hi => ?_⟩
  · unfold extractIdAndLocatorsFromParams
    simp only [Option.bind_eq_bind, hs, Option.bind_some, extractParameters_eq s (by rw [hp]; exact hv'.pt.bound),
      C75_extracted hv hu h p hp]
    rw [if_pos (by rw [List.length_mapIdx]; omega)]
  · rw [List.length_take, List.length_mapIdx]; omega
  · have hlt := (List.getElem?_eq_some_iff.1 hi).1
    rw [hv.pt.names] at hlt
    have hm := getScaling_mem hs i
    rw [List.getElem?_take_of_lt hlt, List.getElem?_mapIdx, List.getElem?_eq_getElem (by omega : i < p.length)]
    constructor
    · intro hn
      rw [Option.map_some, if_pos (hm.2 ⟨nm, hi, hn⟩)]
    · intro hn
      rw [Option.map_some, if_neg]
      intro hh
      obtain ⟨nm', h1, h2⟩ := hm.1 hh
      rw [hi] at h1
      cases h1
      exact hn h2

/-- **C75 (limits).** The limits of the given character are kept, and there is one more for each free axis with a positive
weight.  Its two bounds are the same, and the joint parameter is as far from them as the moved locator is from its limit origin. -/
theorem C75_limits {c c' : Character ℝ} {pre : String} (hv : c.Valid) (h : createLocatorCharacter c pre = some c') (p : List ℝ)
    (hp : p.length = c'.parameterTransform.transform.cols) :
    ∃ jp, c'.parameterTransform.apply p = some jp ∧ ∃ joint : Nat → Nat,
      (∀ lim, lim ∈ c'.parameterLimits ↔ lim ∈ c.parameterLimits ∨ ∃ k l j, c.locators[k]? = some l ∧ l.locked.coord j = 0 ∧
        0 < l.limitWeight.coord j ∧ lim = ⟨.minMaxJoint (joint k) j.val (l.limitOrigin.coord j - l.offset.coord j)
          (l.limitOrigin.coord j - l.offset.coord j), l.limitWeight.coord j⟩) ∧
      ∀ k l l' j, c.locators[k]? = some l → l.locked.coord j = 0 →
        (movedLocators c.locators c.parameterTransform.transform.cols p)[k]? = some l' →
        ∃ v, jp[joint k * 7 + j.val]? = some v ∧
          v - (l.limitOrigin.coord j - l.offset.coord j) = l'.offset.coord j - l.limitOrigin.coord j := by
  have hc := created_of h
  obtain ⟨jp, jp', e1, e2, hf⟩ := hc.fits hv hp
  refine ⟨jp', e2, newJoint c.locators c.skeleton.joints.length, fun lim => hc.mem_limits, fun k l l' j hk hj hl' => ?_⟩
  have hl := allLocked_false hj
  have h1 := hf.new k l hk hl j.val (by omega)
  rw [dif_pos j.isLt] at h1
  have h2 := hc.new_lt hk hl
  have h3 := hf.len'
  have hlt : newJoint c.locators c.skeleton.joints.length k * 7 + j.val < jp'.length := by have := j.isLt; omega
  rw [List.getD_eq_getElem _ _ hlt] at h1
  refine ⟨_, List.getElem?_eq_getElem hlt, ?_⟩
  rw [h1]
  rw [movedLocators_getElem, hk] at hl'
  cases hl'
  match j with
  | 0 =>
    show axisShift c.locators c.parameterTransform.transform.cols p k 0 - (l.limitOrigin.x - l.offset.x) =
      l.offset.x + axisShift c.locators c.parameterTransform.transform.cols p k 0 - l.limitOrigin.x
    ring
  | 1 =>
    show axisShift c.locators c.parameterTransform.transform.cols p k 1 - (l.limitOrigin.y - l.offset.y) =
      l.offset.y + axisShift c.locators c.parameterTransform.transform.cols p k 1 - l.limitOrigin.y
    ring
  | 2 =>
    show axisShift c.locators c.parameterTransform.transform.cols p k 2 - (l.limitOrigin.z - l.offset.z) =
      l.offset.z + axisShift c.locators c.parameterTransform.transform.cols p k 2 - l.limitOrigin.z
    ring

/-- **C75 (constraints).** Each frame has a constraint for each marker that is visible and has a locator, in the order of
the markers, and no others. -/
theorem C75_constraints (data : List (List (Marker ℝ))) (locators : List (Locator ℝ)) :
    createConstraintData data locators = data.map fun frame => frame.filterMap (expectedConstraint locators) := by
  unfold createConstraintData
  have : (markerConstraint locators : Marker ℝ → Option (MarkerConstraint ℝ)) = expectedConstraint locators :=
    funext fun m => markerConstraint_eq locators m
  rw [this]

/-- **C75 (markers met).** The markers computed from a motion, turned into constraints, are met in the poses of that
motion; there is one constraint for each locator. -/
theorem C75_markers_met {c : Character ℝ} (hv : c.Valid) (hn : (c.locators.map Locator.name).Nodup) (motion : List (List ℝ))
    (hm : ∀ q ∈ motion, q.length = c.skeleton.joints.length * 7) :
    ∃ data, extractMarkersFromMotion c motion = some data ∧ data.length = motion.length ∧
      ∀ (f : Nat) (q : List ℝ), motion[f]? = some q → ∃ st cs, skeletonState c.skeleton q false = some st ∧
        (createConstraintData data c.locators)[f]? = some cs ∧ cs.length = c.locators.length ∧
          ∀ (k : Nat) (l : Locator ℝ), c.locators[k]? = some l → ∃ mc, cs[k]? = some mc ∧ mc.parent = l.parent ∧
            mc.offset = l.offset ∧ mc.weight = l.weight ∧ mc.Met (st.map JointState.transform) := by
  have hframe : ∀ q ∈ motion, ∃ st, skeletonState c.skeleton q false = some st ∧ st.length = c.skeleton.joints.length ∧
      frameMarkers c q = some (c.locators.map fun l =>
        (⟨l.name, (worldOf st (some l.parent)).transformPoint l.offset, false⟩ : Marker ℝ)) := by
    intro q hq
    obtain ⟨st, e1, -, l1⟩ := skeletonState_good hv.skel false (hm q hq)
    refine ⟨st, e1, l1, ?_⟩
    unfold frameMarkers
    simp only [Option.bind_eq_bind, e1, Option.bind_some]
    rw [mapM_mapIdx _ _ (fun _ l => (⟨l.name, (worldOf st (some l.parent)).transformPoint l.offset, false⟩ : Marker ℝ))]
    · congr 1
      apply List.ext_getElem?
      intro k
      rw [List.getElem?_mapIdx, List.getElem?_map]
    · intro k l hk
      have hpar := hv.locs l (List.mem_of_getElem? hk)
      have : st[l.parent]? = some (st[l.parent]'(by omega)) := List.getElem?_eq_getElem _
      simp only [worldAffines, List.getElem?_map, this, Option.map_some, worldOf, toAffine3_apply]
  choose! S hS1 hS2 hS3 using hframe
  refine ⟨motion.mapIdx fun _ q => c.locators.map fun l =>
    (⟨l.name, (worldOf (S q) (some l.parent)).transformPoint l.offset, false⟩ : Marker ℝ), ?_, by simp, fun f q hf => ?_⟩
  · exact mapM_mapIdx _ _ _ fun f q hf => hS3 q (List.mem_of_getElem? hf)
  · have hq := List.mem_of_getElem? hf
    have hcs : (c.locators.map fun l => (⟨l.name, (worldOf (S q) (some l.parent)).transformPoint l.offset, false⟩ : Marker ℝ)).filterMap
        (expectedConstraint c.locators) = c.locators.map fun l =>
          (⟨l.offset, (worldOf (S q) (some l.parent)).transformPoint l.offset, l.parent, l.weight⟩ : MarkerConstraint ℝ) := by
      rw [List.filterMap_map, ← List.filterMap_eq_map]
      apply List.filterMap_congr
      intro l hl
      simp only [Function.comp, expectedConstraint, Bool.false_eq_true, if_false]
      rw [find_reverse_nodup hn hl]
      rfl
    refine ⟨S q, c.locators.map fun l =>
      (⟨l.offset, (worldOf (S q) (some l.parent)).transformPoint l.offset, l.parent, l.weight⟩ : MarkerConstraint ℝ),
      hS1 q hq, ?_, ?_, fun k l hk => ?_⟩
    · rw [C75_constraints, List.getElem?_map, List.getElem?_mapIdx, hf]
      simp only [Option.map_some]
      rw [hcs]
    · simp
    · have hpar := hv.locs l (List.mem_of_getElem? hk)
      have hlen := hS2 q hq
      have : (S q)[l.parent]? = some ((S q)[l.parent]'(by omega)) := List.getElem?_eq_getElem _
      refine ⟨_, by rw [List.getElem?_map, hk]; rfl, rfl, rfl, rfl, ?_⟩
      refine ⟨((S q)[l.parent]'(by omega)).transform, ?_, ?_⟩
      · rw [List.getElem?_map, this]; rfl
      · simp only [worldOf, this]

/-- **C75 (identity).** Adding the identity parameters to a motion and subtracting them again gives the motion back, and so
does the reverse. -/
theorem C75_identity (idSet : ParameterSet) (identity : List ℝ) (hk : identity.length ≤ kMaxModelParams) (motion : List (List ℝ))
    (hm : ∀ q ∈ motion, q.length = identity.length) :
    ∃ filled removed, fillIdentity idSet identity identity.length motion = some filled ∧ removeIdentity idSet identity filled = some motion ∧
      removeIdentity idSet identity motion = some removed ∧ fillIdentity idSet identity identity.length removed = some motion ∧
      ∀ (f i : Nat) (q : List ℝ) (x : ℝ), motion[f]? = some q → q[i]? = some x → ∃ q', filled[f]? = some q' ∧
        q'[i]? = some (if idSet.mem i then x + identity.getD i 0 else x) := by
  have hcol : ∀ (op : ℝ → ℝ → ℝ) (ms : List (List ℝ)), (∀ q ∈ ms, q.length = identity.length) →
      ms.mapM (identityColumn op idSet identity) =
        some (ms.map fun q => q.mapIdx fun i x => if idSet.mem i then op x (identity.getD i 0) else x) := by
    intro op ms hms
    rw [mapM_mapIdx _ _ (fun _ q => q.mapIdx fun i x => if idSet.mem i then op x (identity.getD i 0) else x)]
    · congr 1
      apply List.ext_getElem?
      intro k
      rw [List.getElem?_mapIdx, List.getElem?_map]
    · intro k q hq
      have := hms q (List.mem_of_getElem? hq)
      exact identityColumn_eq op idSet (by omega) (by omega)
  have hback : ∀ (op op' : ℝ → ℝ → ℝ), (∀ x y, op' (op x y) y = x) → (motion.map fun q => q.mapIdx fun i x =>
      if idSet.mem i then op x (identity.getD i 0) else x).map (fun q => q.mapIdx fun i x =>
        if idSet.mem i then op' x (identity.getD i 0) else x) = motion := by
    intro op op' hop
    rw [List.map_map]
    conv_rhs => rw [← List.map_id motion]
    refine List.map_congr_left fun q _ => ?_
    apply List.ext_getElem?
    intro i
    simp only [Function.comp, List.getElem?_mapIdx, id]
    cases q[i]? with
    | none => rfl
    | some x =>
      simp only [Option.map_some]
      split
      · rw [hop]
      · rfl
  have hlen : ∀ op : ℝ → ℝ → ℝ, ∀ q ∈ (motion.map fun q => q.mapIdx fun i x => if idSet.mem i then op x (identity.getD i 0) else x),
      q.length = identity.length := by
    intro op q hq
    obtain ⟨q0, h0, rfl⟩ := List.mem_map.1 hq
    rw [List.length_mapIdx]
    exact hm q0 h0
  refine ⟨motion.map fun q => q.mapIdx fun i x => if idSet.mem i then x + identity.getD i 0 else x, _, ?_, ?_,
    hcol (· - ·) motion hm, ?_, ?_⟩
  · unfold fillIdentity
    rw [if_pos rfl, hcol (· + ·) motion hm]
  · unfold removeIdentity
    rw [hcol (· - ·) _ (hlen (· + ·)), hback (· + ·) (· - ·) (by intros; ring)]
  · unfold fillIdentity
    rw [if_pos rfl, hcol (· + ·) _ (hlen (· - ·)), hback (· - ·) (· + ·) (by intros; ring)]
  · intro f i q x hf hi
    refine ⟨_, by rw [List.getElem?_map, hf]; rfl, ?_⟩
    rw [List.getElem?_mapIdx, hi]
    rfl

end Momentum
