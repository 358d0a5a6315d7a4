import Verif.Lemmas.TrackerUtils2

namespace Momentum

section
variable {c c' : Character ℝ} {pre : String}

theorem Created.length (hc : Created c pre c') :
    c'.skeleton.joints.length = c.skeleton.joints.length + (c.locators.filter fun l => !l.allLocked).length := by
  rw [hc.joints]; simp

theorem Created.old (hc : Created c pre c') {i : Nat} (hi : i < c.skeleton.joints.length) :
    c'.skeleton.joints[i]? = c.skeleton.joints[i]? := by
  rw [hc.joints, List.getElem?_append_left hi]

theorem Created.new (hc : Created c pre c') {k : Nat} {l : Locator ℝ} (hk : c.locators[k]? = some l) (hl : l.allLocked = false) :
    c'.skeleton.joints[newJoint c.locators c.skeleton.joints.length k]? =
      some ⟨pre ++ l.name, some l.parent, Quat.one, l.offset⟩ := by
  rw [hc.joints, List.getElem?_append_right (newJoint_ge _ _ _), List.getElem?_map, newJoint_lt hk hl]
  rfl

theorem Created.new_lt (hc : Created c pre c') {k : Nat} {l : Locator ℝ} (hk : c.locators[k]? = some l) (hl : l.allLocked = false) :
    newJoint c.locators c.skeleton.joints.length k < c'.skeleton.joints.length :=
  (List.getElem?_eq_some_iff.1 (hc.new hk hl)).1

theorem Created.new_of (hc : Created c pre c') {i : Nat} (hi : c.skeleton.joints.length ≤ i) {jt : Joint ℝ}
    (h : c'.skeleton.joints[i]? = some jt) : ∃ l ∈ c.locators, jt = ⟨pre ++ l.name, some l.parent, Quat.one, l.offset⟩ := by
  rw [hc.joints, List.getElem?_append_right hi, List.getElem?_map] at h
  obtain ⟨l, h1, rfl⟩ := Option.map_eq_some_iff.1 h
  exact ⟨l, (List.mem_filter.1 (List.mem_of_getElem? h1)).1, rfl⟩

theorem Created.skeleton_valid (hc : Created c pre c') (hv : c.Valid) : c'.skeleton.Valid := by
  intro i jt p hj hp
  by_cases hi : i < c.skeleton.joints.length
  · rw [hc.old hi] at hj
    exact hv.skel i jt p hj hp
  · obtain ⟨l, hl, rfl⟩ := hc.new_of (not_lt.1 hi) hj
    cases hp
    have := hv.locs l hl
    omega

theorem Created.unit (hc : Created c pre c') (hu : ∀ jt ∈ c.skeleton.joints, jt.preRotation.normSq = 1) :
    ∀ jt ∈ c'.skeleton.joints, jt.preRotation.normSq = 1 := by
  intro jt hj
  rw [hc.joints] at hj
  rcases List.mem_append.1 hj with h | h
  · exact hu jt h
  · obtain ⟨l, -, rfl⟩ := List.mem_map.1 h
    simp [Quat.one, Quat.normSq]

theorem Created.name_length (hc : Created c pre c') :
    c'.parameterTransform.name.length = c.parameterTransform.name.length + (freeAxes c.locators).length := by
  rw [hc.names]; simp

theorem Created.offsets_length (hc : Created c pre c') (hv : c.Valid) :
    c'.parameterTransform.offsets.length = c'.parameterTransform.transform.rows := by
  rw [hc.rows, hc.length, hc.offsets]
  have := hv.pt.offs
  have := hv.rows
  simp
  omega

theorem Created.mem_new (hc : Created c pre c') {e : Triplet ℝ}
    (he : e ∈ ((freeAxes c.locators).zipIdx c.parameterTransform.name.length).map
      fun a => (⟨newJoint c.locators c.skeleton.joints.length a.1.1 * 7 + a.1.2.val, a.2, 1⟩ : Triplet ℝ)) :
    c.skeleton.joints.length * 7 ≤ e.row ∧ e.row < c'.skeleton.joints.length * 7 ∧ e.col < c'.parameterTransform.name.length := by
  obtain ⟨⟨⟨k, j⟩, i⟩, hx, rfl⟩ := List.mem_map.1 he
  have hz := List.mem_zipIdx hx
  have hx' : (k, j) ∈ freeAxes c.locators := hz.2.2 ▸ List.getElem_mem _
  obtain ⟨l, h1, h2⟩ := mem_freeAxes.1 hx'
  have h3 := hc.new_lt h1 (allLocked_false h2)
  have h4 := newJoint_ge c.locators c.skeleton.joints.length k
  have := j.isLt
  have := hc.name_length
  simp only
  omega

theorem Created.wf (hc : Created c pre c') (hv : c.Valid) : c'.parameterTransform.transform.WF := by
  intro e he
  rw [hc.entries] at he
  rw [hc.rows, hc.cols]
  rcases List.mem_append.1 he with h | h
  · have h1 := hv.pt.wf e h
    have h2 := hv.rows
    have h3 := hv.pt.names
    have h4 := hc.length
    have h5 := hc.name_length
    omega
  · exact ⟨(hc.mem_new h).2.1, (hc.mem_new h).2.2⟩

theorem Created.mem_limits (hc : Created c pre c') {lim : ParameterLimit ℝ} : lim ∈ c'.parameterLimits ↔ lim ∈ c.parameterLimits ∨
    ∃ k l j, c.locators[k]? = some l ∧ l.locked.coord j = 0 ∧ 0 < l.limitWeight.coord j ∧
      lim = ⟨.minMaxJoint (newJoint c.locators c.skeleton.joints.length k) j.val (l.limitOrigin.coord j - l.offset.coord j)
        (l.limitOrigin.coord j - l.offset.coord j), l.limitWeight.coord j⟩ := by
  rw [hc.limits, List.mem_append]
  apply or_congr_right
  rw [List.mem_flatMap]
  constructor
  · rintro ⟨⟨k, j⟩, h1, h2⟩
    obtain ⟨l, h3, h4⟩ := mem_freeAxes.1 h1
    simp only [h3, Option.elim] at h2
    unfold axisLimit at h2
    split at h2
    · rename_i hw
      exact ⟨k, l, j, h3, h4, hw, by simpa using h2⟩
    · simp at h2
  · rintro ⟨k, l, j, h3, h4, hw, rfl⟩
    refine ⟨(k, j), mem_freeAxes.2 ⟨l, h3, h4⟩, ?_⟩
    simp only [h3, Option.elim]
    unfold axisLimit
    rw [if_pos hw]
    simp

theorem Created.locator (hc : Created c pre c') (k : Nat) : c'.locators[k]? = c.locators[k]?.map fun l =>
    if l.allLocked then l else { l with parent := newJoint c.locators c.skeleton.joints.length k, offset := 0 } := by
  rw [hc.locators]
  unfold newLocators
  rw [List.getElem?_mapIdx]

theorem Created.valid (hc : Created c pre c') (hv : c.Valid) : c'.Valid := by
  have hlen := hc.length
  refine ⟨hc.skeleton_valid hv, by rw [hc.rows]; omega, ⟨hc.cols.symm, ?_, hc.offsets_length hv, hc.wf hv, ?_, ?_, ?_, ?_⟩, ?_, ?_, ?_, ?_⟩
  · rw [hc.cols]
    exact hc.bound (by rw [hv.pt.names]; exact hv.pt.bound)
  · intro nc h iv h2
    rw [hc.constraints] at h
    have := hv.pt.constraints nc h iv h2
    rw [hc.cols, hc.name_length, hv.pt.names]; omega
  · intro b h
    rw [hc.blend] at h
    have := hv.pt.blend b h
    rw [hc.cols, hc.name_length, hv.pt.names]; omega
  · intro b h
    rw [hc.face] at h
    have := hv.pt.face b h
    rw [hc.cols, hc.name_length, hv.pt.names]; omega
  · intro lim h i hi
    rw [hc.cols, hc.name_length, hv.pt.names]
    rcases hc.mem_limits.1 h with h | ⟨k, l, j, -, -, -, rfl⟩
    · have := hv.pt.lims lim h i hi; omega
    · simp [LimitData.params] at hi
  · intro l' h
    obtain ⟨k, hk⟩ := List.getElem?_of_mem h
    rw [hc.locator] at hk
    obtain ⟨l, h1, rfl⟩ := Option.map_eq_some_iff.1 hk
    split
    · have := hv.locs l (List.mem_of_getElem? h1); omega
    · rename_i hl
      exact hc.new_lt h1 (by simpa using hl)
  · intro g h k hk
    rw [hc.collision] at h
    have := hv.caps g h k hk; omega
  · intro lim h j hj
    rcases hc.mem_limits.1 h with h | ⟨k, l, j', h1, h2, -, rfl⟩
    · have := hv.lims lim h j hj; omega
    · simp only [LimitData.joints, List.mem_singleton] at hj
      subst hj
      exact hc.new_lt h1 (allLocked_false h2)
  · intro w h row hr iw hi
    rw [hc.skin] at h
    have := hv.skin w h row hr iw hi; omega

theorem Created.rowSum_old (hc : Created c pre c') (hv : c.Valid) {p : List ℝ} {r : Nat} (hr : r < c.skeleton.joints.length * 7) :
    rowSum c'.parameterTransform.transform.entries r (fun j => p.getD j 0) =
      rowSum c.parameterTransform.transform.entries r (fun j => (p.take c.parameterTransform.transform.cols).getD j 0) := by
  rw [hc.entries, rowSum_app, rowSum_none (es := List.map _ _) _ (fun e he => by have := (hc.mem_new he).1; omega), add_zero]
  refine rowSum_congr_row fun e he _ => ?_
  have := (hv.pt.wf e he).2
  simp only [List.getD_eq_getElem?_getD]
  rw [List.getElem?_take_of_lt this]

theorem Created.rowSum_new (hc : Created c pre c') (hv : c.Valid) {p : List ℝ} {k : Nat} {l : Locator ℝ} (hk : c.locators[k]? = some l)
    (hl : l.allLocked = false) {d : Nat} (hd : d < 7) :
    rowSum c'.parameterTransform.transform.entries (newJoint c.locators c.skeleton.joints.length k * 7 + d) (fun j => p.getD j 0) =
      if h : d < 3 then axisShift c.locators c.parameterTransform.transform.cols p k ⟨d, h⟩ else 0 := by
  rw [hc.entries, rowSum_app, newRows hk hl hd, rowSum_none, zero_add, hv.pt.names]
  intro e he
  have h1 := (hv.pt.wf e he).1
  have h2 := hv.rows
  have h3 := newJoint_ge c.locators c.skeleton.joints.length k
  omega

/-- The joint parameters of the two characters fit together. -/
structure Fits (c c' : Character ℝ) (p jp jp' : List ℝ) : Prop where
  len : jp.length = c.skeleton.joints.length * 7
  len' : jp'.length = c'.skeleton.joints.length * 7
  old : ∀ r < c.skeleton.joints.length * 7, jp'[r]? = jp[r]?
  new : ∀ (k : Nat) (l : Locator ℝ), c.locators[k]? = some l → l.allLocked = false → ∀ d < 7,
    jp'.getD (newJoint c.locators c.skeleton.joints.length k * 7 + d) 0 =
      if h : d < 3 then axisShift c.locators c.parameterTransform.transform.cols p k ⟨d, h⟩ else 0

theorem Created.fits (hc : Created c pre c') (hv : c.Valid) {p : List ℝ} (hp : p.length = c'.parameterTransform.transform.cols) :
    ∃ jp jp', c.parameterTransform.apply (p.take c.parameterTransform.transform.cols) = some jp ∧
      c'.parameterTransform.apply p = some jp' ∧ Fits c c' p jp jp' := by
  have hcol : c.parameterTransform.transform.cols ≤ p.length := by
    rw [hp, hc.cols, hc.name_length, hv.pt.names]; omega
  obtain ⟨jp, e1, l1, g1⟩ := apply_getElem hv.pt (p := p.take c.parameterTransform.transform.cols) (by simpa using hcol)
  obtain ⟨jp', e2, l2, g2⟩ := apply_getElem (hc.valid hv).pt hp
  have hr := hv.rows
  have hr' := hc.rows
  have hlen := hc.length
  refine ⟨jp, jp', e1, e2, by omega, by omega, fun r h => ?_, fun k l hk hl d hd => ?_⟩
  · rw [g1 r (by omega), g2 r (by omega), hc.rowSum_old hv h, hc.offsets]
    congr 2
    have := hv.pt.offs
    simp only [List.getD_eq_getElem?_getD]
    rw [List.getElem?_append_left (by omega)]
  · have h1 := hc.new_lt hk hl
    rw [List.getD_eq_getElem?_getD, g2 _ (by omega), Option.getD_some, hc.rowSum_new hv hk hl hd, hc.offsets]
    have h0 : (c.parameterTransform.offsets ++ (c.locators.filter fun l => !l.allLocked).flatMap fun _ => List.replicate 7 (0 : ℝ)).getD
        (newJoint c.locators c.skeleton.joints.length k * 7 + d) 0 = 0 := by
      have := hv.pt.offs
      have h3 := newJoint_ge c.locators c.skeleton.joints.length k
      rw [List.getD_eq_getElem?_getD, List.getElem?_append_right (by omega)]
      cases hx : ((c.locators.filter fun l => !l.allLocked).flatMap fun _ => List.replicate 7 (0 : ℝ))[
        newJoint c.locators c.skeleton.joints.length k * 7 + d - c.parameterTransform.offsets.length]? with
      | none => rfl
      | some x =>
        have := List.mem_of_getElem? hx
        rw [List.mem_flatMap] at this
        obtain ⟨_, _, h4⟩ := this
        exact List.eq_of_mem_replicate h4
    rw [h0, add_zero]

theorem Created.fits_character (hc : Created c pre c') (hv : c.Valid) {p : List ℝ} (hp : p.length = c'.parameterTransform.transform.cols) :
    ∃ jp jp', c'.parameterTransform.applyCharacter ⟨p, []⟩ = some jp' ∧ Fits c c' p jp jp' := by
  have hcol : c.parameterTransform.transform.cols ≤ p.length := by
    rw [hp, hc.cols, hc.name_length, hv.pt.names]; omega
  have hr := hv.rows
  have hr' := hc.rows
  have hlen := hc.length
  refine ⟨c.parameterTransform.transform.mulVec (p.take c.parameterTransform.transform.cols),
    c'.parameterTransform.transform.mulVec p, ?_, ?_, ?_, fun r h => ?_, fun k l hk hl d hd => ?_⟩
  · unfold ParameterTransform.applyCharacter
    rw [if_pos hp]
    rfl
  · rw [mulVec_length]; omega
  · rw [mulVec_length]; omega
  · rw [mulVec_getElem _ _ _ (by omega), mulVec_getElem _ _ _ (by omega), hc.rowSum_old hv h]
  · have h1 := hc.new_lt hk hl
    rw [List.getD_eq_getElem?_getD, mulVec_getElem _ _ _ (by omega), Option.getD_some, hc.rowSum_new hv hk hl hd]

/-- The pose of the new character. -/
theorem Created.state (hc : Created c pre c') (hv : c.Valid) {p jp jp' : List ℝ} (hf : Fits c c' p jp jp') :
    ∃ st st', skeletonState c.skeleton jp false = some st ∧ skeletonState c'.skeleton jp' false = some st' ∧
      FKGood c'.skeleton jp' false st' ∧
      st.length = c.skeleton.joints.length ∧ st'.length = c'.skeleton.joints.length ∧
      (∀ i < c.skeleton.joints.length, st[i]? = st'[i]?) ∧
      ∀ (k : Nat) (l : Locator ℝ), c.locators[k]? = some l → l.allLocked = false → ∃ sp sn, st[l.parent]? = some sp ∧
        st'[newJoint c.locators c.skeleton.joints.length k]? = some sn ∧
        sn.transform.translation = sp.transform.transformPoint (l.offset + locatorShift c.locators c.parameterTransform.transform.cols p k) := by
  have hv' := hc.skeleton_valid hv
  obtain ⟨st, e1, g1, l1⟩ := skeletonState_good hv.skel false hf.len
  obtain ⟨st', e2, g2, l2⟩ := skeletonState_good hv' false hf.len'
  have hlen := hc.length
  have htake : (⟨c'.skeleton.joints.take c.skeleton.joints.length⟩ : Skeleton ℝ) = c.skeleton := by
    rw [hc.joints, List.take_left']
    rfl
  have hpre : ∀ i < c.skeleton.joints.length, st[i]? = st'[i]? := by
    refine state_prefix (n := c.skeleton.joints.length) (jq := jp) hv' (by omega) g2 l2 (by rw [htake]; exact g1) l1 fun j hj => ?_
    funext d
    unfold jointSlice
    rw [List.getD_eq_getElem?_getD, List.getD_eq_getElem?_getD, hf.old _ (by have := d.isLt; omega)]
  refine ⟨st, st', e1, e2, g2, l1, l2, hpre, fun k l hk hl => ?_⟩
  have hpar := hv.locs l (List.mem_of_getElem? hk)
  have hid := hc.new_lt hk hl
  have hsp : st[l.parent]? = some (st[l.parent]'(by omega)) := List.getElem?_eq_getElem _
  have hsn : st'[newJoint c.locators c.skeleton.joints.length k]? =
      some (st'[newJoint c.locators c.skeleton.joints.length k]'(by omega)) := List.getElem?_eq_getElem _
  refine ⟨_, _, hsp, hsn, ?_⟩
  have hw := g2.eq _ _ _ (hc.new hk hl) hsn
  have hpb : (some l.parent).bind (st'[·]?) = some (st[l.parent]'(by omega)) := by
    show st'[l.parent]? = _
    rw [← hpre _ hpar, hsp]
  rw [hw]
  dsimp only
  rw [hpb]
  have hnew : ∀ d : Fin 7, jointSlice jp' (newJoint c.locators c.skeleton.joints.length k) d =
      if h : d.val < 3 then axisShift c.locators c.parameterTransform.transform.cols p k ⟨d.val, h⟩ else 0 := by
    intro d
    have := hf.new k l hk hl d.val d.isLt
    rw [← this]
    unfold jointSlice
    rw [Nat.mul_comm]
  have h0 := hnew 0
  have h1 := hnew 1
  have h2 := hnew 2
  simp only [JointState.set, Transform.mul_translation, Transform.transformPoint, h0, h1, h2]
  rfl

end

end Momentum
