import Verif.Props.TrackerUtils

/-!
# C75: examples
-/

namespace Momentum

/-- A locator that may be moved along x, and should be at x = 5. -/
def exMovable : Locator ℝ := ⟨"hand", 0, ⟨1, 2, 3⟩, ⟨0, 1, 1⟩, 1, ⟨5, 0, 0⟩, ⟨2, 0, 0⟩⟩

/-- A locator that may not be moved. -/
def exFixed : Locator ℝ := ⟨"head", 0, ⟨4, 0, 0⟩, ⟨1, 1, 1⟩, 1, ⟨0, 0, 0⟩, ⟨0, 0, 0⟩⟩

/-- A joint with a parameter that moves it and one that scales it, and two locators. -/
noncomputable def exMarked : Character ℝ :=
  ⟨⟨[⟨"root", none, ⟨1, 0, 0, 0⟩, ⟨0, 0, 0⟩⟩]⟩,
    ⟨["root_tx", "scale_global"], ⟨7, 2, [⟨0, 0, 1⟩, ⟨6, 1, 1⟩]⟩, List.replicate 7 0, List.replicate 7 true, [], [], [], []⟩, [],
    [exFixed, exMovable], none, none, none, [Affine.one]⟩

theorem exMarked_valid : exMarked.Valid where
  skel := by
    intro i jt p h hp
    match i with
    | 0 => simp [exMarked] at h; subst h; simp at hp
    | i + 1 => simp [exMarked] at h
  rows := by simp [exMarked]
  pt := ⟨rfl, by simp [exMarked, kMaxModelParams], by simp [exMarked], by
    intro e he
    simp [exMarked] at he ⊢
    rcases he with rfl | rfl <;> simp, by simp [exMarked], by simp [exMarked], by simp [exMarked], by simp [exMarked]⟩
  locs := by simp [exMarked, exFixed, exMovable]
  caps := by simp [exMarked]
  lims := by simp [exMarked]
  skin := by simp [exMarked]

theorem exMarked_axes : freeAxes exMarked.locators = [(1, 0)] := by
  simp [freeAxes, exMarked, Locator.axes, exFixed, exMovable, Vec3.coord]

theorem exMarked_created : ∃ c', createLocatorCharacter exMarked "m_" = some c' :=
  C75_defined "m_" exMarked_valid (by rw [exMarked_axes]; simp [exMarked, kMaxModelParams])

theorem exMarked_unit : ∀ jt ∈ exMarked.skeleton.joints, jt.preRotation.normSq = 1 := by
  simp [exMarked, Quat.normSq]

/-- The hand is moved by the third parameter, along x only; the head is not moved. -/
example (a b d : ℝ) : ∃ c', createLocatorCharacter exMarked "m_" = some c' ∧
    extractLocatorsFromCharacter c' ⟨[a, b, d], []⟩ = some [exFixed, { exMovable with offset := ⟨1 + d, 2, 3⟩ }] ∧
    c'.parameterTransform.name[2]? = some "m_hand_tx" := by
  obtain ⟨c', h⟩ := exMarked_created
  obtain ⟨h1, -, h3, -⟩ := C75_parameters exMarked_valid h
  rw [exMarked_axes] at h1 h3
  have hcol : exMarked.parameterTransform.transform.cols = 2 := rfl
  refine ⟨c', h, ?_, ?_⟩
  · rw [C75_extracted exMarked_valid exMarked_unit h [a, b, d] (by rw [h1, hcol]; rfl)]
    unfold movedLocators locatorShift axisShift
    rw [exMarked_axes, hcol]
    have h00 : ((0 : Fin 3) = 1) = False := by simp
    simp [exMarked, exFixed, exMovable, Vec3.ext_iff, List.mapIdx_cons]
  · obtain ⟨l, h4, -, h5⟩ := h3 0 1 0 rfl
    have : l = exMovable := by simpa [exMarked] using h4.symm
    subst this
    rw [hcol] at h5
    rw [h5]
    rfl

/-- Its limit asks for x = 5. -/
example (a b d : ℝ) : ∃ c' jp v joint, createLocatorCharacter exMarked "m_" = some c' ∧
    c'.parameterTransform.apply [a, b, d] = some jp ∧ (⟨.minMaxJoint joint 0 4 4, 2⟩ : ParameterLimit ℝ) ∈ c'.parameterLimits ∧
      jp[joint * 7]? = some v ∧ v - 4 = 1 + d - 5 := by
  obtain ⟨c', h⟩ := exMarked_created
  have h1 := (C75_parameters exMarked_valid h).1
  rw [exMarked_axes] at h1
  have hcol : exMarked.parameterTransform.transform.cols = 2 := rfl
  obtain ⟨jp, h2, joint, h3, h4⟩ := C75_limits exMarked_valid h [a, b, d] (by rw [h1, hcol]; rfl)
  obtain ⟨v, h5, h6⟩ := h4 1 exMovable { exMovable with offset := ⟨1 + d, 2, 3⟩ } 0 rfl rfl (by
    unfold movedLocators locatorShift axisShift
    rw [exMarked_axes, hcol]
    simp [exMarked, exFixed, exMovable, Vec3.ext_iff, List.mapIdx_cons])
  refine ⟨c', jp, v, joint 1, h, h2, ?_, h5, ?_⟩
  · rw [h3]
    right
    refine ⟨1, exMovable, 0, rfl, rfl, ?_, ?_⟩
    · simp [exMovable, Vec3.coord]
    · simp [exMovable, Vec3.coord]
      norm_num
  · have h7 : exMovable.limitOrigin.coord 0 - exMovable.offset.coord 0 = 4 := by simp [exMovable, Vec3.coord]; norm_num
    rw [h7] at h6
    rw [h6]
    rfl

/-- Two markers, one of which is hidden. -/
example : createConstraintData [[⟨"hand", ⟨7, 8, 9⟩, false⟩, ⟨"head", ⟨0, 0, 0⟩, true⟩, ⟨"foot", ⟨0, 0, 0⟩, false⟩]]
    [exFixed, exMovable] = [[⟨⟨1, 2, 3⟩, ⟨7, 8, 9⟩, 0, 1⟩]] := by
  rw [C75_constraints]
  simp [expectedConstraint, exFixed, exMovable]

/-- The markers of two frames are met. -/
example : ∃ data, extractMarkersFromMotion exMarked [[0, 0, 0, 0, 0, 0, 0], [1, 2, 3, 0, 0, 0, 0]] = some data ∧ data.length = 2 := by
  obtain ⟨data, h1, h2, -⟩ := C75_markers_met exMarked_valid (by simp [exMarked, exFixed, exMovable])
    [[0, 0, 0, 0, 0, 0, 0], [1, 2, 3, 0, 0, 0, 0]] (by simp [exMarked])
  exact ⟨data, h1, h2⟩

/-- The locators can only be read back from a character whose movable locators have joints of their own: for a movable locator
on the root, the parent of the root is looked up, which does not exist. -/
theorem C75_extract_root_wrong (p : List ℝ) : exMarked.Valid ∧ extractLocatorsFromCharacter exMarked ⟨p, []⟩ = none := by
  refine ⟨exMarked_valid, ?_⟩
  unfold extractLocatorsFromCharacter
  cases h1 : exMarked.parameterTransform.applyCharacter ⟨p, []⟩ with
  | none => rfl
  | some jp =>
    simp only [Option.bind_eq_bind, Option.bind_some]
    cases h2 : skeletonState exMarked.skeleton jp false with
    | none => rfl
    | some st =>
      obtain ⟨-, hl, -⟩ := skeletonState_some exMarked_valid.skel h2
      simp only [Option.bind_some]
      have hl : st.length = 1 := hl
      match st, hl with
      | [s], _ =>
        simp [exMarked, extractLocator, exFixed, exMovable, Locator.allLocked, worldAffines]

end Momentum
