import Verif.Props.LocatorText
import Mathlib.Tactic.FinCases

/-!
# Concrete cases for C86
-/

namespace Momentum.LocatorText

/-- Prints 0 and 1. -/
noncomputable def exDigits : NumFormat where
  print := fun x => if x = 0 then ['0'] else ['1']
  read := fun s => if s = ['0', ','] then some 0 else if s = ['1', ','] then some 1 else none

theorem exDigits_zero : Faithful exDigits 0 := by
  constructor
  · have : exDigits.print 0 = ['0'] := by simp [exDigits]
    rw [this]; decide
  · simp [exDigits]

theorem exDigits_one : Faithful exDigits 1 := by
  constructor
  · have : exDigits.print 1 = ['1'] := by simp [exDigits]
    rw [this]; decide
  · simp [exDigits]

/-- Two joints, the second with a namespace in its name. -/
def exNamed : Skeleton ℝ := ⟨[⟨"root", none, Quat.one, 0⟩, ⟨"rig:arm", some 0, Quat.one, 0⟩]⟩

/-- Two locators on the root and one on the arm. -/
noncomputable def exFirst : Locator ℝ := ⟨"a", 0, ⟨1, 0, 0⟩, ⟨1, 0, 1⟩, 1, ⟨0, 0, 0⟩, ⟨0, 1, 0⟩⟩

/-- Another one on the root. -/
noncomputable def exSecond : Locator ℝ := ⟨"b", 0, ⟨0, 1, 1⟩, ⟨0, 0, 0⟩, 0, ⟨0, 1, 1⟩, ⟨0, 0, 0⟩⟩

/-- One on the arm. -/
noncomputable def exThird : Locator ℝ := ⟨"c", 1, ⟨0, 0, 0⟩, ⟨0, 0, 0⟩, 1, ⟨0, 0, 0⟩, ⟨0, 0, 0⟩⟩

/-- One on the root with a colon in its name. -/
noncomputable def exColon (n : String) : Locator ℝ := ⟨n, 0, ⟨0, 0, 0⟩, ⟨0, 0, 0⟩, 1, ⟨0, 0, 0⟩, ⟨0, 0, 0⟩⟩

/-- A parameter transform without parameters. -/
def exFourteen : ParameterTransform ℝ := ⟨[], ⟨14, 0, []⟩, [], [], [], [], [], []⟩

theorem exNamed_valid : exNamed.Valid := by
  intro i jt p h hp
  match i with
  | 0 => simp [exNamed] at h; subst h; simp at hp
  | 1 => simp [exNamed] at h; subst h; simp at hp; omega
  | n + 2 => simp [exNamed] at h

theorem exNamed_unit : ∀ jt ∈ exNamed.joints, jt.preRotation.normSq = 1 := by
  intro jt h
  simp only [exNamed, List.mem_cons, List.not_mem_nil, or_false] at h
  rcases h with rfl | rfl <;> simp [Quat.one, Quat.normSq]

theorem exNamed_differ : NamesDiffer exNamed := by unfold NamesDiffer exNamed; simp

theorem exFirst_writable : Writable exDigits exNamed exFirst ∧ PositionWritable exDigits exNamed .localSpace exFirst :=
  ⟨⟨⟨_, rfl, by unfold OnLine; decide⟩, by unfold OnLine; decide, by unfold IsInt32; decide, exDigits_one,
    exDigits_zero, exDigits_one, exDigits_zero⟩, exDigits_one, exDigits_zero, exDigits_zero⟩

theorem exSecond_writable : Writable exDigits exNamed exSecond ∧ PositionWritable exDigits exNamed .localSpace exSecond :=
  ⟨⟨⟨_, rfl, by unfold OnLine; decide⟩, by unfold OnLine; decide, by unfold IsInt32; decide, exDigits_zero,
    exDigits_zero, exDigits_zero, exDigits_zero⟩, exDigits_zero, exDigits_one, exDigits_one⟩

theorem exThird_writable : Writable exDigits exNamed exThird ∧ PositionWritable exDigits exNamed .localSpace exThird :=
  ⟨⟨⟨_, rfl, by unfold OnLine; decide⟩, by unfold OnLine; decide, by unfold IsInt32; decide, exDigits_one,
    exDigits_zero, exDigits_zero, exDigits_zero⟩, exDigits_zero, exDigits_zero, exDigits_zero⟩

theorem exColon_writable {n : String} (hn : OnLine n.toList) :
    Writable exDigits exNamed (exColon n) ∧ PositionWritable exDigits exNamed .localSpace (exColon n) :=
  ⟨⟨⟨_, rfl, by unfold OnLine; decide⟩, hn, by simp [IsInt32, exColon], exDigits_one,
    exDigits_zero, exDigits_zero, exDigits_zero⟩, exDigits_zero, exDigits_zero, exDigits_zero⟩

/-- `C86_round_trip_partial`: two locators on the root; the origin of the first one's limit is lost. -/
example : ∃ text, saveLocators exDigits exNamed .localSpace [exFirst, exSecond] = .ok text ∧
    loadLocators exDigits exNamed exFourteen text = .ok [{ exFirst with limitOrigin := ⟨1, 0, 0⟩ }, exSecond] :=
  C86_round_trip_partial exNamed_valid exNamed_unit exNamed_differ (pt := exFourteen) rfl .localSpace [exFirst, exSecond]
    (by
      intro l hl
      simp only [List.mem_cons, List.not_mem_nil, or_false] at hl
      rcases hl with rfl | rfl
      · exact exFirst_writable
      · exact exSecond_writable)
    (by simp [exFirst, exSecond])
    (by
      intro l hl
      simp only [List.mem_cons, List.not_mem_nil, or_false] at hl
      rcases hl with rfl | rfl <;> exact ⟨by decide, by decide⟩)

/-- `C86_stable`. -/
example : ∃ text, saveLocators exDigits exNamed .localSpace [exSecond] = .ok text ∧
    loadLocators exDigits exNamed exFourteen text = .ok [exSecond] :=
  C86_stable exNamed_valid exNamed_unit exNamed_differ (pt := exFourteen) rfl .localSpace [exSecond]
    (by
      intro l hl
      simp only [List.mem_cons, List.not_mem_nil, or_false] at hl
      subst hl
      exact exSecond_writable)
    (by simp) (by
      intro l hl
      simp only [List.mem_cons, List.not_mem_nil, or_false] at hl
      subst hl
      exact ⟨by decide, by decide⟩)
    (by simp [exSecond])

/-- **C86** (counterexample) A locator on a joint with a colon in its name does not come back. -/
theorem C86_namespace_counterexample : ∃ text, saveLocators exDigits exNamed .localSpace [exSecond, exThird] = .ok text ∧
    loadLocators exDigits exNamed exFourteen text = .ok [exSecond] := by
  obtain ⟨text, h1, h2⟩ := C86_colons exNamed_valid exNamed_unit exNamed_differ (pt := exFourteen) rfl .localSpace [exSecond, exThird]
    (by
      intro l hl
      simp only [List.mem_cons, List.not_mem_nil, or_false] at hl
      rcases hl with rfl | rfl
      · exact exSecond_writable
      · exact exThird_writable)
    (by simp [exSecond, exThird])
  have h3 : [exSecond, exThird].filterMap (afterReload exNamed) = [exSecond] := by
    have e1 : ':' ∉ parentName exNamed exSecond := by decide
    have e2 : ':' ∈ parentName exNamed exThird := by decide
    have e3 : ':' ∉ exSecond.name.toList := by decide
    simp only [List.filterMap_cons, afterReload, e1, e2, e3, if_true, if_false, List.filterMap_nil]
    rfl
  rw [h3] at h2
  refine ⟨text, h1, ?_⟩
  rcases h2 with ⟨-, h⟩ | ⟨h, -⟩
  · exact h
  · exact absurd (by simp) h

/-- **C86** (counterexample) A file with two locators that have colons in their names is written, and then rejected as having a duplicate. -/
theorem C86_rejected_counterexample : ∃ text, saveLocators exDigits exNamed .localSpace [exColon "x:a", exColon "x:b"] = .ok text ∧
    loadLocators exDigits exNamed exFourteen text = .throws := by
  obtain ⟨text, h1, h2⟩ := C86_colons exNamed_valid exNamed_unit exNamed_differ (pt := exFourteen) rfl .localSpace
    [exColon "x:a", exColon "x:b"]
    (by
      intro l hl
      simp only [List.mem_cons, List.not_mem_nil, or_false] at hl
      rcases hl with rfl | rfl
      · exact exColon_writable (by unfold OnLine; decide)
      · exact exColon_writable (by unfold OnLine; decide))
    (by simp [exColon])
  have h3 : ([exColon "x:a", exColon "x:b"].filterMap (afterReload exNamed)).map (·.name) = ["uninitialized", "uninitialized"] := by
    have e1 : ':' ∉ parentName exNamed (exColon "x:a") := by decide
    have e2 : ':' ∉ parentName exNamed (exColon "x:b") := by decide
    have e3 : ':' ∈ (exColon "x:a").name.toList := by decide
    have e4 : ':' ∈ (exColon "x:b").name.toList := by decide
    simp only [List.filterMap_cons, afterReload, e1, e2, e3, e4, if_true, if_false, List.filterMap_nil, List.map_cons, List.map_nil]
  rw [h3] at h2
  refine ⟨text, h1, ?_⟩
  rcases h2 with ⟨h, -⟩ | ⟨-, h⟩
  · exact absurd h (by simp)
  · exact h

/-- The rest pose of the example leaves points where they are. -/
theorem exNamed_rest (l : Locator ℝ) (h0 : l.parent = 0) (hf : FaithfulVec exDigits l.offset) :
    PositionWritable exDigits exNamed .global l := by
  intro st t hst ht
  have hw : (worldAffines st)[0]? = some Affine.one := by
    simp [skeletonState, exNamed, skeletonStep, List.foldlM, jointSlice] at hst
    subst hst
    have hs : jointSlice [0, 0, 0, 0, 0, 0, 0, 0, 0, 0, 0, 0, 0, 0] 0 = fun _ => 0 := by
      funext k
      fin_cases k <;> simp [jointSlice]
    rw [hs]
    simp [worldAffines, JointState.set, rotationStep, Quat.angleAxis, Transform.toAffine3, Transform.toLinear, Transform.toRotationMatrix,
      Affine.one, Transform.one, Quat.one, Quat.toMat, Mat3.smul, Mat3.one]
    ext <;> simp [Quat.rotate, Quat.toMat, Mat3.mulVec, Quat.vec, Vec3.cross]
  rw [h0, hw] at ht
  cases ht
  have : Affine.one.apply l.offset = l.offset := by
    ext <;> simp [Affine.apply, Affine.one, Mat3.one, Mat3.mulVec]
  rw [this]
  exact hf

/-- `C86_round_trip_partial` in world space. -/
example : ∃ text, saveLocators exDigits exNamed .global [exFirst] = .ok text ∧
    loadLocators exDigits exNamed exFourteen text = .ok [{ exFirst with limitOrigin := ⟨1, 0, 0⟩ }] :=
  C86_round_trip_partial exNamed_valid exNamed_unit exNamed_differ (pt := exFourteen) rfl .global [exFirst]
    (by
      intro l hl
      simp only [List.mem_cons, List.not_mem_nil, or_false] at hl
      subst hl
      exact ⟨exFirst_writable.1, exNamed_rest _ rfl exFirst_writable.2⟩)
    (by simp)
    (by
      intro l hl
      simp only [List.mem_cons, List.not_mem_nil, or_false] at hl
      subst hl
      exact ⟨by decide, by decide⟩)

/-- `C86_unnamed_counterexample`: an instance. -/
example := C86_unnamed_counterexample exNamed_valid exNamed_unit exNamed_differ (pt := exFourteen) rfl .localSpace exFirst exFirst_writable
  ⟨by decide, by decide⟩

/-- `C86_joint_unchecked_counterexample`: the skeleton has two joints. -/
example : ∃ l, loadLocators exDigits exNamed exFourteen numberedText = .ok [l] ∧ l.parent = 7 :=
  C86_joint_unchecked_counterexample exNamed_valid rfl

/-- `C86_names_differ_partial` and `C86_limit_origin`: the loaded file of the first example meets their hypothesis. -/
example {text : List Char} (h : loadLocators exDigits exNamed exFourteen text = .ok [exSecond]) :
    ([exSecond].map (·.name)).Nodup ∧ exSecond.limitOrigin = exSecond.offset :=
  ⟨C86_names_differ_partial h (by simp [exSecond]), C86_limit_origin h _ (by simp)⟩

end Momentum.LocatorText
