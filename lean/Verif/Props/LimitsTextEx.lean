import Verif.Props.LimitsText

/-! Concrete cases of C84. -/

namespace Momentum.LimitsText

/-- A format for the numbers -1, 0, 1 and 2. -/
noncomputable def exFormat : NumFormat where
  print x := if x = 1 then ['1'] else if x = -1 then ['-', '1'] else if x = 2 then ['2', '.'] else ['0']
  read s := if s = ['1'] then some 1 else if s = ['-', '1'] then some (-1) else if s = ['2', '.'] then some 2
    else if s = ['0'] then some 0 else none

theorem exFormat_one : exFormat.Faithful 1 := by
  refine ⟨⟨'1', [], by simp [exFormat], by decide, by simp⟩, by simp [exFormat]⟩

theorem exFormat_neg : exFormat.Faithful (-1) := by
  refine ⟨⟨'-', ['1'], by norm_num [exFormat], by decide, by decide⟩, by norm_num [exFormat]⟩

theorem exFormat_two : exFormat.Faithful 2 := by
  refine ⟨⟨'2', ['.'], by norm_num [exFormat], by decide, by decide⟩, by norm_num [exFormat]; decide⟩

theorem exFormat_zero : exFormat.Faithful 0 := by
  refine ⟨⟨'0', [], by norm_num [exFormat], by decide, by simp⟩, by norm_num [exFormat]; decide⟩

def exTextSkeleton : Skeleton ℝ := ⟨[⟨"hips", none, Quat.one, ⟨0, 0, 0⟩⟩, ⟨"l_arm", some 0, Quat.one, ⟨0, 1, 0⟩⟩]⟩

def exTextTransform : ParameterTransform ℝ where
  name := ["root_tx", "arm_rx", "blend.one"]
  transform := ⟨14, 3, []⟩
  offsets := []
  activeJointParams := []
  parameterSets := []
  poseConstraints := []
  blendShapeParameters := []
  faceExpressionParameters := []

theorem exName (s : String) (c : Char) (r : List Char) (h : s.toList = c :: r) (hc : c.isAlpha = true ∨ c = '_')
    (hr : ∀ x ∈ r, x.isAlphanum = true ∨ x = '_' ∨ x = '.') : IsName s.toList := ⟨c, r, h, hc, hr⟩

theorem exNames0 : NamesParameter exTextTransform 0 :=
  ⟨"root_tx", rfl, ⟨'r', "oot_tx".toList, by decide, by decide, by decide⟩, by omega⟩

theorem exNames1 : NamesParameter exTextTransform 1 := by
  refine ⟨"arm_rx", rfl, ⟨'a', "rm_rx".toList, by decide, by decide, by decide⟩, ?_⟩
  intro k hk
  have : k = 0 := by omega
  subst this
  simp [exTextTransform]

theorem exNames2 : NamesParameter exTextTransform 2 := by
  refine ⟨"blend.one", rfl, ⟨'b', "lend.one".toList, by decide, by decide, by decide⟩, ?_⟩
  intro k hk
  have : k = 0 ∨ k = 1 := by omega
  rcases this with rfl | rfl <;> simp [exTextTransform]

theorem exJoint1 : NamesJoint exTextSkeleton 1 := by
  refine ⟨_, rfl, ⟨'l', "_arm".toList, by decide, by decide, by decide⟩, ?_⟩
  intro k hk j hj
  have : k = 0 := by omega
  subst this
  simp only [exTextSkeleton, List.getElem?_cons_zero, Option.some.injEq] at hj
  subst hj
  decide

theorem exJoint0 : NamesJoint exTextSkeleton 0 :=
  ⟨_, rfl, ⟨'h', "ips".toList, by decide, by decide, by decide⟩, by omega⟩

/-- An ellipsoid without rotation. -/
noncomputable def exTextEllipsoid : EllipsoidLimit where
  ellipsoid := ⟨⟨2, 0, 0, 0, 1, 0, 0, 0, 1⟩, ⟨0, 1, 0⟩⟩
  ellipsoidInv := Affine.inverse ⟨⟨2, 0, 0, 0, 1, 0, 0, 0, 1⟩, ⟨0, 1, 0⟩⟩
  offset := ⟨1, 0, -1⟩
  ellipsoidParent := 0
  parent := 1
  weight := 2

/-- A list with limits of every kind, two pieces of a linear limit among them. -/
noncomputable def exTextLimits : List LimitRecord :=
  [.plain ⟨.minMax 0 (-1) 1, 1⟩,
   .plain ⟨.linear 0 1 1 0 (-kFloatMax) 0, 2⟩,
   .plain ⟨.linear 0 1 2 0 0 kFloatMax, 2⟩,
   .plain ⟨.minMaxJoint 1 3 0 2, 2⟩,
   .plain ⟨.minMaxJointPassive 1 6 0 2, 1⟩,
   .plain ⟨.halfPlane 0 1 0 (-1) 2, 1⟩,
   .ellipsoid exTextEllipsoid]

/-- The decomposition of the example. -/
def exDecompose (_ : Mat3 ℝ) : Mat3 ℝ × Mat3 ℝ := (Mat3.one, ⟨2, 0, 0, 0, 1, 0, 0, 0, 1⟩)

theorem exAngles : anglesOf 0 Mat3.one = ⟨0, 0, 0⟩ := by
  simp [anglesOf, rotationMatrixToEulerXYZ, matToEulerZYXIntr, Mat3.one, Vec3.reverse, toDeg, atan2]
  exact Complex.arg_one

/-- The hypotheses of `C84_roundtrip_partial` hold for this list. -/
theorem exTextLimits_expressible : Expressible exFormat exDecompose 0 exTextSkeleton exTextTransform exTextLimits := by
  have f0 := exFormat_zero
  have f1 := exFormat_one
  have f2 := exFormat_two
  have fn := exFormat_neg
  have p0 : PlainParameter exTextTransform 0 := by
    intro n hn
    simp only [exTextTransform, List.getElem?_cons_zero, Option.some.injEq] at hn
    subst hn
    decide
  have j1 : PlainJoint exTextSkeleton 1 := by
    intro n hn
    simp only [exTextSkeleton, List.getElem?_cons_succ, List.getElem?_cons_zero, Option.some.injEq] at hn
    subst hn
    decide
  have hk : (0 : ℝ) ≠ kFloatMax := kFloatMax_pos.ne
  refine ⟨?_, ?_⟩
  · intro l hl
    simp only [exTextLimits, List.mem_cons, List.not_mem_nil, or_false] at hl
    rcases hl with rfl | rfl | rfl | rfl | rfl | rfl | rfl
    · exact ⟨exNames0, p0, fn, f1, Or.inl rfl⟩
    · exact ⟨exNames0, exNames1, f1, f0, Or.inr f0, f2⟩
    · exact ⟨exNames0, exNames1, f2, f0, Or.inl rfl, f2⟩
    · exact ⟨exJoint1, j1, by decide, f0, f2, Or.inr f2⟩
    · exact ⟨exJoint1, j1, by decide, f0, f2, Or.inl rfl⟩
    · exact ⟨exNames0, exNames1, by norm_num, f0, fn, f2, Or.inl rfl⟩
    · refine ⟨exJoint1, exJoint0, ?_, Or.inr f2, ?_, rfl⟩
      · simp only [exDecompose, exAngles, exTextEllipsoid]
        simp [f0, f1, f2, fn]
      · simp only [exDecompose, exAngles, exTextEllipsoid]
        simp [ellipsoidAffine, toRad, eulerXYZToRotationMatrix, eulerZYXToMatIntr, Vec3.reverse, Mat3.mul]
  · refine ⟨trivial, Or.inr ⟨rfl, by simp⟩, Or.inl ⟨1, 0, _, rfl, hk, by norm_num⟩, trivial, trivial, trivial, trivial, trivial⟩

/-- So it is written and read back. -/
example : ∃ text, writeParameterLimits exFormat exDecompose 0 exTextLimits exTextSkeleton exTextTransform = some text ∧
    parseParameterLimits exFormat text exTextSkeleton exTextTransform = some exTextLimits :=
  C84_roundtrip_partial _ _ _ _ _ _ exTextLimits_expressible

/-- The hypotheses of `C84_weight_counterexample`. -/
example : Expressible exFormat exDecompose 0 exTextSkeleton exTextTransform
    [.plain ⟨.linear 0 1 1 0 (-kFloatMax) 0, 2⟩, .plain ⟨.linear 0 1 2 0 0 kFloatMax, 2⟩] := by
  refine ⟨fun l hl => exTextLimits_expressible.1 l ?_, Or.inr ⟨rfl, by simp⟩,
    Or.inl ⟨1, 0, _, rfl, kFloatMax_pos.ne, by norm_num⟩, trivial⟩
  simp only [List.mem_cons, List.not_mem_nil, or_false] at hl
  rcases hl with rfl | rfl <;> simp [exTextLimits]

/-- The hypotheses of `C84_start_counterexample` and of `C84_default_range`. -/
example (b : ℝ) (hb : b = 0 ∨ b = kFloatMax) :
    Expressible exFormat exDecompose 0 exTextSkeleton exTextTransform [.plain ⟨.linear 0 1 1 0 (-kFloatMax) b, 2⟩] := by
  refine ⟨fun l hl => ?_, Or.inr ⟨rfl, by simp⟩, trivial⟩
  simp only [List.mem_cons, List.not_mem_nil, or_false] at hl
  subst hl
  refine ⟨exNames0, exNames1, exFormat_one, exFormat_zero, ?_, exFormat_two⟩
  rcases hb with rfl | rfl
  · exact Or.inr exFormat_zero
  · exact Or.inl rfl

/-- A half plane with normal (2, 0) and offset 2 comes back with normal (1, 0) and offset 1. -/
example : ∃ text, writeParameterLimits exFormat exDecompose 0 [.plain ⟨.halfPlane 0 1 2 0 2, 1⟩] exTextSkeleton exTextTransform =
      some text ∧
    parseParameterLimits exFormat text exTextSkeleton exTextTransform = some [.plain ⟨.halfPlane 0 1 1 0 1, 1⟩] := by
  obtain ⟨text, t1, t2⟩ := C84_normal exFormat exTextSkeleton exTextTransform exDecompose 0 0 1 2 0 2 1 exNames0 exNames1 exFormat_two
    exFormat_zero exFormat_two (Or.inl rfl) (by norm_num)
  refine ⟨text, t1, ?_⟩
  have hs : Real.sqrt (2 ^ 2 + 0 ^ 2) = 2 := by
    rw [show (2 : ℝ) ^ 2 + 0 ^ 2 = 2 ^ 2 by norm_num, Real.sqrt_sq (by norm_num)]
  rw [t2, hs]
  norm_num

/-- A limit of the parameter "blend.one" is not read back. -/
example : ∃ text, writeParameterLimits exFormat exDecompose 0 [.plain ⟨.minMax 2 0 1, 1⟩] exTextSkeleton exTextTransform = some text ∧
    parseParameterLimits exFormat text exTextSkeleton exTextTransform ≠ some [.plain ⟨.minMax 2 0 1, 1⟩] := by
  refine C84_dotted_counterexample exFormat exTextSkeleton exTextTransform exDecompose 0 2 0 1 1 exNames2 ?_ exFormat_zero exFormat_one
    (Or.inl rfl)
  intro h
  exact absurd (h "blend.one" rfl) (by decide)

/-- The hypotheses of `C84_ellipsoid` for a turn about x and a scaling. -/
example : IsRotation (rotX 1) ∧ |eulerPivotXYZ (rotX 1) .extrinsic| < 1 - (0 : ℝ) := by
  refine ⟨isRotation_rotAxis 0 1, ?_⟩
  simp [eulerPivotXYZ, rotX]

end Momentum.LimitsText
