import Verif.Props.EllipsoidLimit
import Verif.Props.CollisionErrorEx

/-!
# C73: a concrete case, and what fails
-/

namespace Momentum
open Skeleton

/-- A root with two children, all at the origin; the first model parameter moves the first child along x, the second scales
the root, the third moves the root along x. -/
def exEll : ErrorBase where
  skeleton := ⟨[⟨"root", none, Quat.one, 0⟩, ⟨"a", some 0, Quat.one, 0⟩, ⟨"b", some 0, Quat.one, 0⟩]⟩
  transform := ⟨21, 3, [⟨7, 0, 1⟩, ⟨6, 1, 1⟩, ⟨0, 2, 1⟩]⟩
  weight := 1
  activeJointParams := (List.replicate 21 false).set 7 true |>.set 6 true |>.set 0 true
  enabledParameters := ParameterSet.all

def exEllTransform : ParameterTransform ℝ where
  name := ["tx", "scale", "root_tx"]
  transform := exEll.transform
  offsets := List.replicate 21 0
  activeJointParams := []
  parameterSets := []
  poseConstraints := []
  blendShapeParameters := []
  faceExpressionParameters := []

theorem exEll_coeff (r i : Nat) : exEllTransform.transform.coeff r i =
    if r = 7 ∧ i = 0 then 1 else if r = 6 ∧ i = 1 then 1 else if r = 0 ∧ i = 2 then 1 else 0 := by
  simp only [SparseMat.coeff, exEllTransform, exEll, List.filter_cons, List.filter_nil]
  by_cases h1 : r = 7 ∧ i = 0
  · obtain ⟨rfl, rfl⟩ := h1; simp
  · by_cases h2 : r = 6 ∧ i = 1
    · obtain ⟨rfl, rfl⟩ := h2; simp
    · by_cases h3 : r = 0 ∧ i = 2
      · obtain ⟨rfl, rfl⟩ := h3; simp
      · rw [if_neg h1, if_neg h2, if_neg h3]
        have a : ¬ (7 = r ∧ 0 = i) := fun h => h1 ⟨h.1.symm, h.2.symm⟩
        have b : ¬ (6 = r ∧ 1 = i) := fun h => h2 ⟨h.1.symm, h.2.symm⟩
        have c : ¬ (0 = r ∧ 2 = i) := fun h => h3 ⟨h.1.symm, h.2.symm⟩
        simp [a, b, c]

theorem exEll_fits : exEll.Fits exEllTransform where
  skeleton := by
    intro j jt q h h2
    rcases j with _ | _ | _ | j
    · cases h; cases h2
    · cases h; cases h2; omega
    · cases h; cases h2; omega
    · simp [exEll] at h
  unit := by
    intro jt h
    simp only [exEll, List.mem_cons, List.not_mem_nil, or_false] at h
    rcases h with rfl | rfl | rfl <;> simp [Quat.one, Quat.normSq]
  transform := rfl
  wf := by
    intro e h
    simp only [exEllTransform, exEll, List.mem_cons, List.not_mem_nil, or_false] at h
    rcases h with rfl | rfl | rfl <;> simp [exEllTransform, exEll]
  offs := by simp [exEllTransform, exEll]
  rows := by simp [exEllTransform, exEll]
  cols := by simp [exEllTransform, exEll, kMaxModelParams]
  activeLength := by simp [exEllTransform, exEll]
  active := by
    intro r i _ h
    rw [exEll_coeff] at h
    by_cases h1 : r = 7
    · subst h1; simp [exEll]
    · by_cases h2 : r = 6
      · subst h2; simp [exEll]
      · by_cases h3 : r = 0
        · subst h3; simp [exEll]
        · rw [if_neg (fun h => h1 h.1), if_neg (fun h => h2 h.1), if_neg (fun h => h3 h.1)] at h; exact absurd rfl h

theorem exEll_state (p : Nat → ℝ) : ∃ j0 j1 j2, exEll.stateFor exEllTransform (paramVec 3 p) true = some [j0, j1, j2] ∧
    j0.transform = ⟨Quat.one, ⟨p 2, 0, 0⟩, 2 ^ p 1⟩ ∧ j1.transform = ⟨Quat.one, ⟨p 2 + 2 ^ p 1 * p 0, 0, 0⟩, 2 ^ p 1⟩ ∧
    j2.transform = ⟨Quat.one, ⟨p 2, 0, 0⟩, 2 ^ p 1⟩ := by
  have ha : exEllTransform.apply (paramVec 3 p) =
      some [p 2, 0, 0, 0, 0, 0, p 1, p 0, 0, 0, 0, 0, 0, 0, 0, 0, 0, 0, 0, 0, 0] := by
    simp [ParameterTransform.apply, exEllTransform, exEll, SparseMat.mulVec, addVec, paramVec, List.range_succ]
  have h : ∃ j0 j1 j2, skeletonState exEll.skeleton
      [p 2, 0, 0, 0, 0, 0, p 1, p 0, 0, 0, 0, 0, 0, 0, 0, 0, 0, 0, 0, 0, 0] true = some [j0, j1, j2] ∧
      j0.transform = ⟨Quat.one, ⟨p 2, 0, 0⟩, 2 ^ p 1⟩ ∧ j1.transform = ⟨Quat.one, ⟨p 2 + 2 ^ p 1 * p 0, 0, 0⟩, 2 ^ p 1⟩ ∧
      j2.transform = ⟨Quat.one, ⟨p 2, 0, 0⟩, 2 ^ p 1⟩ := by
    refine ⟨_, _, _, by simp only [skeletonState, exEll]; rfl, ?_, ?_, ?_⟩
    · rw [set_unrotated _ _ _ _ _ _ (by rfl) (by rfl) (by rfl)]
      ext <;> simp [jointSlice, Transform.one, Quat.one, Quat.rotate, Quat.vec, Vec3.cross]
    · rw [set_unrotated _ _ _ _ _ _ (by rfl) (by rfl) (by rfl)]
      simp only
      rw [set_unrotated _ _ _ _ _ _ (by rfl) (by rfl) (by rfl)]
      ext <;> simp [jointSlice, Transform.one, Quat.one, Quat.rotate, Quat.vec, Vec3.cross]
    · rw [set_unrotated _ _ _ _ _ _ (by rfl) (by rfl) (by rfl)]
      simp only
      rw [set_unrotated _ _ _ _ _ _ (by rfl) (by rfl) (by rfl)]
      ext <;> simp [jointSlice, Transform.one, Quat.one, Quat.rotate, Quat.vec, Vec3.cross]
  obtain ⟨j0, j1, j2, h0, h1, h2, h3⟩ := h
  refine ⟨j0, j1, j2, ?_, h1, h2, h3⟩
  unfold ErrorBase.stateFor
  rw [ha, Option.bind_some, h0]

/-- The first child limited to an ellipsoid with half axes `r`, 1 and 1 around joint `e`. -/
noncomputable def exEllLimit (r : ℝ) (e : Nat) (off : Vec3 ℝ) : EllipsoidLimit :=
  ⟨⟨⟨r, 0, 0, 0, 1, 0, 0, 0, 1⟩, 0⟩, ⟨⟨1 / r, 0, 0, 0, 1, 0, 0, 0, 1⟩, 0⟩, off, e, 1, 1⟩

noncomputable def exEllLimits (r : ℝ) (e : Nat) (off : Vec3 ℝ) : EllipsoidLimits := { exEll with limits := [exEllLimit r e off] }

theorem exLimit_wellformed {r : ℝ} (hr : r ≠ 0) {e : Nat} (he : e < 3) (off : Vec3 ℝ) :
    (exEllLimit r e off).Wellformed exEll.skeleton where
  parent := by simp [exEllLimit, exEll]
  ellipsoidParent := by simpa [exEllLimit, exEll] using he
  inverse := by constructor <;> intro x <;> ext <;> simp [exEllLimit, Affine.apply, Mat3.mulVec] <;> field_simp

theorem exLimits_wellformed {r : ℝ} (hr : r ≠ 0) {e : Nat} (he : e < 3) (off : Vec3 ℝ) :
    ∀ c ∈ (exEllLimits r e off).limits, c.Wellformed (exEllLimits r e off).skeleton := by
  intro c hc
  simp only [exEllLimits, List.mem_cons, List.not_mem_nil, or_false] at hc
  subst hc; exact exLimit_wellformed hr he off

theorem exLimit_ball (e : Nat) (off : Vec3 ℝ) : (exEllLimit 1 e off).IsBall 1 := by
  refine ⟨one_pos, fun n hn => ?_⟩
  rw [one_pow]
  simpa [exEllLimit, Affine.apply, Mat3.mulVec, Vec3.sqNorm, Vec3.dot] using hn

/-- Where the point, the centre and the point relative to the unit sphere are. -/
theorem exLimit_state (r : ℝ) {e : Nat} (he : e = 0 ∨ e = 2) (off : Vec3 ℝ) (p : Nat → ℝ) :
    ∃ st, exEll.stateFor exEllTransform (paramVec 3 p) true = some st ∧
      (exEllLimit r e off).pointIn st = ⟨p 2 + 2 ^ p 1 * (p 0 + off.x), 2 ^ p 1 * off.y, 2 ^ p 1 * off.z⟩ ∧
      (exEllLimit r e off).centreIn st = ⟨p 2, 0, 0⟩ ∧
      (exEllLimit r e off).unitPoint st = ⟨(p 0 + off.x) / r, off.y, off.z⟩ ∧
      ∀ v : Vec3 ℝ, (worldOf st (some e)).transformPoint v = ⟨p 2 + 2 ^ p 1 * v.x, 2 ^ p 1 * v.y, 2 ^ p 1 * v.z⟩ := by
  obtain ⟨j0, j1, j2, h0, h1, h2, h3⟩ := exEll_state p
  have hpos : (0 : ℝ) < 2 ^ p 1 := Real.rpow_pos_of_pos two_pos _
  have hq : (Quat.one : Quat ℝ) = ⟨1, 0, 0, 0⟩ := rfl
  have hw : worldOf [j0, j1, j2] (some e) = ⟨Quat.one, ⟨p 2, 0, 0⟩, 2 ^ p 1⟩ := by
    rcases he with rfl | rfl
    · simp [worldOf, h1]
    · simp [worldOf, h3]
  have hP : (exEllLimit r e off).pointIn [j0, j1, j2] = ⟨p 2 + 2 ^ p 1 * (p 0 + off.x), 2 ^ p 1 * off.y, 2 ^ p 1 * off.z⟩ := by
    simp only [EllipsoidLimit.pointIn, exEllLimit, worldOf, List.getElem?_cons_succ, List.getElem?_cons_zero, h2, hq]
    ext <;> simp [Transform.transformPoint, Quat.rotate, Quat.vec, Vec3.cross] <;> ring
  have hT : ∀ v : Vec3 ℝ, (worldOf [j0, j1, j2] (some e)).transformPoint v =
      ⟨p 2 + 2 ^ p 1 * v.x, 2 ^ p 1 * v.y, 2 ^ p 1 * v.z⟩ := by
    intro v
    rw [hw, hq]
    ext <;> simp [Transform.transformPoint, Quat.rotate, Quat.vec, Vec3.cross]
  have hc : (exEllLimit r e off).centreIn [j0, j1, j2] = ⟨p 2, 0, 0⟩ := by
    have : (exEllLimit r e off).centreIn [j0, j1, j2] = (worldOf [j0, j1, j2] (some e)).transformPoint
      ((exEllLimit r e off).ellipsoid.apply 0) := rfl
    rw [this, hT]
    simp [exEllLimit, Affine.apply, Mat3.mulVec]
  refine ⟨_, h0, hP, hc, ?_, hT⟩
  have hinv : (worldOf [j0, j1, j2] (some e)).inverse.transformPoint ((exEllLimit r e off).pointIn [j0, j1, j2]) =
      ⟨p 0 + off.x, off.y, off.z⟩ := by
    have h4 : (exEllLimit r e off).pointIn [j0, j1, j2] =
        (worldOf [j0, j1, j2] (some e)).transformPoint ⟨p 0 + off.x, off.y, off.z⟩ := by rw [hP, hT]
    rw [h4, (C02_inverse _ (by rw [hw, hq]; simp [Quat.normSq]) (by rw [hw]; exact hpos.ne')).2.2.1]
  have : (exEllLimit r e off).unitPoint [j0, j1, j2] = (exEllLimit r e off).ellipsoidInv.apply
    ((worldOf [j0, j1, j2] (some e)).inverse.transformPoint ((exEllLimit r e off).pointIn [j0, j1, j2])) := rfl
  rw [this, hinv]
  ext <;> simp [exEllLimit, Affine.apply, Mat3.mulVec]
  ring

theorem exEll_root (a : Nat) : exEll.skeleton.Anc 0 a ↔ a = 0 := by
  have : exEll.skeleton.joints[0].parent = none := rfl
  exact anc_iff_root (by simp [exEll]) this

theorem exEll_child : exEll.skeleton.Anc 1 0 :=
  .single ⟨⟨"a", some 0, Quat.one, 0⟩, rfl, rfl⟩

/-- A parameter that moves nothing but the first child. -/
theorem exLimit_fixes (r : ℝ) (off : Vec3 ℝ) : (exEllLimit r 0 off).Fixes exEll.skeleton exEllTransform.transform 0 := by
  intro a ha k hk
  have := (exEll_root a).1 ha
  subst this
  rw [exEll_coeff]
  simp
  omega

/-- A parameter that moves both. -/
theorem exLimit_carries (r : ℝ) (off : Vec3 ℝ) : (exEllLimit r 0 off).Carries exEll.skeleton exEllTransform.transform 2 := by
  refine ⟨exEll_child, fun a ha => ?_⟩
  have := (exEll_root a).1 ha
  subst this
  rw [exEll_coeff]
  simp

theorem exEll_enabled {i : Nat} (h : i < 3) : exEll.enabledParameters.mem i = true := by
  have hi : i < kMaxModelParams := by unfold kMaxModelParams; omega
  simp [exEll, ParameterSet.all, ParameterSet.mem, hi]

/-- The hypotheses of `C73_error_zero_iff` hold, and there is a pose with error zero and one without. -/
example : (exEllLimits 2 0 0).Fits exEllTransform ∧ (∀ c ∈ (exEllLimits 2 0 0).limits, c.Wellformed (exEllLimits 2 0 0).skeleton) ∧
    0 < (exEllLimits 2 0 0).weight ∧ (∀ c ∈ (exEllLimits 2 0 0).limits, 0 < c.weight) ∧ 0 < exEllTransform.transform.cols ∧
    (∀ c ∈ (exEllLimits 2 0 0).limits, ∀ st, exEll.stateFor exEllTransform (paramVec 3 fun i => if i = 0 then 2 else 0) true = some st →
      c.surfaceIn st (c.pointIn st)) ∧
    ∀ c ∈ (exEllLimits 2 0 0).limits, ∀ st, exEll.stateFor exEllTransform (paramVec 3 fun i => if i = 0 then 3 else 0) true = some st →
      ¬(c.surfaceIn st (c.pointIn st) ∨ c.pointIn st = c.centreIn st) := by
  refine ⟨exEll_fits, exLimits_wellformed (by norm_num) (by norm_num) 0, by simp [exEllLimits, exEll],
    by simp [exEllLimits, exEllLimit], by simp [exEllTransform, exEll], ?_, ?_⟩
  · intro c hc st hst
    simp only [exEllLimits, List.mem_cons, List.not_mem_nil, or_false] at hc
    subst hc
    obtain ⟨st', h1, h2, h3, h4, h5⟩ := exLimit_state 2 (Or.inl rfl) 0 (fun i => if i = 0 then 2 else 0)
    rw [hst] at h1; cases h1
    rw [h2]
    refine ⟨⟨1, 0, 0⟩, by simp [Vec3.sqNorm, Vec3.dot], ?_⟩
    have := h5 ((exEllLimit 2 0 0).ellipsoid.apply ⟨1, 0, 0⟩)
    refine Eq.trans ?_ this.symm
    simp [exEllLimit, Affine.apply, Mat3.mulVec]
  · intro c hc st hst
    simp only [exEllLimits, List.mem_cons, List.not_mem_nil, or_false] at hc
    subst hc
    obtain ⟨st', h1, h2, h3, h4, h5⟩ := exLimit_state 2 (Or.inl rfl) 0 (fun i => if i = 0 then 3 else 0)
    rw [hst] at h1; cases h1
    rw [h2, h3]
    rintro (⟨n, hn, hq⟩ | h)
    · have hq := hq.trans (h5 ((exEllLimit 2 0 0).ellipsoid.apply n))
      simp [exEllLimit, Affine.apply, Mat3.mulVec] at hq
      obtain ⟨a, b, c⟩ := hq
      have hn : n.x * n.x + n.y * n.y + n.z * n.z = 1 := hn
      rw [← b, ← c] at hn
      nlinarith
    · simp at h

/-- The hypotheses of `C73_gradient_partial` hold for a parameter that moves the point alone and for one that moves both. -/
example : ∃ st, exEll.stateFor exEllTransform (paramVec 3 fun i => if i = 0 then 2 else 0) true = some st ∧
    (∀ c ∈ (exEllLimits 1 0 0).limits, c.Wellformed (exEllLimits 1 0 0).skeleton) ∧ (∀ c ∈ (exEllLimits 1 0 0).limits, ∃ r, c.IsBall r) ∧
    (∀ c ∈ (exEllLimits 1 0 0).limits, c.pointIn st ≠ c.centreIn st) ∧
    (∀ c ∈ (exEllLimits 1 0 0).limits, c.Fixes exEll.skeleton exEllTransform.transform 0) ∧
    (∀ c ∈ (exEllLimits 1 0 0).limits, c.Carries exEll.skeleton exEllTransform.transform 2) ∧ (exEllLimits 1 0 0).Weighted ∧
    exEll.enabledParameters.mem 0 = true ∧ exEll.enabledParameters.mem 2 = true := by
  obtain ⟨st', h1, h2, h3, h4, h5⟩ := exLimit_state 1 (Or.inl rfl) 0 (fun i => if i = 0 then 2 else 0)
  refine ⟨st', h1, exLimits_wellformed (by norm_num) (by norm_num) 0, ?_, ?_, ?_, ?_, ⟨?_, ?_⟩, exEll_enabled (by omega),
    exEll_enabled (by omega)⟩
  · intro c hc
    simp only [exEllLimits, List.mem_cons, List.not_mem_nil, or_false] at hc
    subst hc; exact ⟨1, exLimit_ball _ _⟩
  · intro c hc
    simp only [exEllLimits, List.mem_cons, List.not_mem_nil, or_false] at hc
    subst hc; rw [h2, h3]; simp
  · intro c hc
    simp only [exEllLimits, List.mem_cons, List.not_mem_nil, or_false] at hc
    subst hc; exact exLimit_fixes _ _
  · intro c hc
    simp only [exEllLimits, List.mem_cons, List.not_mem_nil, or_false] at hc
    subst hc; exact exLimit_carries _ _
  · simp [exEllLimits, exEll]
  · simp [exEllLimits, exEllLimit]

theorem until_unique {s : Skeleton ℝ} {stop o : Option Nat} {l : List Nat} (h : PathUntil s stop o l) :
    ∀ l', PathUntil s stop o l' → l = l' := by
  induction h with
  | root => intro l' h'; cases h' <;> rfl
  | stop =>
    intro l' h'
    cases h' with
    | root => rfl
    | stop => rfl
    | cons h _ _ => exact absurd rfl h
  | @cons j jt l hne hj _ ih =>
    intro l' h'
    cases h' with
    | stop => exact absurd rfl hne
    | cons h1 h2 h3 =>
      rw [hj] at h2; cases h2
      rw [ih _ h3]

/-- The error of the example. -/
theorem exLimits_total {r : ℝ} {e : Nat} (off : Vec3 ℝ) (st : List JointState) :
    (exEllLimits r e off).total st = ((exEllLimit r e off).diffIn st).sqNorm * (1 / 1000) := by
  simp [EllipsoidLimits.total, EllipsoidLimits.limitError, exEllLimits, exEllLimit, exEll, kEllipsoidWeight, kLimitWeight]
  ring

open EllipsoidLimits in
/-- If the gradient is right, the derivative of the error is what the walk says. -/
theorem exLimits_claim {r : ℝ} (hr : r ≠ 0) {e : Nat} (he : e < 3) (off : Vec3 ℝ) (p : Nat → ℝ) {i : Nat} (hi : i < 3)
    (h : ((exEllLimits r e off).toErrorFunction exEllTransform).GradientIsDerivative p i) :
    ∃ (θ : ℝ → List ℝ) (S : ℝ → List JointState), (∀ u, FKGood exEll.skeleton (θ u) true (S u)) ∧
      (∀ u, (S u).length = exEll.skeleton.joints.length) ∧
      (∀ r t, HasDerivAt (fun u => (θ u).getD r 0) (exEllTransform.transform.coeff r i) t) ∧
      (∀ u, exEll.stateFor exEllTransform (paramVec 3 (Function.update p i u)) true = some (S u)) ∧
      HasDerivAt (fun u => ((exEllLimit r e off).diffIn (S u)).sqNorm * (1 / 1000))
        (2 * (1 / 1000) * ((exEllLimit r e off).diffIn (S (p i))).dot (posVel (S (p i)) (walk exEll.skeleton (exEllLimit r e off))
          (fun r => exEllTransform.transform.coeff r i) ((exEllLimit r e off).pointIn (S (p i))))) (p i) := by
  have hF : (exEllLimits r e off).Fits exEllTransform := exEll_fits
  have hW := exLimits_wellformed hr he off
  obtain ⟨θ, S, hG, hlen, hθ, hs, herr⟩ := along hF hW p (i := i) hi
  refine ⟨θ, S, hG, hlen, hθ, hs, ?_⟩
  obtain ⟨g, g1, g2⟩ := getGradient_eq hF (hG (p i)) (hlen (p i)) hW (fun _ => 0)
  have hs0 := hs (p i)
  rw [Function.update_eq_self] at hs0
  have hgr : ((exEllLimits r e off).toErrorFunction exEllTransform).getGradient p = ((exEllLimits r e off).total (S (p i)), g) := by
    simp only [EllipsoidLimits.toErrorFunction, hs0, Option.bind_some, g1, Option.getD_some]
  have hd := h.2
  rw [funext herr, hgr] at hd
  simp only at hd
  rw [g2 i (exEll_enabled hi), zero_add] at hd
  simp only [exLimits_total] at hd
  refine hd.congr_deriv ?_
  simp [limitGrad, exEllLimits, exEllLimit, exEll, kEllipsoidWeight, kLimitWeight, -mul_eq_mul_left_iff, -mul_eq_mul_right_iff]
  ring

theorem exLimits_state {r : ℝ} {e : Nat} (he : e = 0 ∨ e = 2) (off : Vec3 ℝ) (p : Nat → ℝ) (st : List JointState)
    (h : exEll.stateFor exEllTransform (paramVec 3 p) true = some st) :
    (exEllLimit r e off).pointIn st = ⟨p 2 + 2 ^ p 1 * (p 0 + off.x), 2 ^ p 1 * off.y, 2 ^ p 1 * off.z⟩ ∧
      (exEllLimit r e off).diffIn st = (1 - ((⟨(p 0 + off.x) / r, off.y, off.z⟩ : Vec3 ℝ).norm)⁻¹) •
        (⟨2 ^ p 1 * (p 0 + off.x), 2 ^ p 1 * off.y, 2 ^ p 1 * off.z⟩ : Vec3 ℝ) := by
  obtain ⟨st', h1, h2, h3, h4, h5⟩ := exLimit_state r he off p
  rw [h] at h1; cases h1
  refine ⟨h2, ?_⟩
  unfold EllipsoidLimit.diffIn
  rw [h2, h3, h4]
  congr 1
  ext <;> simp

theorem norm_x {x : ℝ} (h : 0 ≤ x) : (⟨x, 0, 0⟩ : Vec3 ℝ).norm = x := by
  simp [Vec3.norm, Vec3.sqNorm, Vec3.dot, Real.sqrt_mul_self h]

open EllipsoidLimits in
/-- **C73**: the gradient is wrong when the ellipsoid is scaled: here the root scales the ball and the distance of the point
alike, the error grows with the square of the scale, and the gradient is zero. -/
theorem C73_scale_wrong : ¬((exEllLimits 1 0 0).toErrorFunction exEllTransform).GradientIsDerivative
    (fun i => if i = 0 then 2 else 0) 1 := by
  intro h
  obtain ⟨θ, S, hG, hlen, hθ, hs, hd⟩ := exLimits_claim one_ne_zero (by norm_num) 0 _ (by norm_num) h
  have hdiff : ∀ u, ((exEllLimit 1 0 0).diffIn (S u)) = ⟨2 ^ u, 0, 0⟩ := by
    intro u
    have := (exLimits_state (r := 1) (Or.inl rfl) 0 _ _ (hs u)).2
    rw [this]
    simp only [Function.update_self, Function.update_of_ne (show (0 : ℕ) ≠ 1 by norm_num), if_true, Vec3.zero_x, Vec3.zero_y,
      Vec3.zero_z, add_zero, div_one, mul_zero]
    rw [norm_x (by norm_num)]
    ext <;> simp
    ring
  have hwalk : walk exEll.skeleton (exEllLimit 1 0 0) = [1] :=
    until_unique (walk_spec exEll_fits.skeleton (by simp [exEllLimit, exEll])).1 _
      (.cons (by simp [exEllLimit]) (show exEll.skeleton.joints[1]? = some ⟨"a", some 0, Quat.one, 0⟩ from rfl) .stop)
  rw [hwalk, posVel_eq_zero _ _ _ [1] (by
    intro a ha k hk
    simp only [List.mem_singleton] at ha
    subst ha
    rw [exEll_coeff]
    simp
    omega)] at hd
  have h0 : ∀ v : Vec3 ℝ, v.dot 0 = 0 := fun v => by simp [Vec3.dot]
  rw [h0, mul_zero] at hd
  simp only [hdiff] at hd
  have h2 : HasDerivAt (fun u : ℝ => ((2 : ℝ) ^ u)) ((2 : ℝ) ^ (0 : ℝ) * Real.log 2) 0 :=
    (Real.hasStrictDerivAt_const_rpow two_pos 0).hasDerivAt
  have h3 := (h2.pow 2).mul_const (1 / 1000 : ℝ)
  have e : (fun u : ℝ => (⟨2 ^ u, 0, 0⟩ : Vec3 ℝ).sqNorm * (1 / 1000)) = fun u : ℝ => (((2 : ℝ) ^ u) ^ 2) * (1 / 1000) := by
    funext u; simp [Vec3.sqNorm, Vec3.dot]; ring
  rw [e] at hd
  have := hd.unique h3
  norm_num at this

open EllipsoidLimits in
/-- **C73**: the gradient is wrong when a parameter moves both the limited point and an ellipsoid that is on another branch:
here the root moves both alike, the error does not change, and the gradient is not zero. -/
theorem C73_other_branch_wrong : ¬((exEllLimits 1 2 0).toErrorFunction exEllTransform).GradientIsDerivative
    (fun i => if i = 0 then 2 else 0) 2 := by
  intro h
  obtain ⟨θ, S, hG, hlen, hθ, hs, hd⟩ := exLimits_claim one_ne_zero (by norm_num) 0 _ (by norm_num) h
  have hst := fun u => exLimits_state (r := 1) (e := 2) (Or.inr rfl) 0 _ _ (hs u)
  have hdiff : ∀ u, ((exEllLimit 1 2 0).diffIn (S u)) = ⟨1, 0, 0⟩ := by
    intro u
    rw [(hst u).2]
    simp only [Function.update_self, Function.update_of_ne (show (0 : ℕ) ≠ 2 by norm_num),
      Function.update_of_ne (show (1 : ℕ) ≠ 2 by norm_num), if_true, Vec3.zero_x, Vec3.zero_y,
      Vec3.zero_z, add_zero, div_one, mul_zero]
    rw [norm_x (by norm_num)]
    ext <;> simp
    ring
  have hpt : ∀ u, ((exEllLimit 1 2 0).pointIn (S u)) = ⟨u + 2, 0, 0⟩ := by
    intro u
    rw [(hst u).1]
    simp [Function.update_self, Function.update_of_ne (show (0 : ℕ) ≠ 2 by norm_num),
      Function.update_of_ne (show (1 : ℕ) ≠ 2 by norm_num)]
  have hwalk : walk exEll.skeleton (exEllLimit 1 2 0) = [1, 0] :=
    until_unique (walk_spec exEll_fits.skeleton (by simp [exEllLimit, exEll])).1 _
      (.cons (by simp [exEllLimit]) (show exEll.skeleton.joints[1]? = some ⟨"a", some 0, Quat.one, 0⟩ from rfl)
        (.cons (by simp [exEllLimit]) (show exEll.skeleton.joints[0]? = some ⟨"root", none, Quat.one, 0⟩ from rfl) .root))
  have hchain : Chain exEll.skeleton (some 1) [1, 0] :=
    .cons (show exEll.skeleton.joints[1]? = some ⟨"a", some 0, Quat.one, 0⟩ from rfl)
      (.cons (show exEll.skeleton.joints[0]? = some ⟨"root", none, Quat.one, 0⟩ from rfl) .nil)
  have hv := chain_vel exEll_fits.skeleton exEll_fits.unit hG hlen (fun r => hθ r 0) hchain 0
  have hv' : HasVecDerivAt (fun u => (exEllLimit 1 2 0).pointIn (S u)) (posVel (S 0) [1, 0]
      (fun r => exEllTransform.transform.coeff r 2) ((exEllLimit 1 2 0).pointIn (S 0))) 0 := hv
  have hx : HasVecDerivAt (fun u => (exEllLimit 1 2 0).pointIn (S u)) ⟨1, 0, 0⟩ 0 := by
    simp only [hpt]
    exact ⟨(hasDerivAt_id _).add_const _, hasDerivAt_const _ _, hasDerivAt_const _ _⟩
  have hvel := hv'.unique hx
  have hp0 : (if (2 : ℕ) = 0 then (2 : ℝ) else 0) = 0 := by norm_num
  simp only [hp0] at hd
  rw [hwalk, hvel] at hd
  simp only [hdiff] at hd
  have := hd.unique (hasDerivAt_const _ _)
  simp [Vec3.dot] at this

open EllipsoidLimits in
/-- **C73**: the gradient is wrong for ellipsoids that are not balls, even if they do not move: the projection along the ray
to the centre is treated as a fixed point, but it moves along the surface. -/
theorem C73_ellipsoid_wrong : ¬((exEllLimits 2 0 ⟨0, 1, 0⟩).toErrorFunction exEllTransform).GradientIsDerivative
    (fun i => if i = 0 then 3 / 2 else 0) 0 := by
  intro h
  obtain ⟨θ, S, hG, hlen, hθ, hs, hd⟩ := exLimits_claim two_ne_zero (by norm_num) ⟨0, 1, 0⟩ _ (by norm_num) h
  have hst := fun u => exLimits_state (r := 2) (e := 0) (Or.inl rfl) ⟨0, 1, 0⟩ _ _ (hs u)
  have hn : ∀ u, (⟨u / 2, 1, 0⟩ : Vec3 ℝ).norm = Real.sqrt (u ^ 2 / 4 + 1) := by
    intro u; unfold Vec3.norm; congr 1; simp [Vec3.sqNorm, Vec3.dot]; ring
  have hdiff : ∀ u, ((exEllLimit 2 0 ⟨0, 1, 0⟩).diffIn (S u)) = (1 - (Real.sqrt (u ^ 2 / 4 + 1))⁻¹) • (⟨u, 1, 0⟩ : Vec3 ℝ) := by
    intro u
    rw [(hst u).2]
    simp only [Function.update_self, Function.update_of_ne (show (1 : ℕ) ≠ 0 by norm_num), add_zero, mul_zero]
    rw [hn]
    norm_num
  have hpt : ∀ u, ((exEllLimit 2 0 ⟨0, 1, 0⟩).pointIn (S u)) = ⟨u, 1, 0⟩ := by
    intro u
    rw [(hst u).1]
    simp [Function.update_self, Function.update_of_ne (show (1 : ℕ) ≠ 0 by norm_num),
      Function.update_of_ne (show (2 : ℕ) ≠ 0 by norm_num)]
  have hx : HasVecDerivAt (fun u => (exEllLimit 2 0 ⟨0, 1, 0⟩).pointIn (S u)) ⟨1, 0, 0⟩ (3 / 2) := by
    simp only [hpt]
    exact ⟨hasDerivAt_id _, hasDerivAt_const _ _, hasDerivAt_const _ _⟩
  have hv := point_deriv exEll_fits.skeleton exEll_fits.unit hG hlen (fun r => hθ r (3 / 2))
    (exLimit_wellformed two_ne_zero (by norm_num) ⟨0, 1, 0⟩) (exLimit_fixes 2 ⟨0, 1, 0⟩)
  have hvel := hv.unique hx
  simp only [if_true] at hd
  rw [hvel] at hd
  simp only [hdiff] at hd
  have h54 : Real.sqrt ((3 / 2 : ℝ) ^ 2 / 4 + 1) = 5 / 4 := by
    rw [show (3 / 2 : ℝ) ^ 2 / 4 + 1 = (5 / 4) ^ 2 by norm_num]; exact Real.sqrt_sq (by norm_num)
  -- the true derivative
  have h1 : HasDerivAt (fun u : ℝ => u ^ 2 / 4 + 1) (3 / 4) (3 / 2) := by
    refine ((((hasDerivAt_id (3 / 2 : ℝ)).pow 2).div_const 4).add_const 1).congr_deriv ?_
    norm_num
  have h2 := h1.sqrt (by norm_num)
  have h3 := h2.inv (by rw [h54]; norm_num)
  have h4 := ((hasDerivAt_const (3 / 2 : ℝ) (1 : ℝ)).sub h3).pow 2
  have h5 : HasDerivAt (fun u : ℝ => u ^ 2 + 1) 3 (3 / 2) := by
    refine (((hasDerivAt_id (3 / 2 : ℝ)).pow 2).add_const 1).congr_deriv ?_
    norm_num
  have h6 := (h4.mul h5).mul_const (1 / 1000 : ℝ)
  have e : (fun u : ℝ => ((1 - (Real.sqrt (u ^ 2 / 4 + 1))⁻¹) • (⟨u, 1, 0⟩ : Vec3 ℝ)).sqNorm * (1 / 1000)) =
      fun u : ℝ => (1 - (Real.sqrt (u ^ 2 / 4 + 1))⁻¹) ^ 2 * (u ^ 2 + 1) * (1 / 1000) := by
    funext u; rw [sqNorm_smul']; simp [Vec3.sqNorm, Vec3.dot, -mul_eq_mul_left_iff, -mul_eq_mul_right_iff]; ring
  rw [e] at hd
  have := hd.unique h6
  simp only [h54, Vec3.dot, Vec3.smul_x, Vec3.smul_y, Vec3.smul_z, Pi.sub_apply, Pi.pow_apply, Pi.inv_apply] at this
  norm_num [h54] at this

/-- **C73**: the projected point is not the closest one on the surface, as the comment in the code says: here another point of
the surface is closer than the error says. -/
theorem C73_not_closest : ∃ st q, exEll.stateFor exEllTransform (paramVec 3 fun i => if i = 0 then 1 else 0) true = some st ∧
    (exEllLimit 2 0 ⟨0, 1, 0⟩).surfaceIn st q ∧
    ((exEllLimit 2 0 ⟨0, 1, 0⟩).pointIn st - q).sqNorm * (1 / 1000) <
      ((exEllLimits 2 0 ⟨0, 1, 0⟩).toErrorFunction exEllTransform).getError fun i => if i = 0 then 1 else 0 := by
  obtain ⟨θ, S, hG, hlen, hθ, hs, herr⟩ := EllipsoidLimits.along (E := exEllLimits 2 0 ⟨0, 1, 0⟩) (pt := exEllTransform) exEll_fits
    (exLimits_wellformed two_ne_zero (by norm_num) ⟨0, 1, 0⟩) (fun i => if i = 0 then (1 : ℝ) else 0) (i := 0)
    (by simp [exEllTransform, exEll])
  have hs := hs 1; have herr := herr 1
  have hup : Function.update (fun i => if i = 0 then (1 : ℝ) else 0) 0 1 = fun i => if i = 0 then (1 : ℝ) else 0 := by
    funext i; by_cases h : i = 0
    · subst h; simp
    · simp [Function.update_of_ne h]
  rw [hup] at hs herr
  obtain ⟨st', h1, h2, h3, h4, h5⟩ := exLimit_state 2 (e := 0) (Or.inl rfl) ⟨0, 1, 0⟩ (fun i => if i = 0 then (1 : ℝ) else 0)
  have hst : st' = S 1 := by
    have := h1.symm.trans hs
    exact Option.some.inj this
  obtain ⟨-, hdiff⟩ := exLimits_state (r := 2) (e := 0) (Or.inl rfl) ⟨0, 1, 0⟩ _ _ h1
  refine ⟨st', ⟨16 / 17, 15 / 17, 0⟩, h1, ⟨⟨8 / 17, 15 / 17, 0⟩, by norm_num [Vec3.sqNorm, Vec3.dot], ?_⟩, ?_⟩
  · refine Eq.trans ?_ (h5 ((exEllLimit 2 0 ⟨0, 1, 0⟩).ellipsoid.apply ⟨8 / 17, 15 / 17, 0⟩)).symm
    norm_num [exEllLimit, Affine.apply, Mat3.mulVec]
  · rw [herr, ← hst, exLimits_total, hdiff, h2, sqNorm_smul']
    have hn : (⟨1 / 2, 1, 0⟩ : Vec3 ℝ).norm = Real.sqrt (5 / 4) := by
      unfold Vec3.norm; congr 1; norm_num [Vec3.sqNorm, Vec3.dot]
    have hlt : Real.sqrt 4 / Real.sqrt 5 < 9 / 10 := by
      rw [show Real.sqrt 4 = 2 by rw [show (4 : ℝ) = 2 ^ 2 by norm_num]; exact Real.sqrt_sq (by norm_num),
        div_lt_iff₀ (Real.sqrt_pos.2 (by norm_num))]
      have : (20 / 9 : ℝ) < Real.sqrt 5 := Real.lt_sqrt_of_sq_lt (by norm_num)
      linarith
    norm_num [hn, Vec3.sqNorm, Vec3.dot]
    nlinarith

end Momentum
