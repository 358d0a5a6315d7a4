import Verif.Props.CollisionError
import Verif.Props.Capsule

/-!
# C67: a concrete case, and what fails
-/

namespace Momentum
open Skeleton

/-- A root with two children, the first ten units along z; the first model parameter moves the first child along z, the
second scales the root. -/
def exCol : ErrorBase where
  skeleton := ⟨[⟨"root", none, Quat.one, 0⟩, ⟨"a", some 0, Quat.one, ⟨0, 0, 10⟩⟩, ⟨"b", some 0, Quat.one, 0⟩]⟩
  transform := ⟨21, 2, [⟨9, 0, 1⟩, ⟨6, 1, 1⟩]⟩
  weight := 1
  activeJointParams := (List.replicate 21 false).set 9 true |>.set 6 true
  enabledParameters := ParameterSet.all

def exColTransform : ParameterTransform ℝ where
  name := ["tz", "scale"]
  transform := exCol.transform
  offsets := List.replicate 21 0
  activeJointParams := []
  parameterSets := []
  poseConstraints := []
  blendShapeParameters := []
  faceExpressionParameters := []

theorem exCol_coeff (r i : Nat) : exColTransform.transform.coeff r i = if r = 9 ∧ i = 0 then 1 else if r = 6 ∧ i = 1 then 1 else 0 := by
  simp only [SparseMat.coeff, exColTransform, exCol, List.filter_cons, List.filter_nil]
  by_cases h1 : r = 9 ∧ i = 0
  · obtain ⟨rfl, rfl⟩ := h1; simp
  · by_cases h2 : r = 6 ∧ i = 1
    · obtain ⟨rfl, rfl⟩ := h2; simp
    · rw [if_neg h1, if_neg h2]
      have a : ¬ (9 = r ∧ 0 = i) := fun h => h1 ⟨h.1.symm, h.2.symm⟩
      have b : ¬ (6 = r ∧ 1 = i) := fun h => h2 ⟨h.1.symm, h.2.symm⟩
      simp [a, b]

theorem exCol_fits : exCol.Fits exColTransform where
  skeleton := by
    intro j jt q h h2
    rcases j with _ | _ | _ | j
    · cases h; cases h2
    · cases h; cases h2; omega
    · cases h; cases h2; omega
    · simp [exCol] at h
  unit := by
    intro jt h
    simp only [exCol, List.mem_cons, List.not_mem_nil, or_false] at h
    rcases h with rfl | rfl | rfl <;> simp [Quat.one, Quat.normSq]
  transform := rfl
  wf := by
    intro e h
    simp only [exColTransform, exCol, List.mem_cons, List.not_mem_nil, or_false] at h
    rcases h with rfl | rfl <;> simp [exColTransform, exCol]
  offs := by simp [exColTransform, exCol]
  rows := by simp [exColTransform, exCol]
  cols := by simp [exColTransform, exCol, kMaxModelParams]
  activeLength := by simp [exColTransform, exCol]
  active := by
    intro r i _ h
    rw [exCol_coeff] at h
    by_cases h1 : r = 9
    · subst h1; simp [exCol]
    · by_cases h2 : r = 6
      · subst h2; simp [exCol]
      · rw [if_neg (fun h => h1 h.1), if_neg (fun h => h2 h.1)] at h; exact absurd rfl h

/-- A capsule along x on the first child, one along y on the second. -/
def exColGeometry : List (TaperedCapsule ℝ) :=
  [⟨⟨Mat3.one, ⟨-1, 0, 0⟩⟩, 1, 1, 1, 2⟩, ⟨⟨⟨0, -1, 0, 1, 0, 0, 0, 0, 1⟩, ⟨0, -1, 0⟩⟩, 1, 1, 2, 2⟩]

/-- The capsules when the first child is moved by `z` and the root is scaled by `c`. -/
noncomputable def exColCaps (z c : ℝ) : List (CapsuleState ℝ) :=
  [⟨⟨-c, 0, c * (10 + z)⟩, ⟨2 * c, 0, 0⟩, c, c, 0⟩, ⟨⟨0, -c, 0⟩, ⟨0, 2 * c, 0⟩, c, c, 0⟩]

/-- A joint without rotation. -/
theorem set_unrotated (name : String) (par : Option Nat) (off : Vec3 ℝ) (p : JointVec) (ps : Option JointState) (cd : Bool)
    (h3 : p 3 = 0) (h4 : p 4 = 0) (h5 : p 5 = 0) :
    (JointState.set ⟨name, par, Quat.one, off⟩ p ps cd).transform =
      (match ps with | some ps => ps.transform | none => Transform.one) *
        (⟨Quat.one, off + ⟨p 0, p 1, p 2⟩, 2 ^ p 6⟩ : Transform ℝ) := by
  have e : ∀ a : Vec3 ℝ, Quat.angleAxis 0 a = Quat.one := fun a => by
    ext <;> simp [Quat.angleAxis, Quat.one]
  have m : (Quat.one : Quat ℝ) * Quat.one = Quat.one := by
    ext <;> simp [Quat.one]
  simp only [JointState.set, List.foldl_cons, List.foldl_nil, rotationStep]
  have f5 : p ⟨3 + (2 : Fin 3).val, by decide⟩ = 0 := h5
  have f4 : p ⟨3 + (1 : Fin 3).val, by decide⟩ = 0 := h4
  have f3 : p ⟨3 + (0 : Fin 3).val, by decide⟩ = 0 := h3
  rw [f5, f4, f3, e, e, e, m, m, m]
  cases ps <;> rfl

theorem exCol_state (z c : ℝ) : ∃ st, skeletonState exCol.skeleton
    [0, 0, 0, 0, 0, 0, c, 0, 0, z, 0, 0, 0, 0, 0, 0, 0, 0, 0, 0, 0] true = some st ∧
    CollisionError.capsules exColGeometry st = some (exColCaps z (2 ^ c)) := by
  have h : ∃ j0 j1 j2, skeletonState exCol.skeleton
      [0, 0, 0, 0, 0, 0, c, 0, 0, z, 0, 0, 0, 0, 0, 0, 0, 0, 0, 0, 0] true = some [j0, j1, j2] ∧
      j1.transform = ⟨Quat.one, ⟨0, 0, 2 ^ c * (10 + z)⟩, 2 ^ c⟩ ∧ j2.transform = ⟨Quat.one, ⟨0, 0, 0⟩, 2 ^ c⟩ := by
    refine ⟨_, _, _, by simp only [skeletonState, exCol]; rfl, ?_, ?_⟩
    · rw [set_unrotated _ _ _ _ _ _ (by rfl) (by rfl) (by rfl)]
      simp only
      rw [set_unrotated _ _ _ _ _ _ (by rfl) (by rfl) (by rfl)]
      ext <;> simp [jointSlice, Transform.one, Quat.one, Quat.rotate, Quat.vec, Vec3.cross, mul_add]
    · rw [set_unrotated _ _ _ _ _ _ (by rfl) (by rfl) (by rfl)]
      simp only
      rw [set_unrotated _ _ _ _ _ _ (by rfl) (by rfl) (by rfl)]
      ext <;> simp [jointSlice, Transform.one, Quat.one, Quat.rotate, Quat.vec, Vec3.cross, mul_add]
  obtain ⟨j0, j1, j2, h0, h1, h2⟩ := h
  refine ⟨_, h0, ?_⟩
  have : CollisionError.capsules exColGeometry [j0, j1, j2] =
      some [capsuleState j1.transform.toAffine3 j1.transform.scale ⟨⟨Mat3.one, ⟨-1, 0, 0⟩⟩, 1, 1, 1, 2⟩,
        capsuleState j2.transform.toAffine3 j2.transform.scale ⟨⟨⟨0, -1, 0, 1, 0, 0, 0, 0, 1⟩, ⟨0, -1, 0⟩⟩, 1, 1, 2, 2⟩] := rfl
  rw [this, h1, h2]
  have hm : ∀ a b : Affine ℝ, a * b = ⟨a.linear.mul b.linear, a.linear.mulVec b.translation + a.translation⟩ := fun _ _ => rfl
  simp [capsuleState, exColCaps, Transform.toAffine3, Transform.toLinear, Transform.toRotationMatrix, Quat.one, Mat3.one, Mat3.smul,
    Mat3.col, Mat3.mulVec, hm, Quat.toMat, Mat3.mul]
  refine ⟨⟨?_, ?_⟩, ?_, ?_⟩ <;> ext <;> simp

theorem exCol_closest (z : ℝ) {c : ℝ} (hc : 0 < c) :
    IsClosestPair (⟨-c, 0, c * (10 + z)⟩ : Vec3 ℝ) ⟨2 * c, 0, 0⟩ ⟨0, -c, 0⟩ ⟨0, 2 * c, 0⟩ (1 / 2) (1 / 2) := by
  refine ⟨by norm_num, by norm_num, fun s t _ _ _ _ => ?_⟩
  simp only [sqDist, segPoint, Vec3.sqNorm, Vec3.dot, Vec3.sub_x, Vec3.sub_y, Vec3.sub_z, Vec3.add_x, Vec3.add_y, Vec3.add_z,
    Vec3.smul_x, Vec3.smul_y, Vec3.smul_z]
  nlinarith [sq_nonneg (-c + s * (2 * c)), sq_nonneg (-c + t * (2 * c))]

theorem exCol_distance (z : ℝ) {c : ℝ} (hc : 0 < c) :
    segmentDistance (⟨-c, 0, c * (10 + z)⟩ : Vec3 ℝ) ⟨2 * c, 0, 0⟩ ⟨0, -c, 0⟩ ⟨0, 2 * c, 0⟩ = c * |10 + z| := by
  rw [segmentDistance_eq (exCol_closest z hc)]
  have : sqDist (segPoint (⟨-c, 0, c * (10 + z)⟩ : Vec3 ℝ) ⟨2 * c, 0, 0⟩ (1 / 2)) (segPoint ⟨0, -c, 0⟩ ⟨0, 2 * c, 0⟩ (1 / 2)) =
      (c * (10 + z)) ^ 2 := by
    simp only [sqDist, segPoint, Vec3.sqNorm, Vec3.dot, Vec3.sub_x, Vec3.sub_y, Vec3.sub_z, Vec3.add_x, Vec3.add_y, Vec3.add_z,
      Vec3.smul_x, Vec3.smul_y, Vec3.smul_z]
    ring
  rw [this, Real.sqrt_sq_eq_abs, abs_mul, abs_of_pos hc]

theorem exCol_depth (z : ℝ) {c : ℝ} (hc : 0 < c) :
    capsuleDepth (capsuleAt (exColCaps z c) 0) (capsuleAt (exColCaps z c) 1) = max 0 (c + c - c * |10 + z|) := by
  unfold capsuleDepth
  have := exCol_distance z hc
  simp only [capsuleAt, exColCaps, List.getD_cons_zero, List.getD_cons_succ]
  rw [this]

/-- The pair is in general position as long as the axes do not come too close. -/
theorem exCol_clear (z : ℝ) (hz : 1 / 2 ≤ |10 + z|) :
    ClearPair (1 / 10000000) (1 / 100000000) (capsuleAt (exColCaps z 1) 0) (capsuleAt (exColCaps z 1) 1) := by
  have hd := exCol_distance z one_pos
  have hp := exCol_closest z one_pos
  simp only [capsuleAt, exColCaps, List.getD_cons_zero, List.getD_cons_succ]
  refine ⟨rfl, rfl, fun _ => ⟨?_, ?_, 1 / 2, 1 / 2, hp, Or.inr ?_, Or.inr ?_⟩⟩
  · norm_num [Vec3.sqNorm, Vec3.cross, Vec3.dot]
  · rw [hd]; linarith
  · norm_num [Vec3.sqNorm, Vec3.cross, Vec3.dot]
  · norm_num [Vec3.sqNorm, Vec3.cross, Vec3.dot]

theorem exCol_valid (z : ℝ) : (capsuleAt (exColCaps z 1) 0).Valid ∧ (capsuleAt (exColCaps z 1) 1).Valid := by
  simp only [capsuleAt, exColCaps, List.getD_cons_zero, List.getD_cons_succ]
  refine ⟨⟨?_, ?_, ?_⟩, ?_, ?_, ?_⟩ <;> norm_num

theorem exCol_rest : RestPose exCol (List.replicate 21 0) exColGeometry (exColCaps 0 1) := by
  obtain ⟨st, h1, h2⟩ := exCol_state 0 0
  rw [Real.rpow_zero] at h2
  exact ⟨st, h1, h2⟩

theorem exCol_setting : CollisionSetting exCol (List.replicate 21 0) (1 / 10000000) exColGeometry (exColCaps 0 1) where
  skeleton := exCol_fits.skeleton
  parents := by
    intro tc h
    simp only [exColGeometry, List.mem_cons, List.not_mem_nil, or_false] at h
    rcases h with rfl | rfl <;> simp [exCol]
  radii := by
    intro tc h
    simp only [exColGeometry, List.mem_cons, List.not_mem_nil, or_false] at h
    rcases h with rfl | rfl <;> norm_num
  htol := by norm_num
  small := by simp [exColGeometry, kRootParentIndex]
  rest := exCol_rest

theorem exCol_anc : exCol.skeleton.Anc 1 0 ∧ exCol.skeleton.Anc 2 0 := by
  constructor
  · exact Relation.ReflTransGen.single ⟨_, rfl, rfl⟩
  · exact Relation.ReflTransGen.single ⟨_, rfl, rfl⟩

theorem exCol_constructed : ∃ E, CollisionError.construct exCol (List.replicate 21 0) (1 / 10000000) (1 / 100000000)
    exColGeometry = some E := by
  refine C67_construct exCol _ _ _ _ _ exCol_setting (by simp [exColGeometry]) ?_
  intro a ha b hb
  refine ⟨0, ?_, ?_⟩
  · simp only [exColGeometry, List.mem_cons, List.not_mem_nil, or_false] at ha
    rcases ha with rfl | rfl
    · exact exCol_anc.1
    · exact exCol_anc.2
  · simp only [exColGeometry, List.mem_cons, List.not_mem_nil, or_false] at hb
    rcases hb with rfl | rfl
    · exact exCol_anc.1
    · exact exCol_anc.2

theorem exCol_watched : watchedPairs exCol.skeleton (1 / 10000000) (1 / 100000000) exColGeometry (exColCaps 0 1) = {(0, 1)} := by
  classical
  have hw : Watched exCol.skeleton (1 / 10000000) (1 / 100000000) exColGeometry (exColCaps 0 1) 0 1 := by
    refine ⟨_, _, capsuleAt (exColCaps 0 1) 0, capsuleAt (exColCaps 0 1) 1, rfl, rfl, rfl, rfl, ?_, ?_⟩
    · rintro (h | ⟨jt, h1, h2⟩ | ⟨jt, h1, h2⟩)
      · cases h
      · cases h1; cases h2
      · cases h1; cases h2
    · have := (clear_info (by norm_num) (exCol_valid 0).1 (exCol_valid 0).2 (exCol_clear 0 (by norm_num))).1
      rw [← Bool.not_eq_true, this]
      have hd := exCol_distance 0 one_pos
      simp only [capsuleAt, exColCaps, List.getD_cons_zero, List.getD_cons_succ]
      rw [hd]
      norm_num
  ext ⟨i, j⟩
  simp only [watchedPairs, Finset.mem_filter, Finset.mem_product, Finset.mem_range, Finset.mem_singleton, Prod.mk.injEq]
  constructor
  · rintro ⟨⟨h1, h2⟩, h3, -⟩
    simp [exColGeometry] at h1 h2
    omega
  · rintro ⟨rfl, rfl⟩
    exact ⟨by simp [exColGeometry], by omega, hw⟩

theorem exCol_posed (p : Nat → ℝ) : ∃ st, exCol.stateFor exColTransform (paramVec 2 p) true = some st ∧
    posedCapsules exCol exColTransform exColGeometry p = exColCaps (p 0) (2 ^ p 1) := by
  obtain ⟨st, h1, h2⟩ := exCol_state (p 0) (p 1)
  have ha : exColTransform.apply (paramVec 2 p) =
      some [0, 0, 0, 0, 0, 0, p 1, 0, 0, p 0, 0, 0, 0, 0, 0, 0, 0, 0, 0, 0, 0] := by
    simp [ParameterTransform.apply, exColTransform, exCol, SparseMat.mulVec, addVec, paramVec, List.range_succ]
  have hs : exCol.stateFor exColTransform (paramVec 2 p) true = some st := by
    unfold ErrorBase.stateFor
    rw [ha, Option.bind_some, h1]
  refine ⟨st, hs, ?_⟩
  unfold posedCapsules
  rw [show exColTransform.transform.cols = 2 from rfl, hs, Option.bind_some, h2]; rfl

open CollisionError in
/-- The hypotheses of the theorems are met: the pose in which the first child comes down to distance one. -/
theorem exCol_case : ∃ (E : CollisionError) (st : List JointState) (x : ℝ) (grad : Nat → ℝ) (s : JacobianResult)
    (E' : CollisionError), E.Reached exCol (List.replicate 21 0) (1 / 10000000) (1 / 100000000) exColGeometry ∧
    E.Fits exColTransform ∧ E.weight = 1 ∧ E.enabledParameters = ParameterSet.all ∧
    exCol.stateFor exColTransform (paramVec 2 fun i => if i = 0 then -9 else 0) true = some st ∧ st ≠ [] ∧
    st.length = exCol.skeleton.joints.length ∧ (∀ js ∈ st, js.derivDirty = false) ∧ (∀ js ∈ st, 0 ≤ js.transform.scale) ∧
    E.getError st = some (x, E') ∧ E.getGradient st (fun _ => 0) = some ((x, grad), E') ∧
    E.getJacobian st 1 (fun _ _ => 0) (fun _ => 0) 0 = some (s, E') ∧
    (∀ q ∈ watchedPairs exCol.skeleton (1 / 10000000) (1 / 100000000) exColGeometry (exColCaps 0 1),
      ClearPair (1 / 10000000) (1 / 100000000)
        (capsuleAt (posedCapsules exCol exColTransform exColGeometry fun i => if i = 0 then -9 else 0) q.1)
        (capsuleAt (posedCapsules exCol exColTransform exColGeometry fun i => if i = 0 then -9 else 0) q.2)) ∧
    x = 5 / 1000 := by
  obtain ⟨E, hE⟩ := exCol_constructed
  have hR := CollisionError.Reached.new hE
  have hbase : E.toErrorBase = exCol := by
    unfold CollisionError.construct at hE
    simp only [Option.bind_eq_bind, Option.bind_eq_some_iff, Option.some.injEq] at hE
    obtain ⟨_, _, _, _, _, _, _, _, rfl⟩ := hE; rfl
  have hF : E.Fits exColTransform := by rw [hbase]; exact exCol_fits
  obtain ⟨st, h1, h2⟩ := exCol_posed (fun i => if i = 0 then -9 else 0)
  simp only [one_ne_zero, if_false, if_true, Real.rpow_zero] at h2
  have hg : ∃ θ, FKGood exCol.skeleton θ true st ∧ st.length = exCol.skeleton.joints.length := by
    unfold ErrorBase.stateFor at h1
    rw [Option.bind_eq_some_iff] at h1
    obtain ⟨θ, h3, h4⟩ := h1
    have hl : θ.length = exCol.skeleton.joints.length * 7 := by
      by_contra hc
      rw [skeletonState, if_neg hc] at h4; cases h4
    obtain ⟨st', h5, h6, h7⟩ := skeletonState_good exCol_fits.skeleton true hl
    rw [h4, Option.some.injEq] at h5
    exact ⟨θ, by rw [h5]; exact h6, by rw [h5]; exact h7⟩
  obtain ⟨θ, hG, hlen⟩ := hg
  have hne : st ≠ [] := by
    intro h; rw [h] at hlen; simp [exCol] at hlen
  have hcl := ErrorBase.clean_of_good hG hlen
  have hsc := scale_nonneg_of_good exCol_fits.skeleton hG hlen
  have hsize : E.getJacobianSize = 1 := by
    rw [C67_size _ _ _ _ _ _ exCol_setting E hR, exCol_watched]; rfl
  obtain ⟨x, grad, s, E', e1, e2, e3, _⟩ := C67_returns exCol _ _ _ _ _ exCol_setting (by simp [exColGeometry]) E hR
    exColTransform hF st hne hlen hcl hsc 1 hsize.le (fun _ => 0) (fun _ _ => 0) (fun _ => 0) 0
  have hclear : ∀ q ∈ watchedPairs exCol.skeleton (1 / 10000000) (1 / 100000000) exColGeometry (exColCaps 0 1),
      ClearPair (1 / 10000000) (1 / 100000000)
        (capsuleAt (posedCapsules exCol exColTransform exColGeometry fun i => if i = 0 then -9 else 0) q.1)
        (capsuleAt (posedCapsules exCol exColTransform exColGeometry fun i => if i = 0 then -9 else 0) q.2) := by
    rw [exCol_watched, h2]
    intro q hq
    rw [Finset.mem_singleton] at hq
    subst hq
    exact exCol_clear (-9) (by norm_num)
  have hx : x = 5 / 1000 := by
    have hcs : capsules exColGeometry st = some (exColCaps (-9) 1) := by
      have : posedCapsules exCol exColTransform exColGeometry (fun i => if i = 0 then -9 else 0) =
          ((capsules exColGeometry st).getD []) := by
        unfold posedCapsules
        rw [show exColTransform.transform.cols = 2 from rfl, h1, Option.bind_some]
      rw [h2] at this
      cases hc : capsules exColGeometry st with
      | none => rw [hc] at this; simp [exColCaps] at this
      | some cs => rw [hc] at this; rw [this]; rfl
    rw [h2] at hclear
    have := C67_error_exact exCol _ _ _ _ _ exCol_setting E hR st hne hsc x E' e1 _ hcs hclear
    rw [this, exCol_watched, penetration, Finset.sum_singleton, exCol_depth _ one_pos, hbase]
    norm_num [kCollisionWeight, exCol]
  exact ⟨E, st, x, grad, s, E', hR, hF, by rw [hbase]; rfl, by rw [hbase]; rfl, h1, hne, hlen, hcl, hsc, e1, e2, e3, hclear, hx⟩

/-- **C67**, what fails: the Jacobian is not the derivative of the residual, not even for two capsules of constant radius
moved towards each other. -/
theorem C67_jacobian_counterexample : ∃ (B : ErrorBase) (offsets : List ℝ) (tol eps : ℝ) (g : List (TaperedCapsule ℝ))
    (rest : List (CapsuleState ℝ)) (E : CollisionError) (pt : ParameterTransform ℝ) (p : Nat → ℝ) (st : List JointState)
    (s : JacobianResult) (E' : CollisionError), CollisionSetting B offsets tol g rest ∧ E.Reached B offsets tol eps g ∧
    E.Fits pt ∧ E.enabledParameters.mem 0 = true ∧
    B.stateFor pt (paramVec pt.transform.cols p) true = some st ∧
    E.getJacobian st 1 (fun _ _ => 0) (fun _ => 0) 0 = some (s, E') ∧ s.rows = 1 ∧
    (fun u => Real.sqrt (kCollisionWeight * E.weight) *
        capsuleDepth (capsuleAt (posedCapsules B pt g (Function.update p 0 u)) 0)
          (capsuleAt (posedCapsules B pt g (Function.update p 0 u)) 1)) (p 0) = s.residual 0 ∧
    ¬ HasDerivAt (fun u => Real.sqrt (kCollisionWeight * E.weight) *
        capsuleDepth (capsuleAt (posedCapsules B pt g (Function.update p 0 u)) 0)
          (capsuleAt (posedCapsules B pt g (Function.update p 0 u)) 1)) (s.e 0 0) (p 0) := by
  obtain ⟨E, st, x, grad, s, E', hR, hF, hw, hen, h1, hne, hlen, hcl, hsc, e1, e2, e3, hclear, hx⟩ := exCol_case
  have hm : E.enabledParameters.mem 0 = true := by rw [hen]; simp [ParameterSet.all, ParameterSet.mem, kMaxModelParams]
  obtain ⟨L, l1, l2, l3, l4⟩ := C67_jacobian_twice exCol _ _ _ (by norm_num) _ _ exCol_setting E hR exColTransform hF
    (by simp [exCol]) (fun i => if i = 0 then -9 else 0) 0 (by simp [exColTransform, exCol]) hm
    (fun j => by rw [exCol_coeff, if_neg (by omega), if_neg (by omega)]) hclear st h1 1 s E' e3
  obtain ⟨r1, r2, r3, -⟩ := C67_rows exCol _ _ _ _ _ exCol_setting E hR exColTransform hF (by rw [hw]; norm_num) st hne hlen hcl
    hsc 1 (fun _ _ => 0) (fun _ => 0) 0 x E' E' s e1 e3
  rw [exCol_watched] at l3
  have hrows : s.rows = 1 := by
    have h01 : s.rows ≤ 1 := by
      rw [C67_size _ _ _ _ _ _ exCol_setting E hR, exCol_watched] at r2; exact r2
    rcases Nat.lt_or_ge s.rows 1 with h | h
    · rw [show s.rows = 0 by omega, Finset.range_zero, Finset.sum_empty, hx] at r3
      norm_num at r3
    · omega
  have hL : L = [(0, 1)] := by
    rw [hrows] at l2
    obtain ⟨q, rfl⟩ := List.length_eq_one_iff.1 l2
    have := l3 q (by simp)
    rw [Finset.mem_singleton] at this; rw [this]
  subst hL
  obtain ⟨a1, a2⟩ := l4 0 (0, 1) rfl
  refine ⟨exCol, _, _, _, _, _, E, exColTransform, _, st, s, E', exCol_setting, hR, hF, hm, h1, e3, hrows, ?_, ?_⟩
  · simp only [Function.update_eq_self]; exact a1.symm
  · intro hc
    have heq := hc.unique a2
    have he : s.e 0 0 = 0 := by linarith
    rw [he] at hc
    -- the true derivative is minus the root of the weight
    have hpos : ∀ u, posedCapsules exCol exColTransform exColGeometry
        (Function.update (fun i => if i = 0 then (-9 : ℝ) else 0) 0 u) = exColCaps u 1 := by
      intro u
      obtain ⟨_, _, h⟩ := exCol_posed (Function.update (fun i => if i = 0 then (-9 : ℝ) else 0) 0 u)
      rw [h]; simp
    simp only [hpos, exCol_depth _ one_pos, if_true] at hc
    have hd : HasDerivAt (fun u : ℝ => Real.sqrt (kCollisionWeight * E.weight) * max 0 (1 + 1 - 1 * |10 + u|))
        (Real.sqrt (kCollisionWeight * E.weight) * (-1)) (-9) := by
      have h2 : HasDerivAt (fun u : ℝ => Real.sqrt (kCollisionWeight * E.weight) * (-8 - u))
          (Real.sqrt (kCollisionWeight * E.weight) * (-1)) (-9) :=
        ((hasDerivAt_id' (-9 : ℝ)).const_sub (-8)).const_mul _
      refine h2.congr_of_eventuallyEq ?_
      have : Set.Ioo (-10 : ℝ) (-8) ∈ nhds (-9 : ℝ) := Ioo_mem_nhds (by norm_num) (by norm_num)
      filter_upwards [this] with u hu
      rw [abs_of_pos (by linarith [hu.1]), max_eq_right (by linarith [hu.2])]
      ring
    have := hc.unique hd
    rw [hw] at this
    have hk : 0 < Real.sqrt (kCollisionWeight * 1) := Real.sqrt_pos.2 (by norm_num [kCollisionWeight])
    linarith

open CollisionError in
/-- **C67**, what fails: for a parameter that scales a joint the gradient is not the derivative; the capsules grow with the
joint, but joints from the common ancestor upwards are left out and the change of the radii is not taken into account. -/
theorem C67_scale_counterexample : ∃ (B : ErrorBase) (offsets : List ℝ) (tol eps : ℝ) (g : List (TaperedCapsule ℝ))
    (rest : List (CapsuleState ℝ)) (E : CollisionError) (pt : ParameterTransform ℝ) (p : Nat → ℝ) (st : List JointState)
    (x : ℝ) (grad : Nat → ℝ) (E' : CollisionError), CollisionSetting B offsets tol g rest ∧ E.Reached B offsets tol eps g ∧
    E.Fits pt ∧ E.enabledParameters.mem 1 = true ∧
    (∀ q ∈ watchedPairs B.skeleton tol eps g rest,
      ClearPair tol eps (capsuleAt (posedCapsules B pt g p) q.1) (capsuleAt (posedCapsules B pt g p) q.2)) ∧
    B.stateFor pt (paramVec pt.transform.cols p) true = some st ∧
    E.getGradient st (fun _ => 0) = some ((x, grad), E') ∧ grad 1 = 0 ∧
    ¬ HasDerivAt (fun u => kCollisionWeight * E.weight *
      penetration (watchedPairs B.skeleton tol eps g rest) (posedCapsules B pt g (Function.update p 1 u))) (grad 1) (p 1) := by
  obtain ⟨E, st, x, grad, s, E', hR, hF, hw, hen, h1, hne, hlen, hcl, hsc, e1, e2, e3, hclear, hx⟩ := exCol_case
  have hm : E.enabledParameters.mem 1 = true := by rw [hen]; simp [ParameterSet.all, ParameterSet.mem, kMaxModelParams]
  have hRd := ready exCol_setting hR hsc hne
  obtain ⟨hb, -⟩ := getError_spec hRd e1
  obtain ⟨hK, hC, -⟩ := broadPhase_spec exCol_setting.small hRd.kept hb
  obtain ⟨grad', g1, g2⟩ := getGradient_spec hRd hF exCol_setting.parents hlen hcl (fun _ => 0) hb
  rw [e2] at g1
  simp only [Option.some.injEq, Prod.mk.injEq] at g1
  obtain ⟨⟨-, rfl⟩, -⟩ := g1
  -- the walks stop below the root
  have hpath : ∀ c j, (∃ l, PathTo exCol.skeleton (some c) (some j) l) → ∀ l, PathTo exCol.skeleton (some c) (some j) l →
      0 ∉ l ∨ c ≠ 0 := by
    intro c j _ l hl
    by_cases hc : c = 0
    · left
      subst hc
      have : ∀ o l, PathTo exCol.skeleton (some 0) o l → 0 ∉ l := by
        intro o l ho
        induction ho with
        | nil => simp
        | cons hj _ _ ih =>
          simp only [List.mem_cons, not_or]
          exact ⟨fun h => hj (by rw [h]), ih⟩
      exact this _ _ hl
    · exact Or.inr hc
  have hvel : ∀ l pos, 0 ∉ l → posVel st l (fun r => exColTransform.transform.coeff r 1) pos = 0 := by
    intro l pos hl
    induction l with
    | nil => rfl
    | cons a l ih =>
      simp only [List.mem_cons, not_or] at hl
      have e : posVel st (a :: l) (fun r => exColTransform.transform.coeff r 1) pos =
          jointVel (stateAt st a) (ratesOf (fun r => exColTransform.transform.coeff r 1) a) pos +
            posVel st l (fun r => exColTransform.transform.coeff r 1) pos := by
        unfold posVel; rw [List.map_cons, List.sum_cons]
      have hz : ∀ k < 7, exColTransform.transform.coeff (a * 7 + k) 1 = 0 := by
        intro k hk
        have ha := hl.1
        rw [exCol_coeff, if_neg (by omega), if_neg (by omega)]
      rw [e, ih hl.2, jointVel_split]
      simp only [hz 0 (by omega), hz 1 (by omega), hz 2 (by omega), hz 3 (by omega), hz 4 (by omega), hz 5 (by omega),
        hz 6 (by omega)]
      ext <;> simp
  have hzero : grad 1 = 0 := by
    rw [g2 1 hm, zero_add]
    refine List.sum_eq_zero fun y hy => ?_
    obtain ⟨h, hh, rfl⟩ := List.mem_map.1 hy
    obtain ⟨ga, gb, c, ca, cb, p1, p2, _, _, _, _, a1, a2, hd⟩ := pairData_hit exCol_fits.skeleton exCol_setting.parents hK hh
    have hab := (mem_hits hK hh).2.2.2.1
    have hpa := exCol_setting.parents ga (List.mem_of_getElem? p1)
    have hpb := exCol_setting.parents gb (List.mem_of_getElem? p2)
    have hc0 : c = 0 := by
      have hne : ga.parent ≠ gb.parent := by
        intro he
        obtain ⟨_, _, _, _, q1, q2, _, _, q3, _⟩ := (mem_hits hK hh).2.2.2.2.1
        rcases lt_or_gt_of_ne hab with hlt | hlt
        · rw [min_eq_left hlt.le, p1, Option.some.injEq] at q1
          rw [max_eq_right hlt.le, p2, Option.some.injEq] at q2
          subst q1 q2; exact q3 (Or.inl he)
        · rw [min_eq_right hlt.le, p2, Option.some.injEq] at q1
          rw [max_eq_left hlt.le, p1, Option.some.injEq] at q2
          subst q1 q2; exact q3 (Or.inl he.symm)
      have hroot : ∀ j c', j < 3 → exCol.skeleton.Anc j c' → c' = j ∨ c' = 0 := by
        intro j c' hj ha
        rcases Relation.ReflTransGen.cases_head ha with rfl | ⟨q, ⟨jt, r1, r2⟩, r3⟩
        · exact Or.inl rfl
        · right
          have hq : q = 0 := by
            rcases j with _ | _ | _ | j
            · cases r1; cases r2
            · cases r1; cases r2; rfl
            · cases r1; cases r2; rfl
            · omega
          subst hq
          rcases Relation.ReflTransGen.cases_head r3 with rfl | ⟨q, ⟨jt, r1, r2⟩, r3⟩
          · rfl
          · cases r1; cases r2
      rcases hroot _ _ hpa a1 with r1 | r1
      · rcases hroot _ _ hpb a2 with r2 | r2
        · exact absurd (r1.symm.trans r2) hne
        · exact r2
      · exact r1
    subst hc0
    have l1 := (hpath 0 ga.parent ⟨_, (pathUp_spec exCol_fits.skeleton hpa a1).1⟩ _
      (pathUp_spec exCol_fits.skeleton hpa a1).1).resolve_right (by simp)
    have l2 := (hpath 0 gb.parent ⟨_, (pathUp_spec exCol_fits.skeleton hpb a2).1⟩ _
      (pathUp_spec exCol_fits.skeleton hpb a2).1).resolve_right (by simp)
    unfold pairGrad pairRate
    rw [hd]
    simp only [hK.skeleton_eq]
    rw [hvel _ _ l1, hvel _ _ l2]
    simp [Vec3.dot]
  refine ⟨exCol, _, _, _, _, _, E, exColTransform, _, st, x, grad, E', exCol_setting, hR, hF, hm, hclear, h1, e2, hzero, ?_⟩
  rw [hzero, exCol_watched]
  intro hc
  have hpos : ∀ u, posedCapsules exCol exColTransform exColGeometry
      (Function.update (fun i => if i = 0 then (-9 : ℝ) else 0) 1 u) = exColCaps (-9) (2 ^ u) := by
    intro u
    obtain ⟨_, _, h⟩ := exCol_posed (Function.update (fun i => if i = 0 then (-9 : ℝ) else 0) 1 u)
    rw [h]; simp
  have hval : (fun u : ℝ => kCollisionWeight * E.weight * penetration {(0, 1)} (posedCapsules exCol exColTransform exColGeometry
      (Function.update (fun i => if i = 0 then (-9 : ℝ) else 0) 1 u))) = fun u => kCollisionWeight * ((2 : ℝ) ^ u) ^ 2 := by
    funext u
    have h2 : (0 : ℝ) < 2 ^ u := Real.rpow_pos_of_pos (by norm_num) u
    rw [hpos, penetration, Finset.sum_singleton, exCol_depth _ h2, hw,
      show (10 + -9 : ℝ) = 1 by norm_num, abs_one, max_eq_right (by linarith)]
    ring
  rw [hval] at hc
  simp only [one_ne_zero, if_false] at hc
  have hd := (((hasDerivAt_id' (0 : ℝ)).const_rpow (a := 2) (by norm_num)).pow 2).const_mul kCollisionWeight
  have := hc.unique hd
  simp only [Real.rpow_zero, kCollisionWeight] at this
  have hlog := Real.log_pos (by norm_num : (1 : ℝ) < 2)
  norm_num at this

/-- Two joints that do not hang together. -/
def exForest : ErrorBase where
  skeleton := ⟨[⟨"a", none, Quat.one, ⟨0, 0, 10⟩⟩, ⟨"b", none, Quat.one, 0⟩]⟩
  transform := ⟨14, 1, []⟩
  weight := 1
  activeJointParams := List.replicate 14 false
  enabledParameters := ParameterSet.all

theorem exForest_rest : RestPose exForest (List.replicate 14 0)
    [⟨⟨Mat3.one, ⟨-1, 0, 0⟩⟩, 1, 1, 0, 2⟩, ⟨⟨⟨0, -1, 0, 1, 0, 0, 0, 0, 1⟩, ⟨0, -1, 0⟩⟩, 1, 1, 1, 2⟩] (exColCaps 0 1) := by
  have h : ∃ j0 j1, skeletonState exForest.skeleton (List.replicate 14 0) true = some [j0, j1] ∧
      j0.transform = ⟨Quat.one, ⟨0, 0, 10⟩, 1⟩ ∧ j1.transform = ⟨Quat.one, ⟨0, 0, 0⟩, 1⟩ := by
    refine ⟨_, _, by simp only [skeletonState, exForest]; rfl, ?_, ?_⟩
    · rw [set_unrotated _ _ _ _ _ _ (by rfl) (by rfl) (by rfl)]
      ext <;> simp [jointSlice, Transform.one, Quat.one, Quat.rotate, Quat.vec, Vec3.cross]
    · rw [set_unrotated _ _ _ _ _ _ (by rfl) (by rfl) (by rfl)]
      ext <;> simp [jointSlice, Transform.one, Quat.one, Quat.rotate, Quat.vec, Vec3.cross]
  obtain ⟨j0, j1, h0, h1, h2⟩ := h
  refine ⟨_, h0, ?_⟩
  have : CollisionError.capsules [⟨⟨Mat3.one, ⟨-1, 0, 0⟩⟩, 1, 1, 0, 2⟩,
      ⟨⟨⟨0, -1, 0, 1, 0, 0, 0, 0, 1⟩, ⟨0, -1, 0⟩⟩, 1, 1, 1, 2⟩] [j0, j1] =
      some [capsuleState j0.transform.toAffine3 j0.transform.scale ⟨⟨Mat3.one, ⟨-1, 0, 0⟩⟩, 1, 1, 0, 2⟩,
        capsuleState j1.transform.toAffine3 j1.transform.scale ⟨⟨⟨0, -1, 0, 1, 0, 0, 0, 0, 1⟩, ⟨0, -1, 0⟩⟩, 1, 1, 1, 2⟩] := rfl
  rw [this, h1, h2]
  have hm : ∀ a b : Affine ℝ, a * b = ⟨a.linear.mul b.linear, a.linear.mulVec b.translation + a.translation⟩ := fun _ _ => rfl
  simp [capsuleState, exColCaps, Transform.toAffine3, Transform.toLinear, Transform.toRotationMatrix, Quat.one, Mat3.one, Mat3.smul,
    Mat3.col, Mat3.mulVec, hm, Quat.toMat, Mat3.mul]
  refine ⟨⟨?_, ?_⟩, ?_, ?_⟩ <;> ext <;> simp

open CollisionError in
/-- **C67**, what fails: for a skeleton with two roots the constructor reads past the joints. -/
theorem C67_forest_counterexample : ∃ (B : ErrorBase) (offsets : List ℝ) (tol eps : ℝ) (g : List (TaperedCapsule ℝ))
    (rest : List (CapsuleState ℝ)), CollisionSetting B offsets tol g rest ∧ g.length = 2 ∧
      CollisionError.construct B offsets tol eps g = none := by
  have hv : exForest.skeleton.Valid := by
    intro j jt q h h2
    rcases j with _ | _ | j
    · cases h; cases h2
    · cases h; cases h2
    · simp [exForest] at h
  refine ⟨exForest, List.replicate 14 0, 1 / 10000000, 1 / 100000000, _, _, ⟨hv, ?_, ?_, by norm_num, ?_, exForest_rest⟩, rfl, ?_⟩
  · intro tc h
    simp only [List.mem_cons, List.not_mem_nil, or_false] at h
    rcases h with rfl | rfl <;> simp [exForest]
  · intro tc h
    simp only [List.mem_cons, List.not_mem_nil, or_false] at h
    rcases h with rfl | rfl <;> norm_num
  · simp [kRootParentIndex]
  · obtain ⟨state, s1, s2⟩ := exForest_rest
    unfold CollisionError.construct
    rw [s1]
    simp only [Option.bind_eq_bind, Option.bind_some, s2]
    cases hb : setBoundingBoxes (restBoxes (exColCaps 0 1)) with
    | none => rfl
    | some bvh =>
      simp only [Option.bind_some]
      have hno : overlaps (1 / 10000000) (1 / 100000000) (capsuleAt (exColCaps 0 1) 0) (capsuleAt (exColCaps 0 1) 1) = false := by
        have := (clear_info (by norm_num) (exCol_valid 0).1 (exCol_valid 0).2 (exCol_clear 0 (by norm_num))).1
        rw [← Bool.not_eq_true, this]
        have hd := exCol_distance 0 one_pos
        simp only [capsuleAt, exColCaps, List.getD_cons_zero, List.getD_cons_succ]
        rw [hd]
        norm_num
      have hst : pairSteps exForest.skeleton (some 0) (some 1) 0 = none := by
        refine pairSteps_none hv 1 0 1 (by omega) (by simp [exForest]) (by simp [exForest]) ?_ 0
        rintro ⟨c, a1, a2⟩
        have e1 : c = 0 := by
          rcases Relation.ReflTransGen.cases_head a1 with rfl | ⟨q, ⟨jt, r1, r2⟩, r3⟩
          · rfl
          · cases r1; cases r2
        have e2 : c = 1 := by
          rcases Relation.ReflTransGen.cases_head a2 with rfl | ⟨q, ⟨jt, r1, r2⟩, r3⟩
          · rfl
          · cases r1; cases r2
        omega
      have hps : ∀ (E : CollisionError) acc, E.tol = 1 / 10000000 → E.eps = 1 / 100000000 → E.skeleton = exForest.skeleton →
          E.collisionGeometry = [⟨⟨Mat3.one, ⟨-1, 0, 0⟩⟩, 1, 1, 0, 2⟩,
            ⟨⟨⟨0, -1, 0, 1, 0, 0, 0, 0, 1⟩, ⟨0, -1, 0⟩⟩, 1, 1, 1, 2⟩] → E.pairStep (exColCaps 0 1) 0 acc 1 = none := by
        intro E acc t1 t2 t3 t4
        have c0 : (exColCaps 0 1)[0]? = some (capsuleAt (exColCaps 0 1) 0) := rfl
        have c1 : (exColCaps 0 1)[1]? = some (capsuleAt (exColCaps 0 1) 1) := rfl
        unfold pairStep
        rw [c0, c1, t1, t2, t3, t4]
        simp only [Option.bind_eq_bind, Option.bind_some, hno, Bool.false_eq_true, if_false, List.getElem?_cons_zero,
          List.getElem?_cons_succ, hst, Option.bind_none]
      simp only [pairLoop, List.length_cons, List.length_nil, List.range_succ, List.range_zero, List.nil_append, List.cons_append,
        List.foldlM_cons, Nat.reduceAdd, Nat.reduceSub, List.range'_succ, List.range'_zero]
      rw [hps _ _ rfl rfl rfl rfl]
      rfl

end Momentum
