import Verif.Props.VertexError
import Verif.Props.CollisionErrorEx

/-!
# C68: concrete cases, and what fails
-/

namespace Momentum
open Skeleton

/-- A root and a child turned by half a turn about z, one unit along x.  Parameter 0 moves the root along x, parameter 1
turns the child about z, parameter 2 belongs to a blend shape and parameter 3 to a face expression. -/
def exVert : ErrorBase where
  skeleton := ⟨[⟨"root", none, Quat.one, 0⟩, ⟨"child", some 0, ⟨0, 0, 0, 1⟩, ⟨1, 0, 0⟩⟩]⟩
  transform := ⟨14, 4, [⟨0, 0, 1⟩, ⟨12, 1, 1⟩]⟩
  weight := 1
  activeJointParams := (List.replicate 14 false).set 0 true |>.set 12 true
  enabledParameters := ParameterSet.all

def exVertTransform : ParameterTransform ℝ where
  name := ["tx", "rz", "shape", "face"]
  transform := exVert.transform
  offsets := List.replicate 14 0
  activeJointParams := []
  parameterSets := []
  poseConstraints := []
  blendShapeParameters := [2]
  faceExpressionParameters := [3]

theorem exVert_coeff (r i : Nat) : exVert.transform.coeff r i = if r = 0 ∧ i = 0 then 1 else if r = 12 ∧ i = 1 then 1 else 0 := by
  simp only [SparseMat.coeff, exVert, List.filter_cons, List.filter_nil]
  by_cases h1 : r = 0 ∧ i = 0
  · obtain ⟨rfl, rfl⟩ := h1; simp
  · by_cases h2 : r = 12 ∧ i = 1
    · obtain ⟨rfl, rfl⟩ := h2; simp
    · rw [if_neg h1, if_neg h2]
      have a : ¬ (0 = r ∧ 0 = i) := fun h => h1 ⟨h.1.symm, h.2.symm⟩
      have b : ¬ (12 = r ∧ 1 = i) := fun h => h2 ⟨h.1.symm, h.2.symm⟩
      simp [a, b]

theorem exVert_fits : exVert.Fits exVertTransform where
  skeleton := by
    intro j jt q h h2
    rcases j with _ | _ | j
    · cases h; cases h2
    · cases h; cases h2; omega
    · simp [exVert] at h
  unit := by
    intro jt h
    simp only [exVert, List.mem_cons, List.not_mem_nil, or_false] at h
    rcases h with rfl | rfl <;> simp [Quat.one, Quat.normSq]
  transform := rfl
  wf := by
    intro e h
    simp only [exVertTransform, exVert, List.mem_cons, List.not_mem_nil, or_false] at h
    rcases h with rfl | rfl <;> simp [exVertTransform, exVert]
  offs := by simp [exVertTransform, exVert]
  rows := by simp [exVertTransform, exVert]
  cols := by simp [exVertTransform, exVert, kMaxModelParams]
  activeLength := by simp [exVertTransform, exVert]
  active := by
    intro r i _ h
    have h : exVert.transform.coeff r i ≠ 0 := h
    rw [exVert_coeff] at h
    by_cases h1 : r = 0
    · subst h1; simp [exVert]
    · by_cases h2 : r = 12
      · subst h2; simp [exVert]
      · rw [if_neg (fun h => h1 h.1), if_neg (fun h => h2 h.1)] at h; exact absurd rfl h

/-- A triangle: the first vertex on the root, the second on both joints, the third on the root.  The blend shape lifts the
third vertex, the face expression the second, if they are there. -/
noncomputable def exVertSkin (blend face : Bool) : SkinnedCharacter where
  vertices := [0, ⟨1, 0, 0⟩, ⟨0, 1, 0⟩]
  normals := [⟨0, 0, 1⟩, ⟨0, 0, 1⟩, ⟨0, 0, 1⟩]
  faces := [(0, 1, 2)]
  skinWeights := [[(0, 1), (0, 0)], [(0, 1 / 2), (1, 1 / 2)], [(0, 1), (0, 0)]]
  inverseBindPose := [⟨Mat3.one, 0⟩, ⟨⟨-1, 0, 0, 0, -1, 0, 0, 0, 1⟩, ⟨1, 0, 0⟩⟩]
  blendShape := if blend then some ⟨[0, ⟨1, 0, 0⟩, ⟨0, 1, 0⟩], 3, [[0, 0, ⟨0, 0, 1⟩]]⟩ else none
  faceExpressionBlendShape := if face then some ⟨3, [[0, ⟨0, 0, 1⟩, 0]]⟩ else none
  blendShapeParameters := if blend then [2] else [-1]
  faceExpressionParameters := [3]

theorem exVertSkin_valid (blend face : Bool) : (exVertSkin blend face).Valid 2 4 where
  normals := rfl
  skin := rfl
  bind := rfl
  indices := by
    intro row h jw hjw
    simp only [exVertSkin, List.mem_cons, List.not_mem_nil, or_false] at h
    rcases h with rfl | rfl | rfl <;> simp only [List.mem_cons, List.not_mem_nil, or_false] at hjw <;>
      rcases hjw with rfl | rfl <;> simp
  first := by
    intro row h
    simp only [exVertSkin, List.mem_cons, List.not_mem_nil, or_false] at h
    rcases h with rfl | rfl | rfl <;> simp [WeightsFirst]
  nonneg := by
    intro row h jw hjw
    simp only [exVertSkin, List.mem_cons, List.not_mem_nil, or_false] at h
    rcases h with rfl | rfl | rfl <;> simp only [List.mem_cons, List.not_mem_nil, or_false] at hjw <;>
      rcases hjw with rfl | rfl <;> norm_num
  blend := by
    intro b h
    cases blend with
    | false => simp [exVertSkin] at h
    | true =>
      simp only [exVertSkin, if_true, Option.some.injEq] at h
      subst h
      refine ⟨⟨rfl, ?_⟩, rfl, by simp [exVertSkin]⟩
      intro sv hsv
      simp only [List.mem_cons, List.not_mem_nil, or_false] at hsv
      subst hsv; rfl
  blendParams := by
    intro q h
    cases blend <;> simp [exVertSkin] at h <;> subst h <;> norm_num
  face := by
    intro f h
    cases face with
    | false => simp [exVertSkin] at h
    | true =>
      simp only [exVertSkin, if_true, Option.some.injEq] at h
      subst h
      refine ⟨?_, rfl, by simp [exVertSkin]⟩
      intro sv hsv
      simp only [List.mem_cons, List.not_mem_nil, or_false] at hsv
      subst hsv; rfl
  faceParams := by
    intro q h
    simp [exVertSkin] at h
    subst h; norm_num

/-- The object after construction and one constraint. -/
noncomputable def exVertError (c : SkinnedCharacter) (type : VertexConstraintType) (k : VertexConstraint) : VertexError :=
  ⟨exVert, c, id, [k], c.vertices, (c.vertices, c.normals), (c.vertices, c.normals), type⟩

theorem exVert_reached {c : SkinnedCharacter} {type : VertexConstraintType} {k : VertexConstraint}
    (h : c.faceExpressionBlendShape = none ∨ type = .position) (hk : k.vertexIndex < c.vertices.length) :
    (exVertError c type k).Reached exVert c id type := by
  have h0 : VertexError.construct exVert c id type =
      some ⟨exVert, c, id, [], c.vertices, (c.vertices, c.normals), (c.vertices, c.normals), type⟩ := by
    unfold VertexError.construct
    rw [if_neg]
    rintro ⟨h1, h2⟩
    rcases h with h | h
    · rw [h] at h1; cases h1
    · exact h2 h
  refine VertexError.Reached.add (k := k) (VertexError.Reached.new h0) ?_
  unfold VertexError.addConstraint
  rw [if_pos (by exact hk)]
  rfl

/-- The hypotheses of `C68_gradient` and `C68_jacobian` are met by a vertex on two joints, with a blend shape and a face
expression. -/
example : ∃ k : VertexConstraint, k.vertexIndex = 1 ∧ 0 ≤ k.weight ∧
    (exVertError (exVertSkin true true) .position k).Reached exVert (exVertSkin true true) id .position ∧
    (exVertError (exVertSkin true true) .position k).Fits exVertTransform ∧
    (exVertSkin true true).Valid (exVertError (exVertSkin true true) .position k).skeleton.joints.length
      exVertTransform.transform.cols ∧
    FullSchedule (exVertSkin true true) (fun _ _ => [2, 0, 1]) ∧
    ∀ i < 4, (exVertError (exVertSkin true true) .position k).enabledParameters.mem i = true := by
  refine ⟨⟨1, 2, ⟨5, 6, 7⟩, ⟨0, 0, 1⟩⟩, rfl, by norm_num, exVert_reached (Or.inr rfl) (by simp [exVertSkin]), exVert_fits,
    exVertSkin_valid true true, fun _ _ => by simp only [exVertSkin]; decide, fun i hi => ?_⟩
  have hi : i < kMaxModelParams := lt_trans hi (by norm_num [kMaxModelParams])
  simp [exVertError, exVert, ParameterSet.all, ParameterSet.mem, hi]

/-- Those of `C68_plane_jacobian` too. -/
example : ∃ k : VertexConstraint, k.vertexIndex = 1 ∧ 0 ≤ k.weight ∧
    (exVertError (exVertSkin true false) .plane k).Reached exVert (exVertSkin true false) id .plane ∧
    (exVertError (exVertSkin true false) .plane k).Fits exVertTransform ∧
    ((exVertSkin true false).blendShape = none → ∀ q ∈ (exVertSkin true false).blendShapeParameters, q < 0) :=
  ⟨⟨1, 2, ⟨5, 6, 7⟩, ⟨0, 0, 1⟩⟩, rfl, by norm_num, exVert_reached (Or.inl rfl) (by simp [exVertSkin]), exVert_fits,
    fun h => by simp [exVertSkin] at h⟩

/-! ## The states -/

/-- The joint parameters for the model parameters `[x, t, a, b]`. -/
theorem exVert_apply (x t a b : ℝ) : exVertTransform.apply [x, t, a, b] =
    some [x, 0, 0, 0, 0, 0, 0, 0, 0, 0, 0, 0, t, 0] := by
  simp [ParameterTransform.apply, exVertTransform, exVert, addVec, SparseMat.mulVec, List.range, List.range.loop,
    List.replicate, List.filter_cons]

/-- The transforms of the joints, and the axis of the second model parameter. -/
theorem exVert_state (x t a b : ℝ) (cd : Bool) : ∃ j0 j1, exVert.stateFor exVertTransform [x, t, a, b] cd = some [j0, j1] ∧
    j0.transform = ⟨Quat.one, ⟨x, 0, 0⟩, 1⟩ ∧
    j1.transform = ⟨⟨-Real.sin (t / 2), 0, 0, Real.cos (t / 2)⟩, ⟨1 + x, 0, 0⟩, 1⟩ ∧
    (cd = true → j1.rotationAxis 2 = ⟨0, 0, 1⟩) := by
  unfold ErrorBase.stateFor
  rw [exVert_apply]
  simp only [Option.bind_some]
  refine ⟨_, _, by simp only [skeletonState, exVert]; rfl, ?_, ?_, ?_⟩
  · rw [set_unrotated _ _ _ _ _ _ (by rfl) (by rfl) (by rfl)]
    ext <;> simp [jointSlice, Transform.one, Quat.one, Quat.rotate, Quat.vec, Vec3.cross]
  · rw [set_transform, localTransform_of_parts]
    simp only [parentT]
    rw [set_unrotated _ _ _ _ _ _ (by rfl) (by rfl) (by rfl)]
    ext <;> simp [jointSlice, Transform.one, Quat.one, Quat.rotate, Quat.vec, Vec3.cross, Quat.angleAxis, Vec3.unitZ,
      Vec3.unitY, Vec3.unitX, add_comm]
  · intro h
    subst h
    rw [(set_rotationAxis _ _ _).1]
    simp only [parentT]
    rw [set_unrotated _ _ _ _ _ _ (by rfl) (by rfl) (by rfl)]
    ext <;> simp [jointSlice, Transform.one, Quat.one, Quat.rotate, Quat.vec, Vec3.cross, Vec3.unitZ]

/-! ## What fails -/

namespace VertexError

/-- If the code finds no change in the only constraint although its square changes, then the gradient is wrong. -/
theorem Curve.wrong {E : VertexError} {pt : ParameterTransform ℝ} {B : ErrorBase} {c : SkinnedCharacter}
    {sort : List BoneWeight → List BoneWeight} {type : VertexConstraintType} {p : Nat → ℝ} {i : Nat}
    {θ : ℝ → List ℝ} {S S' : ℝ → List JointState} {ch : Nat → List Nat} (hC : E.Curve pt B c sort type p i θ S S' ch)
    {sched : Fin 3 → (Nat → ℝ) → List Nat} (hsched : FullSchedule c sched) (hen : E.enabledParameters.mem i = true)
    {k : VertexConstraint} (hk : E.constraints = [k]) (hw : E.weight = 1) (hkw : k.weight = 1)
    (h0 : E.termVel c (paramVec pt.transform.cols p) (S (p i)) ch i k = 0) {d : ℝ} (hd : d ≠ 0)
    (h : HasDerivAt (fun u => E.term c ((paramVec pt.transform.cols p).set i u) (S u) k) d (p i)) :
    ((E.toErrorFunction pt sched).getGradient p).2 i = 0 ∧
    ¬ (E.toErrorFunction pt sched).GradientIsDerivative p i := by
  have hs := hC.state (p i)
  rw [set_self'] at hs
  have hS := hC.setting (p i)
  rw [set_self'] at hS
  obtain ⟨g, g1, g2⟩ := hS.gradient (hsched 1 p) fun _ => 0
  have hgr : ((E.toErrorFunction pt sched).getGradient p).2 = g := by
    simp only [VertexError.toErrorFunction, hs, Option.bind_some, g1, Option.map_some, Option.getD_some]
  have hg : g i = 0 := by rw [g2 i hen, hk]; simp [h0]
  refine ⟨by rw [hgr, hg], fun hgd => hd ?_⟩
  have hder := hgd.2
  rw [hgr, hg, funext fun u => hC.getError hsched u] at hder
  simp only [hk, List.map_cons, List.map_nil, List.sum_cons, List.sum_nil, add_zero, hw, hkw, one_mul] at hder
  have := (h.mul_const kVertexPositionWeight).unique hder
  have hkv : kVertexPositionWeight ≠ 0 := by unfold kVertexPositionWeight; norm_num
  exact (mul_eq_zero.mp this).resolve_right hkv

end VertexError

theorem srcVel_still (js : JointState) (n tgt y : Vec3 ℝ) : VertexError.srcVel js (fun _ => 0) n tgt y = 0 := by
  simp [VertexError.srcVel, jointSpin, Vec3.dot]

/-- The constraint of the first counterexample. -/
def exShapeConstraint : VertexConstraint := ⟨0, 1, ⟨0, 1, 1⟩, ⟨0, 0, 1⟩⟩

/-- The rest normal of the first vertex when the shape has the coefficient `u`. -/
theorem exVertSkin_normal (u : ℝ) : ((exVertSkin true false).restNormals [0, 0, u, 0]).getD 0 0 =
    (1 / Real.sqrt (u ^ 2 + 1)) • ⟨0, -u, 1⟩ := by
  have hv : (List.range (exVertSkin true false).vertices.length).map ((exVertSkin true false).restVertex [0, 0, u, 0]) =
      [0, ⟨1, 0, 0⟩, ⟨0, 1, u⟩] := by
    simp [exVertSkin, List.range, List.range.loop, SkinnedCharacter.restVertex, shapeOffset, shapeCoeff]
    ext <;> simp
  have hs : sumNormals (fun _ => false) ([0, ⟨1, 0, 0⟩, ⟨0, 1, u⟩] : List (Vec3 ℝ)) [(0, 1, 2)] =
      some [⟨0, -u, 1⟩, ⟨0, -u, 1⟩, ⟨0, -u, 1⟩] := by
    simp [sumNormals, addFace, faceInRange, edgeCross, addNormal, List.replicate]
  have hq : (⟨0, -u, 1⟩ : Vec3 ℝ).sqNorm = u ^ 2 + 1 := by simp [Vec3.sqNorm, Vec3.dot]; ring
  have hp : Real.sqrt (u ^ 2 + 1) ≠ 0 := (Real.sqrt_pos.mpr (by positivity)).ne'
  have hn : normalizeOrKeep ⟨0, -u, 1⟩ = (1 / Real.sqrt (u ^ 2 + 1)) • ⟨0, -u, 1⟩ := by
    simp only [normalizeOrKeep, hq]
    rw [if_pos hp]
    ext <;> simp [div_eq_inv_mul]
  simp only [SkinnedCharacter.restNormals, hv]
  rw [if_pos (by simp [exVertSkin])]
  rw [updateNormals, show (exVertSkin true false).faces = [(0, 1, 2)] from rfl, hs]
  simp [hn]

open VertexError in
/-- **C68** is false for constraints along the normal of a vertex when there is a blend shape: the normals are computed
from the shape, but the gradient leaves out that they turn with it.  Here the shape lifts one corner of a triangle, which
turns the normal at another corner; the derivative of the error is not zero, but the gradient is. -/
theorem C68_shape_gradient_wrong : ∃ (B : ErrorBase) (c : SkinnedCharacter) (E : VertexError) (pt : ParameterTransform ℝ),
    E.Reached B c id .normal ∧ E.Fits pt ∧ c.Valid E.skeleton.joints.length pt.transform.cols ∧ 2 < pt.transform.cols ∧
    E.enabledParameters.mem 2 = true ∧ ∀ sched, FullSchedule c sched →
      ((E.toErrorFunction pt sched).getGradient fun _ => 0).2 2 = 0 ∧
      ¬ (E.toErrorFunction pt sched).GradientIsDerivative (fun _ => 0) 2 := by
  have hm : exVert.enabledParameters.mem 2 = true := by simp [exVert, ParameterSet.all, ParameterSet.mem, kMaxModelParams]
  have hr := exVert_reached (c := exVertSkin true false) (type := .normal) (k := exShapeConstraint) (Or.inl rfl)
    (by simp [exVertSkin, exShapeConstraint])
  refine ⟨exVert, exVertSkin true false, exVertError (exVertSkin true false) .normal exShapeConstraint, exVertTransform, hr,
    exVert_fits, exVertSkin_valid true false, by simp [exVertTransform, exVert], hm, fun sched hsched => ?_⟩
  have hK := reached_kept rfl hr
  obtain ⟨θ, S, S', ch, hC⟩ := curve_exists hK exVert_fits (exVertSkin_valid true false) (fun l => List.Perm.refl _)
    (fun _ => 0) (i := 2) (by simp [exVertTransform, exVert])
  have hset : ∀ u, (paramVec exVertTransform.transform.cols fun _ => (0 : ℝ)).set 2 u = [0, 0, u, 0] := fun u => rfl
  have hst : ∀ u, ∃ j0 j1 : JointState, S u = [j0, j1] ∧ j0.transform = ⟨Quat.one, ⟨0, 0, 0⟩, 1⟩ := fun u => by
    obtain ⟨j0, j1, h1, h2, -⟩ := exVert_state 0 0 u 0 true
    have := hC.state u
    rw [hset] at this
    have e : (some [j0, j1] : Option (List JointState)) = some (S u) := h1.symm.trans this
    exact ⟨j0, j1, (Option.some.inj e).symm, h2⟩
  have hpos : ∀ u, (exVertSkin true false).posedVertex [0, 0, u, 0] (S u) 0 = 0 := fun u => by
    obtain ⟨j0, j1, h1, h2⟩ := hst u
    rw [h1]
    simp [SkinnedCharacter.posedVertex, SkinnedCharacter.restVertex, exVertSkin, worldAffines, h2, blended, movedBy,
      shapeOffset, Affine.apply, Transform.toAffine3, Mat3.mulVec]
    ext <;> simp
  have hnor : ∀ u, (exVertSkin true false).posedNormal [0, 0, u, 0] (S u) 0 = (1 / Real.sqrt (u ^ 2 + 1)) • ⟨0, -u, 1⟩ :=
    fun u => by
    obtain ⟨j0, j1, h1, h2⟩ := hst u
    have hp : 0 < u ^ 2 + 1 := by positivity
    have hs := Real.sqrt_pos.mpr hp
    have e : ∀ n : Vec3 ℝ, movedBy (worldAffines [j0, j1]) (exVertSkin true false).inverseBindPose n 0 = n := fun n => by
      simp [movedBy, worldAffines, h2, exVertSkin, Transform.toAffine3, Affine.apply, Transform.toLinear,
        Transform.toRotationMatrix, Quat.one, Quat.toMat, Mat3.smul, Mat3.one, Mat3.mulVec]
      rfl
    have hn : ((1 / Real.sqrt (u ^ 2 + 1)) • (⟨0, -u, 1⟩ : Vec3 ℝ)).sqNorm = 1 := by
      have := Real.mul_self_sqrt hp.le
      simp only [Vec3.sqNorm, Vec3.dot, Vec3.smul_x, Vec3.smul_y, Vec3.smul_z]
      field_simp
      nlinarith
    have hrow : (exVertSkin true false).skinWeights.getD 0 [] = [(0, 1), (0, 0)] := rfl
    rw [h1]
    unfold SkinnedCharacter.posedNormal
    rw [exVertSkin_normal, hrow]
    simp only [List.map_cons, List.map_nil, e, List.sum_cons, List.sum_nil]
    rw [show (1 : ℝ) • ((1 / Real.sqrt (u ^ 2 + 1)) • (⟨0, -u, 1⟩ : Vec3 ℝ) - 0) + ((0 : ℝ) • ((1 / Real.sqrt (u ^ 2 + 1)) •
      (⟨0, -u, 1⟩ : Vec3 ℝ) - 0) + 0) = (1 / Real.sqrt (u ^ 2 + 1)) • (⟨0, -u, 1⟩ : Vec3 ℝ) from by ext <;> simp]
    unfold Vec3.normalize
    rw [hn, if_pos one_pos]
    ext <;> simp
  refine hC.wrong hsched hm rfl rfl rfl ?_ (d := -2) (by norm_num) ?_
  · have hrate : ∀ a, ratesOf (fun r => (exVertError (exVertSkin true false) .normal exShapeConstraint).transform.coeff r 2) a =
        fun _ => 0 := fun a => by
      funext k
      show exVert.transform.coeff _ 2 = 0
      rw [exVert_coeff]; simp
    rw [termVel_normal (by simp [exVertError])]
    have hrest : (exVertSkin true false).restRate 2 0 = 0 := by
      simp [SkinnedCharacter.restRate, exVertSkin, shapeRate]
    have hz : ∀ l : List Nat, (l.map fun _ => (0 : ℝ)).sum = 0 := fun l => by simp
    simp only [distVel, srcSum, hrate, srcVel_still, hz, mul_zero]
    rw [show exShapeConstraint.vertexIndex = 0 from rfl, hrest, blendedNormal_zero]
    simp [exVertError, computeNormalWeights, Vec3.dot]
  · have hfun : (fun u => (exVertError (exVertSkin true false) .normal exShapeConstraint).term (exVertSkin true false)
        ((paramVec exVertTransform.transform.cols fun _ => (0 : ℝ)).set 2 u) (S u) exShapeConstraint) = fun u =>
        (u - 1) ^ 2 / (u ^ 2 + 1) := by
      funext u
      have hp : 0 < u ^ 2 + 1 := by positivity
      have hs := Real.sqrt_pos.mpr hp
      have hsq := Real.mul_self_sqrt hp.le
      rw [term_normal (by simp [exVertError]), hset]
      simp only [distOf, computeNormalWeights, exVertError, exShapeConstraint, hpos, hnor]
      simp only [Vec3.dot, Vec3.sub_x, Vec3.sub_y, Vec3.sub_z, Vec3.add_x, Vec3.add_y, Vec3.add_z,
        Vec3.smul_x, Vec3.smul_y, Vec3.smul_z, Vec3.zero_x, Vec3.zero_y, Vec3.zero_z]
      rw [eq_div_iff hp.ne']
      have hi : (1 / Real.sqrt (u ^ 2 + 1)) ^ 2 * (u ^ 2 + 1) = 1 := by
        rw [div_pow, Real.sq_sqrt hp.le]; field_simp
      calc _ = (u - 1) ^ 2 * ((1 / Real.sqrt (u ^ 2 + 1)) ^ 2 * (u ^ 2 + 1)) := by ring
        _ = _ := by rw [hi, mul_one]
    rw [hfun]
    have h1 : HasDerivAt (fun u : ℝ => (u - 1) ^ 2) (2 * (0 - 1)) 0 := by
      exact (((hasDerivAt_id (0 : ℝ)).sub_const 1).pow 2).congr_deriv (by norm_num)
    have h2 : HasDerivAt (fun u : ℝ => u ^ 2 + 1) 0 0 := by simpa using (hasDerivAt_pow 2 (0 : ℝ)).add_const 1
    exact (h1.div h2 (by norm_num)).congr_deriv (by norm_num)

/-- One vertex carried half by the root and half by the child, with a normal that is not along the axis of the child. -/
noncomputable def exTwoBones : SkinnedCharacter where
  vertices := [0]
  normals := [⟨3 / 5, 0, 4 / 5⟩]
  faces := []
  skinWeights := [[(0, 1 / 2), (1, 1 / 2)]]
  inverseBindPose := [⟨Mat3.one, 0⟩, ⟨Mat3.one, 0⟩]
  blendShape := none
  faceExpressionBlendShape := none
  blendShapeParameters := []
  faceExpressionParameters := []

theorem exTwoBones_valid : exTwoBones.Valid 2 4 where
  normals := rfl
  skin := rfl
  bind := rfl
  indices := by
    intro row h jw hjw
    simp only [exTwoBones, List.mem_cons, List.not_mem_nil, or_false] at h
    subst h
    simp only [List.mem_cons, List.not_mem_nil, or_false] at hjw
    rcases hjw with rfl | rfl <;> simp
  first := by
    intro row h
    simp only [exTwoBones, List.mem_cons, List.not_mem_nil, or_false] at h
    subst h
    simp [WeightsFirst]
  nonneg := by
    intro row h jw hjw
    simp only [exTwoBones, List.mem_cons, List.not_mem_nil, or_false] at h
    subst h
    simp only [List.mem_cons, List.not_mem_nil, or_false] at hjw
    rcases hjw with rfl | rfl <;> norm_num
  blend := fun b h => by cases h
  blendParams := fun q h => by cases h
  face := fun b h => by cases h
  faceParams := fun q h => by cases h

/-- The constraint of the second counterexample. -/
noncomputable def exTwoConstraint : VertexConstraint := ⟨0, 1, ⟨1 / 2, 1, -1⟩, ⟨0, 0, 1⟩⟩

open VertexError in
/-- **C68** is false for constraints along the normal of a vertex that is carried by two joints: the gradient treats the
normal as if it turned with each of the joints, but it is normalised after blending.  Here the child turns, the blended
normal moves, the derivative of the error is not zero, but the gradient is. -/
theorem C68_two_bones_gradient_wrong : ∃ (B : ErrorBase) (c : SkinnedCharacter) (E : VertexError)
    (pt : ParameterTransform ℝ), E.Reached B c id .normal ∧ E.Fits pt ∧
    c.Valid E.skeleton.joints.length pt.transform.cols ∧ c.blendShape = none ∧ c.faceExpressionBlendShape = none ∧
    1 < pt.transform.cols ∧ E.enabledParameters.mem 1 = true ∧ ∀ sched, FullSchedule c sched →
      ((E.toErrorFunction pt sched).getGradient fun _ => 0).2 1 = 0 ∧
      ¬ (E.toErrorFunction pt sched).GradientIsDerivative (fun _ => 0) 1 := by
  have hm : exVert.enabledParameters.mem 1 = true := by simp [exVert, ParameterSet.all, ParameterSet.mem, kMaxModelParams]
  have hr := exVert_reached (c := exTwoBones) (type := .normal) (k := exTwoConstraint) (Or.inl rfl)
    (by simp [exTwoBones, exTwoConstraint])
  refine ⟨exVert, exTwoBones, exVertError exTwoBones .normal exTwoConstraint, exVertTransform, hr,
    exVert_fits, exTwoBones_valid, rfl, rfl, by simp [exVertTransform, exVert], hm, fun sched hsched => ?_⟩
  have hK := reached_kept rfl hr
  obtain ⟨θ, S, S', ch, hC⟩ := curve_exists hK exVert_fits exTwoBones_valid (fun l => List.Perm.refl _)
    (fun _ => 0) (i := 1) (by simp [exVertTransform, exVert])
  have hset : ∀ u, (paramVec exVertTransform.transform.cols fun _ => (0 : ℝ)).set 1 u = [0, u, 0, 0] := fun u => rfl
  have hst : ∀ u, ∃ j0 j1 : JointState, S u = [j0, j1] ∧ j0.transform = ⟨Quat.one, ⟨0, 0, 0⟩, 1⟩ ∧
      j1.transform = ⟨⟨-Real.sin (u / 2), 0, 0, Real.cos (u / 2)⟩, ⟨1 + 0, 0, 0⟩, 1⟩ ∧
      j1.rotationAxis 2 = ⟨0, 0, 1⟩ := fun u => by
    obtain ⟨j0, j1, h1, h2, h3, h4⟩ := exVert_state 0 u 0 0 true
    have := hC.state u
    rw [hset] at this
    have e : (some [j0, j1] : Option (List JointState)) = some (S u) := h1.symm.trans this
    exact ⟨j0, j1, (Option.some.inj e).symm, h2, h3, h4 rfl⟩
  have hsc : ∀ u : ℝ, Real.sin (u / 2) * Real.sin (u / 2) + Real.cos (u / 2) * Real.cos (u / 2) = 1 := fun u => by
    have := Real.sin_sq_add_cos_sq (u / 2); nlinarith
  have hsin : ∀ u : ℝ, Real.sin u = 2 * Real.sin (u / 2) * Real.cos (u / 2) := fun u => by
    rw [← Real.sin_two_mul]; congr 1; ring
  have hcos : ∀ u : ℝ, Real.cos u = 1 - 2 * Real.sin (u / 2) * Real.sin (u / 2) := fun u => by
    have h1 := Real.cos_two_mul (u / 2)
    rw [show 2 * (u / 2) = u from by ring] at h1
    have h2 := Real.sin_sq_add_cos_sq (u / 2)
    rw [h1]; nlinarith
  have e0 : ∀ u (n : Vec3 ℝ), movedBy (worldAffines (S u)) exTwoBones.inverseBindPose n 0 = n := fun u n => by
    obtain ⟨j0, j1, h1, h2, h3, h4⟩ := hst u
    rw [h1]
    simp [movedBy, worldAffines, h2, exTwoBones, Transform.toAffine3, Affine.apply, Transform.toLinear,
      Transform.toRotationMatrix, Quat.one, Quat.toMat, Mat3.smul, Mat3.one, Mat3.mulVec]
    rfl
  have e1 : ∀ u (n : Vec3 ℝ), movedBy (worldAffines (S u)) exTwoBones.inverseBindPose n 1 =
      ⟨-Real.cos u * n.x + Real.sin u * n.y + 1, -Real.sin u * n.x - Real.cos u * n.y, n.z⟩ := fun u n => by
    obtain ⟨j0, j1, h1, h2, h3, h4⟩ := hst u
    have hh := hsc u
    rw [h1]
    have : movedBy (worldAffines [j0, j1]) exTwoBones.inverseBindPose n 1 =
        (⟨j1.transform.toLinear, j1.transform.translation⟩ : Affine ℝ).apply ((⟨Mat3.one, 0⟩ : Affine ℝ).apply n) := rfl
    rw [this, h3, hsin u, hcos u]
    ext <;> simp [Affine.apply, Transform.toLinear, Transform.toRotationMatrix, Quat.toMat, Mat3.smul, Mat3.one, Mat3.mulVec]
    · linear_combination (-2 * n.x) * hh
    · linear_combination (-2 * n.y) * hh
  have hrow : exTwoBones.skinWeights.getD 0 [] = [(0, 1 / 2), (1, 1 / 2)] := rfl
  have hpos : ∀ u, exTwoBones.posedVertex [0, u, 0, 0] (S u) 0 = ⟨1 / 2, 0, 0⟩ := fun u => by
    unfold SkinnedCharacter.posedVertex blended
    rw [hrow]
    simp only [List.map_cons, List.map_nil, e0, e1, List.sum_cons, List.sum_nil]
    rw [show exTwoBones.restVertex [0, u, 0, 0] 0 = 0 from by
      simp [SkinnedCharacter.restVertex, exTwoBones]]
    ext <;> simp
  have hN : ∀ u, ∃ N : Vec3 ℝ, N = ⟨3 / 10 * (1 - Real.cos u), -(3 / 10 * Real.sin u), 4 / 5⟩ ∧ 0 < N.sqNorm ∧
      exTwoBones.posedNormal [0, u, 0, 0] (S u) 0 = (Real.sqrt N.sqNorm)⁻¹ • N := fun u => by
    have hp : 0 < (⟨3 / 10 * (1 - Real.cos u), -(3 / 10 * Real.sin u), 4 / 5⟩ : Vec3 ℝ).sqNorm := by
      simp only [Vec3.sqNorm, Vec3.dot]
      nlinarith [sq_nonneg (3 / 10 * (1 - Real.cos u)), sq_nonneg (3 / 10 * Real.sin u)]
    refine ⟨_, rfl, hp, ?_⟩
    unfold SkinnedCharacter.posedNormal
    rw [hrow]
    simp only [List.map_cons, List.map_nil, e0, e1, List.sum_cons, List.sum_nil]
    rw [show (exTwoBones.restNormals [0, u, 0, 0]).getD 0 0 = ⟨3 / 5, 0, 4 / 5⟩ from by
      simp [SkinnedCharacter.restNormals, exTwoBones]]
    have : (1 / 2 : ℝ) • ((⟨3 / 5, 0, 4 / 5⟩ : Vec3 ℝ) - 0) + ((1 / 2 : ℝ) • ((⟨-Real.cos u * (3 / 5) + Real.sin u * 0 + 1,
        -Real.sin u * (3 / 5) - Real.cos u * 0, 4 / 5⟩ : Vec3 ℝ) - ⟨-Real.cos u * (0 : Vec3 ℝ).x + Real.sin u * (0 : Vec3 ℝ).y + 1,
        -Real.sin u * (0 : Vec3 ℝ).x - Real.cos u * (0 : Vec3 ℝ).y, (0 : Vec3 ℝ).z⟩) + 0) =
        ⟨3 / 10 * (1 - Real.cos u), -(3 / 10 * Real.sin u), 4 / 5⟩ := by
      ext <;> simp <;> ring
    rw [this]
    unfold Vec3.normalize
    rw [if_pos hp]
  refine hC.wrong hsched hm rfl rfl rfl ?_ (d := 3 / 4) (by norm_num) ?_
  · rw [termVel_normal (by simp [exVertError])]
    obtain ⟨j0, j1, h1, h2, h3, h4⟩ := hst 0
    have hc1 : ch 1 = [1, 0] := (hC.chain 1 (by simp [exVertError, exVert])).unique
      (.cons (jt := ⟨"child", some 0, ⟨0, 0, 0, 1⟩, ⟨1, 0, 0⟩⟩) rfl (.cons (jt := ⟨"root", none, Quat.one, 0⟩) rfl .nil))
    have hc0 : ch 0 = [0] := (hC.chain 0 (by simp [exVertError, exVert])).unique
      (.cons (jt := ⟨"root", none, Quat.one, 0⟩) rfl .nil)
    have r0 : ratesOf (fun r => (exVertError exTwoBones .normal exTwoConstraint).transform.coeff r 1) 0 = fun _ => 0 := by
      funext k
      show exVert.transform.coeff _ 1 = 0
      rw [exVert_coeff]
      have := k.2
      rw [if_neg (by simp), if_neg (by simp; omega)]
    have r1 : ∀ k : Fin 7, ratesOf (fun r => (exVertError exTwoBones .normal exTwoConstraint).transform.coeff r 1) 1 k =
        if k = 5 then 1 else 0 := fun k => by
      show exVert.transform.coeff _ 1 = _
      rw [exVert_coeff]
      fin_cases k <;> simp
    obtain ⟨N, n1, n2, n3⟩ := hN 0
    have hn : ∃ z : ℝ, exTwoBones.posedNormal [0, 0, 0, 0] (S 0) 0 = ⟨0, 0, z⟩ := by
      refine ⟨(Real.sqrt N.sqNorm)⁻¹ * (4 / 5), ?_⟩
      rw [n3]
      subst n1
      ext <;> simp
    obtain ⟨z, hz⟩ := hn
    have hv : distVel (exVertError exTwoBones .normal exTwoConstraint) exTwoBones [0, 0, 0, 0] (S 0) ch 1 exTwoConstraint = 0 := by
      unfold distVel srcSum
      rw [show exTwoConstraint.vertexIndex = 0 from rfl, hrow, restRate_zero rfl rfl, blendedNormal_zero, hz]
      simp only [List.map_cons, List.map_nil, List.sum_cons, List.sum_nil, hc0, hc1, r0, srcVel_still]
      have hs : srcVel (stateAt (S 0) 1) (ratesOf (fun r => (exVertError exTwoBones .normal exTwoConstraint).transform.coeff r 1) 1)
          ⟨0, 0, z⟩ exTwoConstraint.targetPosition (movedBy (worldAffines (S 0)) exTwoBones.inverseBindPose
            (exTwoBones.restVertex [0, 0, 0, 0] 0) 1) = 0 := by
        rw [h1, show stateAt [j0, j1] 1 = j1 from rfl]
        unfold srcVel jointSpin
        simp only [r1, h4]
        simp [Vec3.dot, Vec3.cross]
      rw [hs]
      simp [exVertError, computeNormalWeights, Vec3.dot]
    have hpv : paramVec exVertTransform.transform.cols (fun _ => (0 : ℝ)) = [0, 0, 0, 0] := rfl
    rw [hpv, hv, mul_zero]
  · have hfun : (fun u => (exVertError exTwoBones .normal exTwoConstraint).term exTwoBones
        ((paramVec exVertTransform.transform.cols fun _ => (0 : ℝ)).set 1 u) (S u) exTwoConstraint) = fun u =>
        (3 / 10 * Real.sin u + 4 / 5) ^ 2 / ((3 / 10 * (1 - Real.cos u)) ^ 2 + (3 / 10 * Real.sin u) ^ 2 + 16 / 25) := by
      funext u
      obtain ⟨N, n1, n2, n3⟩ := hN u
      rw [term_normal (by simp [exVertError]), hset]
      simp only [distOf, computeNormalWeights, exVertError, exTwoConstraint, hpos, n3]
      have hq : N.sqNorm = (3 / 10 * (1 - Real.cos u)) ^ 2 + (3 / 10 * Real.sin u) ^ 2 + 16 / 25 := by
        rw [n1]; simp only [Vec3.sqNorm, Vec3.dot]; ring
      have hi : (Real.sqrt N.sqNorm)⁻¹ ^ 2 * N.sqNorm = 1 := by
        rw [inv_pow, Real.sq_sqrt n2.le]; exact inv_mul_cancel₀ n2.ne'
      rw [← hq, eq_div_iff n2.ne']
      have hx : N.x = 3 / 10 * (1 - Real.cos u) := by rw [n1]
      have hy : N.y = -(3 / 10 * Real.sin u) := by rw [n1]
      have hz : N.z = 4 / 5 := by rw [n1]
      simp only [Vec3.dot, Vec3.sub_x, Vec3.sub_y, Vec3.sub_z, Vec3.add_x, Vec3.add_y, Vec3.add_z,
        Vec3.smul_x, Vec3.smul_y, Vec3.smul_z, hx, hy, hz]
      calc _ = (3 / 10 * Real.sin u + 4 / 5) ^ 2 * ((Real.sqrt N.sqNorm)⁻¹ ^ 2 * N.sqNorm) := by ring
        _ = _ := by rw [hi, mul_one]
    rw [hfun]
    have h1 : HasDerivAt (fun u : ℝ => (3 / 10 * Real.sin u + 4 / 5) ^ 2) (12 / 25) 0 := by
      refine ((((Real.hasDerivAt_sin (0 : ℝ)).const_mul (3 / 10)).add_const (4 / 5)).pow 2).congr_deriv ?_
      norm_num
    have h2 : HasDerivAt (fun u : ℝ => (3 / 10 * (1 - Real.cos u)) ^ 2 + (3 / 10 * Real.sin u) ^ 2 + 16 / 25) 0 0 := by
      refine ((((((Real.hasDerivAt_cos (0 : ℝ)).const_sub 1).const_mul (3 / 10)).pow 2).add
        (((Real.hasDerivAt_sin (0 : ℝ)).const_mul (3 / 10)).pow 2)).add_const (16 / 25)).congr_deriv ?_
      norm_num
    exact (h1.div h2 (by norm_num)).congr_deriv (by norm_num)

/-- Without a blend shape, the loop over its parameters fails at the first parameter there is. -/
theorem VertexError.shapeLoop_none {σ : Type} (E : VertexError) (st : List JointState) (idx : Nat)
    (emit : Nat → Vec3 ℝ → σ → Option σ) (l : List (Nat × Int)) (h : ∃ kp ∈ l, 0 ≤ kp.2) (s : σ) :
    l.foldlM (E.shapeStep st idx none emit) s = none := by
  induction l generalizing s with
  | nil => obtain ⟨_, h, _⟩ := h; cases h
  | cons kp l ih =>
    simp only [List.foldlM_cons]
    by_cases h0 : kp.2 < 0
    · rw [show E.shapeStep st idx none emit s kp = some s from if_pos h0]
      obtain ⟨kq, hq, hq0⟩ := h
      rcases List.mem_cons.mp hq with rfl | hq
      · omega
      · exact ih ⟨kq, hq, hq0⟩ s
    · rw [show E.shapeStep st idx none emit s kp = none from if_neg h0]
      rfl

open VertexError in
/-- **C68**, what fails: `getJacobian` reads the blend shape without asking whether there is one.  Whenever the character has
a parameter for a blend shape but no blend shape, and there is a constraint along a normal, it dereferences a null pointer,
while the gradient is computed (`C68_returns`). -/
theorem C68_missing_blend_shape (B : ErrorBase) (c : SkinnedCharacter) (sort : List BoneWeight → List BoneWeight)
    (type : VertexConstraintType) (htype : type ≠ .position) (E : VertexError) (hE : E.Reached B c sort type)
    (hb : c.blendShape = none) (q : Int) (hq : q ∈ c.blendShapeParameters) (hq0 : 0 ≤ q) (hk : E.constraints ≠ [])
    (order : List Nat) (p : List ℝ) (st : List JointState) (hok : c.CallOk order p st) (n : Nat) (J : Nat → Nat → ℝ)
    (r : Nat → ℝ) : E.getJacobian order p st n J r = none := by
  have hK := reached_kept hok.2.normals hE
  unfold VertexError.getJacobian
  split_ifs with h
  · rfl
  rw [updateMeshes_eq hK hok.2 hok.1]
  simp only [Option.bind_eq_bind, Option.bind_some]
  obtain ⟨k, l, hl⟩ := List.exists_cons_of_ne_nil hk
  have hcon : (E.posed c p st).constraints = k :: l := hl
  have hkind : (E.posed c p st).constraintType ≠ .position := by
    rw [show (E.posed c p st).constraintType = E.constraintType from rfl, hK.kind]; exact htype
  have hchar : (E.posed c p st).character = c := hK.char
  have hstep : ∀ s, (E.posed c p st).jacStep st n s (0, k) = none := by
    intro s
    have hj : (E.posed c p st).normalJacobian st 0 s k = none := by
      unfold VertexError.normalJacobian
      simp only [Option.bind_eq_bind, hchar, hb, Option.map_none]
      have hlp : ∀ (emit : Nat → Vec3 ℝ → (Nat → Nat → ℝ) → Option (Nat → Nat → ℝ)) J', (E.posed c p st).shapeLoop st k.vertexIndex none
          c.blendShapeParameters emit J' = none := by
        intro emit J'
        unfold VertexError.shapeLoop
        refine shapeLoop_none _ _ _ _ _ ?_ _
        obtain ⟨t, ht, hte⟩ := List.mem_iff_getElem.mp hq
        exact ⟨(t, q), List.mem_iff_getElem.mpr ⟨t, by simpa using ht, by simp [hte]⟩, hq0⟩
      simp only [hlp, Option.bind_none, Option.bind_fun_none]
    unfold VertexError.jacStep
    cases e : (E.posed c p st).constraintType with
    | position => exact absurd e hkind
    | plane => simp only [hj, ite_self]
    | normal => simp only [hj, ite_self]
    | symmetricNormal => simp only [hj, ite_self]
  rw [hcon]
  simp only [List.mapIdx_cons, List.foldlM_cons, hstep]
  rfl

/-- A character with a parameter for a blend shape but without one; the gradient is there, the Jacobian is not. -/
noncomputable def exNoShape : SkinnedCharacter := { exTwoBones with blendShapeParameters := [2] }

open VertexError in
example : ∃ E : VertexError, E.Reached exVert exNoShape id .plane ∧ E.constraints ≠ [] ∧ ∀ p : List ℝ, p.length = 4 → ∀ st,
    exVert.stateFor exVertTransform p true = some st → exNoShape.CallOk [0] p st ∧
    (E.getJacobian [0] p st E.getJacobianSize (fun _ _ => 0) fun _ => 0) = none := by
  have hr := exVert_reached (c := exNoShape) (type := .plane) (k := exTwoConstraint) (Or.inl rfl)
    (by simp [exNoShape, exTwoBones, exTwoConstraint])
  have hv : exNoShape.Valid 2 4 := { exTwoBones_valid with
    blend := fun b h => by cases h
    blendParams := fun q h => by
      simp [exNoShape] at h
      subst h; norm_num }
  refine ⟨_, hr, by simp [exVertError], fun p hp st hst => ?_⟩
  have hok : exNoShape.CallOk [0] p st := by
    refine ⟨by simp [exNoShape, exTwoBones], ?_⟩
    obtain ⟨x, t, a, b, rfl⟩ : ∃ x t a b : ℝ, p = [x, t, a, b] := by
      match p, hp with
      | [x, t, a, b], _ => exact ⟨x, t, a, b, rfl⟩
    obtain ⟨j0, j1, h1, -⟩ := exVert_state x t a b true
    rw [h1] at hst
    cases hst
    exact hv
  exact ⟨hok, C68_missing_blend_shape _ _ _ _ (by simp) _ hr rfl 2 (by simp [exNoShape]) (by norm_num)
    (by simp [exVertError]) _ _ _ hok _ _ _⟩

/-- The hypotheses of `C68_normal_partial` are met by the first vertex of the triangle and a constraint along the mean of the
normals. -/
example : ∃ k : VertexConstraint, 0 ≤ k.weight ∧
    (exVertError (exVertSkin false false) .symmetricNormal k).Reached exVert (exVertSkin false false) id .symmetricNormal ∧
    (exVertError (exVertSkin false false) .symmetricNormal k).Fits exVertTransform ∧
    (exVertSkin false false).Valid exVert.skeleton.joints.length exVertTransform.transform.cols ∧
    (∀ q ∈ (exVertSkin false false).blendShapeParameters, q < 0) ∧ (exVertSkin false false).Rigid k.vertexIndex ∧
    ∀ x t a b st, exVert.stateFor exVertTransform [x, t, a, b] true = some st →
      ((exVertSkin false false).posedNormal [x, t, a, b] st k.vertexIndex).dot k.targetNormal ≠ 0 := by
  refine ⟨⟨0, 2, ⟨5, 6, 7⟩, ⟨0, 0, 1⟩⟩, by norm_num, exVert_reached (Or.inl rfl) (by simp [exVertSkin]), exVert_fits,
    exVertSkin_valid false false, by simp [exVertSkin], ⟨0, [(0, 0)], rfl, by simp⟩, fun x t a b st hst => ?_⟩
  obtain ⟨j0, j1, h1, h2, -⟩ := exVert_state x t a b true
  rw [h1] at hst
  cases hst
  have e : ∀ n : Vec3 ℝ, movedBy (worldAffines [j0, j1]) (exVertSkin false false).inverseBindPose n 0 = n + ⟨x, 0, 0⟩ := fun n => by
    simp [movedBy, worldAffines, h2, exVertSkin, Transform.toAffine3, Affine.apply, Transform.toLinear,
      Transform.toRotationMatrix, Quat.one, Quat.toMat, Mat3.smul, Mat3.one, Mat3.mulVec]
  unfold SkinnedCharacter.posedNormal
  rw [show (exVertSkin false false).skinWeights.getD 0 [] = [(0, 1), (0, 0)] from rfl,
    show ((exVertSkin false false).restNormals [x, t, a, b]).getD 0 0 = ⟨0, 0, 1⟩ from by
      simp [SkinnedCharacter.restNormals, exVertSkin]]
  simp only [List.map_cons, List.map_nil, e, List.sum_cons, List.sum_nil]
  rw [show (1 : ℝ) • ((⟨0, 0, 1⟩ : Vec3 ℝ) + ⟨x, 0, 0⟩ - (0 + ⟨x, 0, 0⟩)) + ((0 : ℝ) • ((⟨0, 0, 1⟩ : Vec3 ℝ) + ⟨x, 0, 0⟩ -
    (0 + ⟨x, 0, 0⟩)) + 0) = ⟨0, 0, 1⟩ from by ext <;> simp]
  simp [Vec3.normalize, Vec3.sqNorm, Vec3.dot]

end Momentum
