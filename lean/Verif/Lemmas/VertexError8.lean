import Verif.Lemmas.VertexError7
import Verif.Lemmas.CollisionError3

/-!
# The vertex error function along the normal of a vertex
-/

namespace Momentum
open Skeleton
namespace VertexError

theorem normalize_rotate {q : Quat ℝ} (hq : q.normSq = 1) {s : ℝ} (hs : 0 < s) (m : Vec3 ℝ) :
    (s • q.rotate m).normalize = q.rotate m.normalize := by
  have e : (s • q.rotate m).sqNorm = s ^ 2 * m.sqNorm := by
    rw [StateError.sqNorm_smul']
    have := Quat.dot_rotate hq m m
    simp only [Vec3.sqNorm, this]
  unfold Vec3.normalize
  rw [e]
  by_cases h : 0 < m.sqNorm
  · rw [if_pos h, if_pos (by positivity), Real.sqrt_mul (by positivity), Real.sqrt_sq hs.le, Quat.rotate_smul]
    ext <;> simp <;> field_simp
  · have h0 : ¬ 0 < s ^ 2 * m.sqNorm := by
      intro h1
      exact h (pos_of_mul_pos_right h1 (by positivity) |> fun h => h)
    rw [if_neg h, if_neg h0]
    have hm : m = 0 := by
      simp only [Vec3.sqNorm, Vec3.dot, not_lt] at h
      have hx : m.x = 0 := by nlinarith [mul_self_nonneg m.x, mul_self_nonneg m.y, mul_self_nonneg m.z]
      have hy : m.y = 0 := by nlinarith [mul_self_nonneg m.x, mul_self_nonneg m.y, mul_self_nonneg m.z]
      have hz : m.z = 0 := by nlinarith [mul_self_nonneg m.x, mul_self_nonneg m.y, mul_self_nonneg m.z]
      ext <;> simp [*]
    rw [hm, Quat.rotate_zero]
    ext <;> simp

theorem zeros_sum {α : Type} (zs : List (α × ℝ)) (h : ∀ z ∈ zs, z.2 = 0) (f : α → Vec3 ℝ) :
    (zs.map fun z => z.2 • f z.1).sum = 0 := by
  induction zs with
  | nil => rfl
  | cons z zs ih =>
    rw [List.map_cons, List.sum_cons, ih fun y hy => h y (by simp [hy]), h z (by simp)]
    ext <;> simp

theorem zeros_sum' {α : Type} (zs : List (α × ℝ)) (h : ∀ z ∈ zs, z.2 = 0) (f : α → ℝ) :
    (zs.map fun z => z.2 * f z.1).sum = 0 := by
  induction zs with
  | nil => rfl
  | cons z zs ih =>
    rw [List.map_cons, List.sum_cons, ih fun y hy => h y (by simp [hy]), h z (by simp)]
    simp

/-- The contribution of a joint is the derivative of the distance along a normal that turns with it. -/
theorem srcVel_eq (js : JointState) (r : Fin 7 → ℝ) (n tgt y : Vec3 ℝ) : srcVel js r n tgt y =
    n.dot (jointVel js r y) + ((jointSpin js r).cross n).dot (y - tgt) := by
  unfold srcVel jointVel
  generalize jointSpin js r = w
  generalize r 0 • js.translationAxis 0 + r 1 • js.translationAxis 1 + r 2 • js.translationAxis 2 = v
  simp [Vec3.dot, Vec3.cross]
  ring

theorem srcVel_sum (st : List JointState) (l : List Nat) (w : Nat → ℝ) (n tgt y : Vec3 ℝ) :
    (l.map fun a => srcVel (stateAt st a) (ratesOf w a) n tgt y).sum =
      n.dot (posVel st l w y) + ((spinOf st l w).cross n).dot (y - tgt) := by
  unfold posVel spinOf
  induction l with
  | nil => simp [Vec3.dot, Vec3.cross]
  | cons a l ih =>
    simp only [List.map_cons, List.sum_cons]
    rw [ih, srcVel_eq]
    generalize jointVel (stateAt st a) (ratesOf w a) y = v
    generalize jointSpin (stateAt st a) (ratesOf w a) = s
    generalize (l.map fun a => jointVel (stateAt st a) (ratesOf w a) y).sum = v'
    generalize (l.map fun a => jointSpin (stateAt st a) (ratesOf w a)).sum = s'
    simp [Vec3.dot, Vec3.cross]
    ring

section
variable {E : VertexError} {pt : ParameterTransform ℝ} {B : ErrorBase} {c : SkinnedCharacter}
  {sort : List BoneWeight → List BoneWeight} {type : VertexConstraintType} {p : Nat → ℝ} {i : Nat}
  {θ : ℝ → List ℝ} {S S' : ℝ → List JointState} {ch : Nat → List Nat} (hC : E.Curve pt B c sort type p i θ S S' ch)
  (hb : c.blendShape = none) (hf : c.faceExpressionBlendShape = none)

include hC hb hf in
/-- The normal of a vertex on one joint turns with the joint. -/
theorem Curve.normal {idx : Nat} (hidx : idx < c.vertices.length) {j : Nat} {zs : List (Nat × ℝ)}
    (hrow : c.skinWeights.getD idx [] = (j, 1) :: zs) (hzs : ∀ z ∈ zs, z.2 = 0) :
    HasVecDerivAt (fun u => c.posedNormal ((paramVec pt.transform.cols p).set i u) (S u) idx)
      ((spinOf (S (p i)) (ch j) fun r => E.transform.coeff r i).cross
        (c.posedNormal (paramVec pt.transform.cols p) (S (p i)) idx)) (p i) := by
  have hval := (hC.setting (p i)).valid
  have hs : idx < c.skinWeights.length := by rw [hval.skin]; exact hidx
  have hm : c.skinWeights.getD idx [] ∈ c.skinWeights := by simp [hs]
  have hj : j < E.skeleton.joints.length := by
    rw [← hC.len (p i)]; exact hval.indices _ hm (j, 1) (by rw [hrow]; simp)
  have hib : j < c.inverseBindPose.length := by rw [hval.bind, hC.len]; exact hj
  have hn : ∀ q, c.restNormals q = c.normals := fun q => by simp [SkinnedCharacter.restNormals, hb, hf]
  have key : ∀ u, c.posedNormal ((paramVec pt.transform.cols p).set i u) (S u) idx =
      (worldOf (S u) (some j)).rotation.rotate
        (c.inverseBindPose[j].linear.mulVec (c.normals.getD idx 0)).normalize := by
    intro u
    have hjs : j < (S u).length := by rw [hC.len]; exact hj
    obtain ⟨js, ib, e1, e2, e3⟩ := movedBy_state (st := S u) hjs hib (c.normals.getD idx 0)
    obtain ⟨js', ib', e1', e2', e3'⟩ := movedBy_state (st := S u) hjs hib (0 : Vec3 ℝ)
    rw [e1] at e1'; cases e1'
    rw [e2] at e2'; cases e2'
    rw [List.getElem?_eq_getElem hib] at e2; cases e2
    have hw : worldOf (S u) (some j) = js.transform := by rw [← worldOf_stateAt hjs, stateAt_eq e1]
    have hunit := ((hC.good u).worldOf_unit hC.fits.skeleton hC.fits.unit (some j))
    have hnn := scale_nonneg_of_good hC.fits.skeleton (hC.good u) (hC.len u) js (List.mem_of_getElem? e1)
    rw [hw] at hunit ⊢
    have hpos : 0 < js.transform.scale := lt_of_le_of_ne hnn (Ne.symm hunit.2)
    unfold SkinnedCharacter.posedNormal
    rw [hn, hrow, List.map_cons, List.sum_cons, zeros_sum zs hzs (fun a =>
      movedBy (worldAffines (S u)) c.inverseBindPose (c.normals.getD idx 0) a -
        movedBy (worldAffines (S u)) c.inverseBindPose 0 a), e3, e3']
    rw [← normalize_rotate hunit.1 hpos]
    congr 1
    rw [toAffine3_apply, toAffine3_apply]
    have : c.inverseBindPose[j].apply (c.normals.getD idx 0) =
        c.inverseBindPose[j].apply 0 + c.inverseBindPose[j].linear.mulVec (c.normals.getD idx 0) := by
      ext <;> simp [Affine.apply, Mat3.mulVec] <;> ring
    rw [this]
    simp only [Transform.transformPoint, Quat.rotate_smul, Quat.rotate_add]
    ext <;> simp <;> ring
  have h0 := key (p i)
  rw [set_self'] at h0
  rw [h0]
  simp only [key]
  have := chain_spin hC.fits.skeleton hC.fits.unit hC.good hC.len (fun r => hC.rate r (p i)) (hC.chain j hj)
    (c.inverseBindPose[j].linear.mulVec (c.normals.getD idx 0)).normalize
  rw [← hC.fits.transform] at this
  exact this

theorem restRate_zero (hb : c.blendShape = none) (hf : c.faceExpressionBlendShape = none) (i idx : Nat) :
    c.restRate i idx = 0 := by
  simp [SkinnedCharacter.restRate, hb, hf]

theorem blendedNormal_zero (w ibp : List (Affine ℝ)) (row : List (Nat × ℝ)) : blendedNormal w ibp row 0 = 0 := by
  unfold blendedNormal
  induction row with
  | nil => rfl
  | cons a l ih => rw [List.map_cons, List.sum_cons, ih]; ext <;> simp

include hC hb hf in
/-- The distance along the blend of the normals, the target normal turned as at the start. -/
theorem Curve.rigid {k : VertexConstraint} (hk : k ∈ E.constraints) (hr : c.Rigid k.vertexIndex) :
    HasDerivAt (fun u => (c.posedVertex ((paramVec pt.transform.cols p).set i u) (S u) k.vertexIndex -
        k.targetPosition).dot (E.computeNormalWeights.1 • c.posedNormal ((paramVec pt.transform.cols p).set i u) (S u)
          k.vertexIndex + E.computeNormalWeights.2 •
          facing (c.posedNormal (paramVec pt.transform.cols p) (S (p i)) k.vertexIndex) k.targetNormal))
      (E.distVel c (paramVec pt.transform.cols p) (S (p i)) ch i k) (p i) := by
  obtain ⟨j, zs, hrow, hzs⟩ := hr
  have hK := (hC.setting 0).kept
  have hv := (hC.vertex (hK.index k hk)).sub (HasVecDerivAt.const k.targetPosition (p i))
  have hn := (hC.normal hb hf (hK.index k hk) hrow hzs).const_smul E.computeNormalWeights.1
  have ht := HasVecDerivAt.const (E.computeNormalWeights.2 •
    facing (c.posedNormal (paramVec pt.transform.cols p) (S (p i)) k.vertexIndex) k.targetNormal) (p i)
  refine (hv.dot (hn.add ht)).congr_deriv ?_
  rw [set_self']
  have hy : c.posedVertex (paramVec pt.transform.cols p) (S (p i)) k.vertexIndex =
      movedBy (worldAffines (S (p i))) c.inverseBindPose (c.restVertex (paramVec pt.transform.cols p) k.vertexIndex) j := by
    unfold SkinnedCharacter.posedVertex blended
    rw [hrow, List.map_cons, List.sum_cons, zeros_sum zs hzs (fun a => movedBy (worldAffines (S (p i))) c.inverseBindPose
      (c.restVertex (paramVec pt.transform.cols p) k.vertexIndex) a)]
    ext <;> simp
  have hsrc : srcSum (S (p i)) ch (fun r => E.transform.coeff r i) c.inverseBindPose (c.skinWeights.getD k.vertexIndex [])
      (c.restVertex (paramVec pt.transform.cols p) k.vertexIndex)
      (c.posedNormal (paramVec pt.transform.cols p) (S (p i)) k.vertexIndex) k.targetPosition =
      (c.posedNormal (paramVec pt.transform.cols p) (S (p i)) k.vertexIndex).dot
        (E.vertVel c (paramVec pt.transform.cols p) (S (p i)) ch i k.vertexIndex) +
      ((spinOf (S (p i)) (ch j) fun r => E.transform.coeff r i).cross
        (c.posedNormal (paramVec pt.transform.cols p) (S (p i)) k.vertexIndex)).dot
          (c.posedVertex (paramVec pt.transform.cols p) (S (p i)) k.vertexIndex - k.targetPosition) := by
    unfold srcSum
    rw [hrow, List.map_cons, List.sum_cons, zeros_sum' zs hzs (fun a => ((ch a).map fun b =>
      srcVel (stateAt (S (p i)) b) (ratesOf (fun r => E.transform.coeff r i) b)
        (c.posedNormal (paramVec pt.transform.cols p) (S (p i)) k.vertexIndex) k.targetPosition
        (movedBy (worldAffines (S (p i))) c.inverseBindPose
          (c.restVertex (paramVec pt.transform.cols p) k.vertexIndex) a)).sum), srcVel_sum, ← hy]
    have hvel : E.vertVel c (paramVec pt.transform.cols p) (S (p i)) ch i k.vertexIndex =
        posVel (S (p i)) (ch j) (fun r => E.transform.coeff r i)
          (c.posedVertex (paramVec pt.transform.cols p) (S (p i)) k.vertexIndex) := by
      unfold vertVel skinVel
      rw [restRate_zero hb hf, blendedNormal_zero, hrow, List.map_cons, List.sum_cons, zeros_sum zs hzs (fun a =>
        posVel (S (p i)) (ch a) (fun r => E.transform.coeff r i) (movedBy (worldAffines (S (p i))) c.inverseBindPose
          (c.restVertex (paramVec pt.transform.cols p) k.vertexIndex) a)), ← hy]
      ext <;> simp
    rw [hvel]
    ring
  unfold distVel
  rw [hsrc, restRate_zero hb hf, blendedNormal_zero]
  generalize (spinOf (S (p i)) (ch j) fun r => E.transform.coeff r i).cross
        (c.posedNormal (paramVec pt.transform.cols p) (S (p i)) k.vertexIndex) = w
  generalize E.vertVel c (paramVec pt.transform.cols p) (S (p i)) ch i k.vertexIndex = v
  simp [Vec3.dot]
  ring

include hC hb hf in
/-- The residual of a constraint on one joint. -/
theorem Curve.rigid_res (ht : type ≠ .position) {k : VertexConstraint} (hk : k ∈ E.constraints)
    (hr : c.Rigid k.vertexIndex) (hside : type ≠ .normal →
      (c.posedNormal (paramVec pt.transform.cols p) (S (p i)) k.vertexIndex).dot k.targetNormal ≠ 0) (b : Nat) :
    HasDerivAt (fun u => E.resAt c ((paramVec pt.transform.cols p).set i u) (S u) k b)
      (E.velAt c (paramVec pt.transform.cols p) (S (p i)) ch i k b) (p i) := by
  have hK := (hC.setting 0).kept
  have hres : ∀ u, E.resAt c ((paramVec pt.transform.cols p).set i u) (S u) k b =
      E.distOf c ((paramVec pt.transform.cols p).set i u) (S u) k := by
    intro u
    unfold resAt
    cases h : E.constraintType with
    | position => exact absurd (by rw [← hK.kind, h]) ht
    | _ => rfl
  have hvel : E.velAt c (paramVec pt.transform.cols p) (S (p i)) ch i k b =
      E.distVel c (paramVec pt.transform.cols p) (S (p i)) ch i k := by
    unfold velAt
    cases h : E.constraintType with
    | position => exact absurd (by rw [← hK.kind, h]) ht
    | _ => rfl
  rw [hvel]
  simp only [hres]
  refine (hC.rigid hb hf hk hr).congr_of_eventuallyEq ?_
  by_cases hnormal : type = .normal
  · refine Filter.Eventually.of_forall fun u => ?_
    have : E.constraintType = .normal := by rw [hK.kind, hnormal]
    simp only [distOf, computeNormalWeights, this]
    congr 1
    ext <;> simp
  · obtain ⟨j, zs, hrow, hzs⟩ := hr
    have hn := hC.normal hb hf (hK.index k hk) hrow hzs
    have hd := (hn.dot (HasVecDerivAt.const k.targetNormal (p i))).continuousAt
    have hne := hside hnormal
    have hev : ∀ᶠ u in nhds (p i), facing (c.posedNormal ((paramVec pt.transform.cols p).set i u) (S u) k.vertexIndex)
        k.targetNormal = facing (c.posedNormal (paramVec pt.transform.cols p) (S (p i)) k.vertexIndex) k.targetNormal := by
      rcases lt_or_gt_of_ne hne with h | h
      · have := hd.eventually_lt (continuousAt_const (y := (0 : ℝ))) (by rw [set_self']; exact h)
        filter_upwards [this] with u hu
        unfold facing
        rw [if_pos h, if_pos hu]
      · have := (continuousAt_const (y := (0 : ℝ))).eventually_lt hd (by rw [set_self']; exact h)
        filter_upwards [this] with u hu
        unfold facing
        rw [if_neg (not_lt.2 h.le), if_neg (not_lt.2 (le_of_lt hu))]
    filter_upwards [hev] with u hu
    simp only [distOf, hu]
end

end VertexError
end Momentum
