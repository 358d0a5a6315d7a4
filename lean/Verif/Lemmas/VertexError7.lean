import Verif.Lemmas.VertexError6

/-!
# The vertex error function along a motion of one parameter
-/

namespace Momentum
open Skeleton
namespace VertexError

theorem construct_kept {B : ErrorBase} {c : SkinnedCharacter} {sort : List BoneWeight → List BoneWeight}
    {type : VertexConstraintType} (hn : c.normals.length = c.vertices.length) {E : VertexError}
    (h : VertexError.construct B c sort type = some E) : E.Kept B c sort type := by
  unfold VertexError.construct at h
  by_cases hf : c.faceExpressionBlendShape.isSome ∧ type ≠ .position
  · rw [if_pos hf] at h; cases h
  · rw [if_neg hf] at h
    cases h
    refine ⟨rfl, rfl, rfl, rfl, rfl, rfl, fun _ _ => rfl, rfl, rfl, hn, by simp, fun h => ?_⟩
    by_contra hne
    exact hf ⟨h, hne⟩

section
variable {B : ErrorBase} {c : SkinnedCharacter} {sort : List BoneWeight → List BoneWeight} {type : VertexConstraintType}

theorem after_error {E E' : VertexError} (hK : E.Kept B c sort type) {o p st x} (ho : c.CallOk o p st)
    (h : E.getError o p st = some (x, E')) : E' = E.posed c p st := by
  rw [error_eq ho.1 hK ho.2] at h
  simp only [Option.some.injEq, Prod.mk.injEq] at h
  exact h.2.symm

theorem after_gradient {E E' : VertexError} (hK : E.Kept B c sort type) {o p st g x} (ho : c.CallOk o p st)
    (h : E.getGradient o p st g = some (x, E')) : E' = E.posed c p st := by
  unfold getGradient at h
  rw [updateMeshes_eq hK ho.2 ho.1] at h
  simp only [Option.bind_eq_bind, Option.bind_some, Option.bind_eq_some_iff, Option.some.injEq, Prod.mk.injEq] at h
  obtain ⟨s, -, -, h⟩ := h
  exact h.symm

theorem after_jacobian {E E' : VertexError} (hK : E.Kept B c sort type) {o p st n J r x} (ho : c.CallOk o p st)
    (h : E.getJacobian o p st n J r = some (x, E')) : E' = E.posed c p st := by
  unfold getJacobian at h
  split at h
  · cases h
  · rw [updateMeshes_eq hK ho.2 ho.1] at h
    simp only [Option.bind_eq_bind, Option.bind_some, Option.bind_eq_some_iff, Option.some.injEq, Prod.mk.injEq] at h
    obtain ⟨s, -, -, h⟩ := h
    exact h.symm

theorem reached_kept (hn : c.normals.length = c.vertices.length) {E : VertexError} (h : E.Reached B c sort type) :
    E.Kept B c sort type := by
  induction h with
  | new h => exact construct_kept hn h
  | configure w a e _ ih =>
    exact ⟨ih.skel, ih.trans, ih.char, ih.sorted, ih.kind, ih.neutral, ih.plain, ih.rest1, ih.posed1, ih.posed2, ih.index,
      ih.face⟩
  | clear _ ih =>
    exact ⟨ih.skel, ih.trans, ih.char, ih.sorted, ih.kind, ih.neutral, ih.plain, ih.rest1, ih.posed1, ih.posed2,
      by simp [clearConstraints], ih.face⟩
  | @add E k E' _ h ih =>
    unfold addConstraint at h
    by_cases hk : k.vertexIndex < E.character.vertices.length
    · rw [if_pos hk] at h
      cases h
      refine ⟨ih.skel, ih.trans, ih.char, ih.sorted, ih.kind, ih.neutral, ih.plain, ih.rest1, ih.posed1, ih.posed2, ?_,
        ih.face⟩
      intro k' hk'
      simp only [List.mem_append, List.mem_singleton] at hk'
      rcases hk' with hk' | rfl
      · exact ih.index k' hk'
      · rw [ih.char] at hk; exact hk
    · rw [if_neg hk] at h; cases h
  | error _ ho h ih => rw [after_error ih ho h]; exact posed_kept ih _ _
  | gradient _ ho h ih => rw [after_gradient ih ho h]; exact posed_kept ih _ _
  | jacobian _ ho h ih => rw [after_jacobian ih ho h]; exact posed_kept ih _ _

theorem facing_sq (x n t : Vec3 ℝ) : x.dot (facing n t) ^ 2 = x.dot t ^ 2 := by
  unfold facing
  split
  · simp [Vec3.dot]; ring
  · rfl

theorem term_measure {E : VertexError} (hK : E.Kept B c sort type) (p : List ℝ) (st : List JointState)
    (k : VertexConstraint) : E.term c p st k = k.measure type c p st := by
  rw [← hK.kind]
  unfold VertexConstraint.measure
  cases h : E.constraintType with
  | position => exact term_position h _ _ _ _
  | plane =>
    rw [term_normal (by rw [h]; simp)]
    simp only [distOf, computeNormalWeights, h]
    rw [← facing_sq _ (c.posedNormal p st k.vertexIndex) k.targetNormal]
    congr 2
    ext <;> simp
  | normal =>
    rw [term_normal (by rw [h]; simp)]
    simp only [distOf, computeNormalWeights, h]
    congr 2
    ext <;> simp
  | symmetricNormal =>
    rw [term_normal (by rw [h]; simp)]
    simp only [distOf, computeNormalWeights, h]
    congr 2
    rw [smul_add]
    rfl

end

theorem worldAffines_cd {st st' : List JointState} (h : st.length = st'.length)
    (hw : ∀ j, worldOf st (some j) = worldOf st' (some j)) : worldAffines st = worldAffines st' := by
  apply List.ext_getElem
  · simp [worldAffines, h]
  · intro j h1 h2
    simp only [worldAffines, List.length_map] at h1 h2
    have := hw j
    rw [← worldOf_stateAt h1, ← worldOf_stateAt h2, stateAt_eq (List.getElem?_eq_getElem h1),
      stateAt_eq (List.getElem?_eq_getElem h2)] at this
    simp [worldAffines, this]

theorem term_cd {st st' : List JointState} (h : worldAffines st = worldAffines st') (E : VertexError)
    (c : SkinnedCharacter) (p : List ℝ) (k : VertexConstraint) : E.term c p st k = E.term c p st' k := by
  unfold term resAt distOf SkinnedCharacter.posedVertex SkinnedCharacter.posedNormal
  rw [h]

/-- A curve of states along parameter `i`, and everything that is known of it. -/
structure Curve (E : VertexError) (pt : ParameterTransform ℝ) (B : ErrorBase) (c : SkinnedCharacter)
    (sort : List BoneWeight → List BoneWeight) (type : VertexConstraintType) (p : Nat → ℝ) (i : Nat)
    (θ : ℝ → List ℝ) (S S' : ℝ → List JointState) (ch : Nat → List Nat) : Prop where
  fits : E.Fits pt
  good : ∀ u, FKGood E.skeleton (θ u) true (S u)
  len : ∀ u, (S u).length = E.skeleton.joints.length
  rate : ∀ r t, HasDerivAt (fun u => (θ u).getD r 0) (pt.transform.coeff r i) t
  chain : ∀ j < E.skeleton.joints.length, Chain E.skeleton (some j) (ch j)
  state : ∀ u, E.stateFor pt ((paramVec pt.transform.cols p).set i u) true = some (S u)
  state' : ∀ u, E.stateFor pt ((paramVec pt.transform.cols p).set i u) false = some (S' u)
  same : ∀ u, worldAffines (S' u) = worldAffines (S u)
  len' : ∀ u, (S' u).length = E.skeleton.joints.length
  idx : i < pt.transform.cols
  setting : ∀ u, E.Setting pt B c sort type ((paramVec pt.transform.cols p).set i u) (S u) ch

theorem curve_exists {E : VertexError} {pt : ParameterTransform ℝ} {B : ErrorBase} {c : SkinnedCharacter}
    {sort : List BoneWeight → List BoneWeight} {type : VertexConstraintType} (hK : E.Kept B c sort type) (hF : E.Fits pt)
    (hc : c.Valid E.skeleton.joints.length pt.transform.cols) (hs : ∀ l, (sort l).Perm l) (p : Nat → ℝ) {i : Nat}
    (hi : i < pt.transform.cols) : ∃ θ S S' ch, E.Curve pt B c sort type p i θ S S' ch := by
  obtain ⟨θ, S, S', h1, h2, h3, h4, h5, h6, h7⟩ := ErrorBase.states_curve hF (p := paramVec pt.transform.cols p)
    (by simp [paramVec]) hi
  have hch : ∀ j, ∃ l, j < E.skeleton.joints.length → Chain E.skeleton (some j) l := by
    intro j
    by_cases hj : j < E.skeleton.joints.length
    · obtain ⟨l, hl⟩ := chain_exists hF.skeleton j hj
      exact ⟨l, fun _ => hl⟩
    · exact ⟨[], fun h => absurd h hj⟩
  choose ch hch using hch
  refine ⟨θ, S, S', ch, hF, h3, h4, h6, hch, h1, h2, fun u => worldAffines_cd (by rw [h4, h5]) fun j => (h7 u j).symm, h5,
    hi, fun u => ⟨hK, hF, h4 u, ErrorBase.clean_of_good (h3 u) (h4 u), hch, hs, ?_, ?_⟩⟩
  · rw [h4]; simpa [paramVec] using hc
  · simp [paramVec, hF.transform]

section
variable {E : VertexError} {pt : ParameterTransform ℝ} {B : ErrorBase} {c : SkinnedCharacter}
  {sort : List BoneWeight → List BoneWeight} {type : VertexConstraintType} {p : Nat → ℝ} {i : Nat}
  {θ : ℝ → List ℝ} {S S' : ℝ → List JointState} {ch : Nat → List Nat} (hC : E.Curve pt B c sort type p i θ S S' ch)

theorem set_self' (n : Nat) (p : Nat → ℝ) (i : Nat) : (paramVec n p).set i (p i) = paramVec n p := by
  unfold paramVec
  rw [← map_range_update, Function.update_eq_self]

include hC in
/-- How fast a vertex moves. -/
theorem Curve.vertex {idx : Nat} (hidx : idx < c.vertices.length) :
    HasVecDerivAt (fun u => c.posedVertex ((paramVec pt.transform.cols p).set i u) (S u) idx)
      (E.vertVel c (paramVec pt.transform.cols p) (S (p i)) ch i idx) (p i) := by
  have hval := (hC.setting (p i)).valid
  have hs : idx < c.skinWeights.length := by rw [hval.skin]; exact hidx
  have hm : c.skinWeights.getD idx [] ∈ c.skinWeights := by simp [hs]
  have hv := restVertex_deriv c (p := paramVec pt.transform.cols p) (i := i) (by simp [paramVec]; exact hC.idx) idx (p i)
  have := blended_deriv hC.fits.skeleton hC.fits.unit hC.good hC.len (fun r => hC.rate r (p i)) hC.chain
    (ibp := c.inverseBindPose) (by rw [hval.bind, hC.len]) (row := c.skinWeights.getD idx [])
    (fun jw hjw => by rw [← hC.len (p i)]; exact hval.indices _ hm jw hjw) hv
  refine this.congr_deriv' ?_
  unfold vertVel
  rw [set_self', hC.fits.transform]

/-- The gradient is the derivative once the square of every constraint has the derivative that the code computes. -/
theorem Curve.gradient (hC : E.Curve pt B c sort type p i θ S S' ch)
    (h : ∀ k ∈ E.constraints, HasDerivAt (fun u => E.term c ((paramVec pt.transform.cols p).set i u) (S u) k)
      (2 * E.termVel c (paramVec pt.transform.cols p) (S (p i)) ch i k) (p i)) :
    HasDerivAt (fun u => E.weight * (E.constraints.map fun k => k.weight *
        E.term c ((paramVec pt.transform.cols p).set i u) (S u) k * kVertexPositionWeight).sum)
      ((E.constraints.map fun k => k.weight * 2 * kVertexPositionWeight * E.weight *
        E.termVel c (paramVec pt.transform.cols p) (S (p i)) ch i k).sum) (p i) := by
  have := (hasDerivAt_list_sum E.constraints (fun k u => k.weight *
        E.term c ((paramVec pt.transform.cols p).set i u) (S u) k * kVertexPositionWeight)
      (fun k => k.weight * (2 * E.termVel c (paramVec pt.transform.cols p) (S (p i)) ch i k) * kVertexPositionWeight)
      (p i) fun k hk => ((h k hk).const_mul _).mul_const _).const_mul E.weight
  refine this.congr_deriv ?_
  rw [← list_sum_map_mul]
  congr 1
  refine List.map_congr_left fun k _ => ?_
  ring

include hC in
theorem Curve.position (ht : type = .position) {k : VertexConstraint} (hk : k ∈ E.constraints) (b : Nat) :
    HasDerivAt (fun u => E.resAt c ((paramVec pt.transform.cols p).set i u) (S u) k b)
      (E.velAt c (paramVec pt.transform.cols p) (S (p i)) ch i k b) (p i) := by
  have hK := (hC.setting 0).kept
  have ht' : E.constraintType = .position := by rw [hK.kind, ht]
  have hv := (hC.vertex (hK.index k hk)).sub (HasVecDerivAt.const k.targetPosition (p i))
  unfold resAt velAt
  rw [ht']
  simp only
  refine (hv.toFn ⟨b % 3, Nat.mod_lt _ (by norm_num)⟩).congr_deriv ?_
  congr 1
  ext <;> simp

theorem Curve.term_of_res (h : ∀ k ∈ E.constraints, ∀ b < E.blockSize,
      HasDerivAt (fun u => E.resAt c ((paramVec pt.transform.cols p).set i u) (S u) k b)
      (E.velAt c (paramVec pt.transform.cols p) (S (p i)) ch i k b) (p i)) {k : VertexConstraint} (hk : k ∈ E.constraints) :
    HasDerivAt (fun u => E.term c ((paramVec pt.transform.cols p).set i u) (S u) k)
      (2 * E.termVel c (paramVec pt.transform.cols p) (S (p i)) ch i k) (p i) := by
  unfold term termVel
  have := HasDerivAt.fun_sum (u := Finset.range E.blockSize) fun b hb =>
    (h k hk b (Finset.mem_range.1 hb)).pow 2
  refine this.congr_deriv ?_
  rw [Finset.mul_sum]
  refine Finset.sum_congr rfl fun b _ => ?_
  rw [set_self']
  push_cast
  ring

include hC in
/-- The distance along the target normal, with the normal turned as it is turned at the start. -/
theorem Curve.plane (ht : type = .plane) {k : VertexConstraint} (hk : k ∈ E.constraints) :
    HasDerivAt (fun u => (c.posedVertex ((paramVec pt.transform.cols p).set i u) (S u) k.vertexIndex -
        k.targetPosition).dot (facing (c.posedNormal (paramVec pt.transform.cols p) (S (p i)) k.vertexIndex) k.targetNormal))
      (E.distVel c (paramVec pt.transform.cols p) (S (p i)) ch i k) (p i) := by
  have hK := (hC.setting 0).kept
  have ht' : E.constraintType = .plane := by rw [hK.kind, ht]
  have hv := (hC.vertex (hK.index k hk)).sub (HasVecDerivAt.const k.targetPosition (p i))
  refine (hv.dot (HasVecDerivAt.const _ (p i))).congr_deriv ?_
  unfold distVel
  simp only [computeNormalWeights, ht']
  simp [Vec3.dot]; ring
end

end VertexError
end Momentum
