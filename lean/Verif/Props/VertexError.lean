import Verif.Lemmas.VertexError8
import Verif.Props.StateError

/-!
# C68: the vertex error function
-/

namespace Momentum
open Skeleton

/-- The vertex error function as the solver function sees it (skeleton_solver_function.cpp:48-86,108-162): the parameters
`p 0, p 1, …`, the skeleton state computed from them, and zeros in the outputs.  `sched` gives the order in which the threads
process the vertices, which may differ from call to call. -/
noncomputable def VertexError.toErrorFunction (E : VertexError) (pt : ParameterTransform ℝ)
    (sched : Fin 3 → (Nat → ℝ) → List Nat) : ErrorFunction where
  weight := E.weight
  jacobianSize := E.getJacobianSize
  getError p := ((E.stateFor pt (paramVec pt.transform.cols p) false).bind fun st =>
    (E.getError (sched 0 p) (paramVec pt.transform.cols p) st).map (·.1)).getD 0
  getGradient p := ((E.stateFor pt (paramVec pt.transform.cols p) true).bind fun st =>
    (E.getGradient (sched 1 p) (paramVec pt.transform.cols p) st fun _ => 0).map (·.1)).getD (0, fun _ => 0)
  getJacobian p := ((E.stateFor pt (paramVec pt.transform.cols p) true).bind fun st =>
    (E.getJacobian (sched 2 p) (paramVec pt.transform.cols p) st E.getJacobianSize (fun _ _ => 0) fun _ => 0).map (·.1)).getD
      ⟨0, 0, fun _ _ => 0, fun _ => 0⟩

/-- Every order is an order of all vertices. -/
def FullSchedule (c : SkinnedCharacter) (sched : Fin 3 → (Nat → ℝ) → List Nat) : Prop :=
  ∀ k p, (sched k p).Perm (List.range c.vertices.length)

open VertexError in
/-- **C68**: whatever was done with the object before and however the threads are scheduled, the error is the weighted sum
of the squares that the constraints measure on the posed character: blend shape, face expression, then skinning. -/
theorem C68_error (B : ErrorBase) (c : SkinnedCharacter) (sort : List BoneWeight → List BoneWeight)
    (type : VertexConstraintType) (E : VertexError) (hE : E.Reached B c sort type) (order : List Nat) (p : List ℝ)
    (st : List JointState) (hok : c.CallOk order p st) :
    ∃ E', E.getError order p st =
      some (E.weight * (1 / 10000) * (E.constraints.map fun k => k.weight * k.measure type c p st).sum, E') := by
  have hK := reached_kept hok.2.normals hE
  refine ⟨E.posed c p st, (error_eq hok.1 hK hok.2).trans ?_⟩
  congr 2
  rw [mul_assoc, ← list_sum_map_mul (c := (1 / 10000 : ℝ))]
  congr 2
  refine List.map_congr_left fun k _ => ?_
  rw [term_measure hK, kVertexPositionWeight]
  ring

open VertexError in
/-- **C68**: evaluating the object leaves no trace: after any call, for any parameters and state, all three calls return
what they return on the object from before, with any schedule of the threads. -/
theorem C68_history (B : ErrorBase) (c : SkinnedCharacter) (sort : List BoneWeight → List BoneWeight)
    (type : VertexConstraintType) (E : VertexError) (hE : E.Reached B c sort type) (o₁ : List Nat) (p₁ : List ℝ)
    (st₁ : List JointState) (hok₁ : c.CallOk o₁ p₁ st₁) (E₁ : VertexError)
    (h : (∃ x, E.getError o₁ p₁ st₁ = some (x, E₁)) ∨ (∃ g x, E.getGradient o₁ p₁ st₁ g = some (x, E₁)) ∨
      ∃ n J r x, E.getJacobian o₁ p₁ st₁ n J r = some (x, E₁))
    (o o' : List Nat) (p : List ℝ) (st : List JointState) (hok : c.CallOk o p st) (hok' : c.CallOk o' p st) :
    E₁.getError o p st = E.getError o' p st ∧ (∀ g, E₁.getGradient o p st g = E.getGradient o' p st g) ∧
      ∀ n J r, E₁.getJacobian o p st n J r = E.getJacobian o' p st n J r := by
  have hK := reached_kept hok.2.normals hE
  have he : E₁ = E.posed c p₁ st₁ := by
    rcases h with ⟨x, h⟩ | ⟨g, x, h⟩ | ⟨n, J, r, x, h⟩
    · exact after_error hK hok₁ h
    · exact after_gradient hK hok₁ h
    · exact after_jacobian hK hok₁ h
  have hK₁ : E₁.Kept B c sort type := by rw [he]; exact posed_kept hK _ _
  have hu : E₁.updateMeshes o p st = E.updateMeshes o' p st := by
    rw [updateMeshes_eq hK₁ hok.2 hok.1, updateMeshes_eq hK hok'.2 hok'.1, he]; rfl
  have hcon : E₁.constraints = E.constraints := by rw [he]; rfl
  refine ⟨?_, fun g => ?_, fun n J r => ?_⟩
  · unfold getError; rw [hu]
  · unfold getGradient; rw [hu]
  · unfold getJacobian; rw [hu, hcon]

namespace VertexError

section
variable {E : VertexError} {pt : ParameterTransform ℝ} {B : ErrorBase} {c : SkinnedCharacter}
  {sort : List BoneWeight → List BoneWeight} {type : VertexConstraintType} {p : Nat → ℝ} {i : Nat}
  {θ : ℝ → List ℝ} {S S' : ℝ → List JointState} {ch : Nat → List Nat} (hC : E.Curve pt B c sort type p i θ S S' ch)
  {sched : Fin 3 → (Nat → ℝ) → List Nat} (hsched : FullSchedule c sched)

include hC hsched in
theorem Curve.getError (u : ℝ) : (E.toErrorFunction pt sched).getError (Function.update p i u) =
    E.weight * (E.constraints.map fun k => k.weight * E.term c ((paramVec pt.transform.cols p).set i u) (S u) k *
      kVertexPositionWeight).sum := by
  have hs := hC.state' u
  rw [← StateError.paramVec_update] at hs
  have hS := hC.setting u
  have hval : c.Valid (S' u).length ((paramVec pt.transform.cols p).set i u).length := by
    rw [hC.len', ← hC.len u]; exact hS.valid
  have := error_eq (hsched 0 (Function.update p i u)) hS.kept hval
  simp only [VertexError.toErrorFunction, hs, Option.bind_some]
  rw [StateError.paramVec_update, this]
  simp only [Option.map_some, Option.getD_some, term_cd (hC.same u)]

include hC hsched in
theorem Curve.isDerivative (hen : E.enabledParameters.mem i = true)
    (h : ∀ k ∈ E.constraints, HasDerivAt (fun u => E.term c ((paramVec pt.transform.cols p).set i u) (S u) k)
      (2 * E.termVel c (paramVec pt.transform.cols p) (S (p i)) ch i k) (p i)) :
    (E.toErrorFunction pt sched).GradientIsDerivative p i := by
  have hs := hC.state (p i)
  rw [set_self'] at hs
  have hS := hC.setting (p i)
  rw [set_self'] at hS
  obtain ⟨g, g1, g2⟩ := hS.gradient (hsched 1 p) fun _ => 0
  have hgr : (E.toErrorFunction pt sched).getGradient p = (E.weight * (E.constraints.map fun k => k.weight *
      E.term c (paramVec pt.transform.cols p) (S (p i)) k * kVertexPositionWeight).sum, g) := by
    simp only [VertexError.toErrorFunction, hs, Option.bind_some, g1, Option.map_some, Option.getD_some]
  have he := hC.getError hsched (p i)
  rw [Function.update_eq_self, set_self'] at he
  refine ⟨by rw [hgr, he], ?_⟩
  have hfun : (fun u => (E.toErrorFunction pt sched).getError (Function.update p i u)) = fun u =>
      E.weight * (E.constraints.map fun k => k.weight * E.term c ((paramVec pt.transform.cols p).set i u) (S u) k *
      kVertexPositionWeight).sum := funext fun u => hC.getError hsched u
  rw [hgr, hfun]
  simp only
  rw [g2 i hen, zero_add]
  exact hC.gradient h

include hC hsched in
/-- What `getJacobian` returns along the curve. -/
theorem Curve.jacobian (hbp : type ≠ .position → c.blendShape = none → ∀ q ∈ c.blendShapeParameters, q < 0)
    (hw : 0 ≤ E.weight) (hws : ∀ k ∈ E.constraints, 0 ≤ k.weight) (hen : E.enabledParameters.mem i = true) (u : ℝ) :
    ((E.toErrorFunction pt sched).getJacobian (Function.update p i u)).rows = E.getJacobianSize ∧
    ((E.toErrorFunction pt sched).getJacobian (Function.update p i u)).error =
      (E.toErrorFunction pt sched).getError (Function.update p i u) ∧
    ∀ j k, E.constraints[j]? = some k → ∀ b < E.blockSize,
      ((E.toErrorFunction pt sched).getJacobian (Function.update p i u)).residual (E.blockSize * j + b) =
        Real.sqrt (k.weight * kVertexPositionWeight * E.weight) *
          E.resAt c ((paramVec pt.transform.cols p).set i u) (S u) k b ∧
      ((E.toErrorFunction pt sched).getJacobian (Function.update p i u)).e i (E.blockSize * j + b) =
        Real.sqrt (k.weight * kVertexPositionWeight * E.weight) *
          E.velAt c ((paramVec pt.transform.cols p).set i u) (S u) ch i k b := by
  have hs := hC.state u
  have hw' : ∀ k ∈ E.constraints, 0 ≤ k.weight * kVertexPositionWeight * E.weight := fun k hk => by
    have := hws k hk
    unfold kVertexPositionWeight
    positivity
  obtain ⟨s, s1, s2, s3, s4⟩ := (hC.setting u).jacobian (hsched 2 (Function.update p i u)) hbp hw' (le_refl _)
    (fun _ _ => 0) (fun _ => 0)
  have hgj : (E.toErrorFunction pt sched).getJacobian (Function.update p i u) = s := by
    rw [← StateError.paramVec_update] at hs s1
    simp only [VertexError.toErrorFunction, hs, Option.bind_some, s1, Option.map_some, Option.getD_some]
  rw [hgj, hC.getError hsched]
  refine ⟨s2, s3, fun j k hj b hb => ?_⟩
  obtain ⟨t1, t2⟩ := s4 j k hj b hb
  exact ⟨t1, by rw [t2 i hen, zero_add]⟩

include hC hsched in
/-- The squares of the residuals add up to the error. -/
theorem Curve.squares (hbp : type ≠ .position → c.blendShape = none → ∀ q ∈ c.blendShapeParameters, q < 0)
    (hw : 0 ≤ E.weight) (hws : ∀ k ∈ E.constraints, 0 ≤ k.weight) (hen : E.enabledParameters.mem i = true) (u : ℝ) :
    (E.toErrorFunction pt sched).getError (Function.update p i u) = ∑ t ∈ Finset.range E.getJacobianSize,
      ((E.toErrorFunction pt sched).getJacobian (Function.update p i u)).residual t ^ 2 := by
  obtain ⟨-, -, h3⟩ := hC.jacobian hsched hbp hw hws hen u
  have hblk := sum_blocks (m := E.blockSize) E.constraints
    (fun t => ((E.toErrorFunction pt sched).getJacobian (Function.update p i u)).residual t ^ 2)
    (fun k => k.weight * kVertexPositionWeight * E.weight * E.term c ((paramVec pt.transform.cols p).set i u) (S u) k) (by
      intro j k hj
      have hk := List.mem_of_getElem? hj
      have hnn : 0 ≤ k.weight * kVertexPositionWeight * E.weight := by
        have := hws k hk
        unfold kVertexPositionWeight
        positivity
      unfold term
      rw [Finset.mul_sum, ← Fin.sum_univ_eq_sum_range (fun b => k.weight * kVertexPositionWeight * E.weight *
        E.resAt c ((paramVec pt.transform.cols p).set i u) (S u) k b ^ 2)]
      refine Finset.sum_congr rfl fun b _ => ?_
      rw [(h3 j k hj b b.2).1, mul_pow, Real.sq_sqrt hnn])
  rw [size_eq, hblk, hC.getError hsched, ← list_sum_map_mul]
  congr 1
  refine List.map_congr_left fun k _ => ?_
  ring

include hC hsched in
/-- The Jacobian is the derivative once every residual has the derivative that the code computes. -/
theorem Curve.jacobianIsDerivative
    (hbp : type ≠ .position → c.blendShape = none → ∀ q ∈ c.blendShapeParameters, q < 0)
    (hw : 0 ≤ E.weight) (hws : ∀ k ∈ E.constraints, 0 ≤ k.weight) (hen : E.enabledParameters.mem i = true)
    (h : ∀ k ∈ E.constraints, ∀ b < E.blockSize,
      HasDerivAt (fun u => E.resAt c ((paramVec pt.transform.cols p).set i u) (S u) k b)
      (E.velAt c (paramVec pt.transform.cols p) (S (p i)) ch i k b) (p i)) :
    (E.toErrorFunction pt sched).JacobianIsDerivative p i ∧
      ((E.toErrorFunction pt sched).getJacobian p).rows = (E.toErrorFunction pt sched).jacobianSize := by
  have hj := hC.jacobian hsched hbp hw hws hen
  have hp := hj (p i)
  rw [Function.update_eq_self, set_self'] at hp
  refine ⟨⟨hp.2.1, hp.1.le, fun u => by rw [(hj u).1, hp.1], fun u => ?_, fun t ht => ?_⟩, hp.1⟩
  · rw [hp.1]; exact hC.squares hsched hbp hw hws hen u
  · rw [hp.1, size_eq] at ht
    have hbs1 : 0 < E.blockSize := by unfold blockSize; cases E.constraintType <;> simp
    have hdm := Nat.div_add_mod t E.blockSize
    have hlt : t / E.blockSize < E.constraints.length := Nat.div_lt_of_lt_mul ht
    have hg : E.constraints[t / E.blockSize]? = some E.constraints[t / E.blockSize] := List.getElem?_eq_getElem hlt
    have hfun : (fun u => ((E.toErrorFunction pt sched).getJacobian (Function.update p i u)).residual t) = fun u =>
        Real.sqrt (E.constraints[t / E.blockSize].weight * kVertexPositionWeight * E.weight) *
          E.resAt c ((paramVec pt.transform.cols p).set i u) (S u) E.constraints[t / E.blockSize] (t % E.blockSize) := by
      funext u
      have := ((hj u).2.2 _ _ hg _ (Nat.mod_lt t hbs1)).1
      rwa [hdm] at this
    have he := (hp.2.2 _ _ hg _ (Nat.mod_lt t hbs1)).2
    rw [hdm] at he
    rw [hfun, he]
    exact (h _ (List.getElem_mem _) _ (Nat.mod_lt t hbs1)).const_mul _
end

end VertexError

open VertexError in
/-- **C68**, position and plane constraints: whatever was done with the object before and however the threads are scheduled,
the gradient is the derivative of the error in every enabled parameter: those that move joints, those of the blend shape
and those of the face expression. -/
theorem C68_gradient (B : ErrorBase) (c : SkinnedCharacter) (sort : List BoneWeight → List BoneWeight)
    (hsort : ∀ l, (sort l).Perm l) (type : VertexConstraintType) (htype : type = .position ∨ type = .plane)
    (E : VertexError) (hE : E.Reached B c sort type) (pt : ParameterTransform ℝ) (hF : E.Fits pt)
    (hc : c.Valid E.skeleton.joints.length pt.transform.cols) (sched : Fin 3 → (Nat → ℝ) → List Nat)
    (hsched : FullSchedule c sched) (p : Nat → ℝ) (i : Nat) (hi : i < pt.transform.cols)
    (hen : E.enabledParameters.mem i = true) : (E.toErrorFunction pt sched).GradientIsDerivative p i := by
  have hK := reached_kept hc.normals hE
  obtain ⟨θ, S, S', ch, hC⟩ := curve_exists hK hF hc hsort p hi
  refine hC.isDerivative hsched hen ?_
  rcases htype with ht | ht
  · exact fun k hk => Curve.term_of_res (fun k hk b _ => hC.position ht hk b) hk
  · intro k hk
    have ht' : E.constraintType = .plane := by rw [hK.kind, ht]
    have hn : E.constraintType ≠ .position := by rw [ht']; simp
    rw [termVel_normal hn]
    have := (hC.plane ht hk).pow 2
    have hfun : (fun u => E.term c ((paramVec pt.transform.cols p).set i u) (S u) k) = fun u =>
        ((c.posedVertex ((paramVec pt.transform.cols p).set i u) (S u) k.vertexIndex - k.targetPosition).dot
          (facing (c.posedNormal (paramVec pt.transform.cols p) (S (p i)) k.vertexIndex) k.targetNormal)) ^ 2 := by
      funext u
      rw [term_normal hn, facing_sq]
      rw [← facing_sq _ (c.posedNormal ((paramVec pt.transform.cols p).set i u) (S u) k.vertexIndex) k.targetNormal]
      simp only [distOf, computeNormalWeights, ht']
      congr 2
      ext <;> simp
    rw [hfun]
    refine this.congr_deriv ?_
    have hd : E.distOf c (paramVec pt.transform.cols p) (S (p i)) k =
        (c.posedVertex (paramVec pt.transform.cols p) (S (p i)) k.vertexIndex - k.targetPosition).dot
          (facing (c.posedNormal (paramVec pt.transform.cols p) (S (p i)) k.vertexIndex) k.targetNormal) := by
      simp only [distOf, computeNormalWeights, ht']
      congr 1
      ext <;> simp
    rw [hd, set_self']
    push_cast
    ring

open VertexError in
/-- **C68**, position constraints: the Jacobian is the derivative of the residuals in every enabled parameter, the squares
of the residuals add up to the error, and exactly the announced number of rows is filled. -/
theorem C68_jacobian (B : ErrorBase) (c : SkinnedCharacter) (sort : List BoneWeight → List BoneWeight)
    (hsort : ∀ l, (sort l).Perm l) (E : VertexError) (hE : E.Reached B c sort .position) (pt : ParameterTransform ℝ)
    (hF : E.Fits pt) (hc : c.Valid E.skeleton.joints.length pt.transform.cols)
    (sched : Fin 3 → (Nat → ℝ) → List Nat) (hsched : FullSchedule c sched) (hw : 0 ≤ E.weight)
    (hws : ∀ k ∈ E.constraints, 0 ≤ k.weight) (p : Nat → ℝ) (i : Nat) (hi : i < pt.transform.cols)
    (hen : E.enabledParameters.mem i = true) : (E.toErrorFunction pt sched).JacobianIsDerivative p i ∧
      ((E.toErrorFunction pt sched).getJacobian p).rows = (E.toErrorFunction pt sched).jacobianSize := by
  have hK := reached_kept hc.normals hE
  obtain ⟨θ, S, S', ch, hC⟩ := curve_exists hK hF hc hsort p hi
  exact hC.jacobianIsDerivative hsched (fun h => absurd rfl h) hw hws hen fun k hk b _ => hC.position rfl hk b

open VertexError in
/-- **C68**, plane constraints: exactly the announced number of rows is filled, `getJacobian` reports the error of
`getError`, the squares of the residuals add up to it, and every row of the Jacobian is the derivative of its residual up
to the side to which the target normal is turned, which changes the residual by its sign only.  If there are parameters
for a blend shape, the blend shape must be there too: see `C68_missing_blend_shape`. -/
theorem C68_plane_jacobian (B : ErrorBase) (c : SkinnedCharacter) (sort : List BoneWeight → List BoneWeight)
    (hsort : ∀ l, (sort l).Perm l) (E : VertexError) (hE : E.Reached B c sort .plane) (pt : ParameterTransform ℝ)
    (hF : E.Fits pt) (hc : c.Valid E.skeleton.joints.length pt.transform.cols)
    (hshape : c.blendShape = none → ∀ q ∈ c.blendShapeParameters, q < 0)
    (sched : Fin 3 → (Nat → ℝ) → List Nat) (hsched : FullSchedule c sched) (hw : 0 ≤ E.weight)
    (hws : ∀ k ∈ E.constraints, 0 ≤ k.weight) (p : Nat → ℝ) (i : Nat) (hi : i < pt.transform.cols)
    (hen : E.enabledParameters.mem i = true) :
    ((E.toErrorFunction pt sched).getJacobian p).rows = (E.toErrorFunction pt sched).jacobianSize ∧
    ((E.toErrorFunction pt sched).getJacobian p).error = (E.toErrorFunction pt sched).getError p ∧
    (E.toErrorFunction pt sched).getError p = ∑ t ∈ Finset.range (E.toErrorFunction pt sched).jacobianSize,
      ((E.toErrorFunction pt sched).getJacobian p).residual t ^ 2 ∧
    ∀ t < (E.toErrorFunction pt sched).jacobianSize, ∃ f : ℝ → ℝ,
      HasDerivAt f (((E.toErrorFunction pt sched).getJacobian p).e i t) (p i) ∧
      f (p i) = ((E.toErrorFunction pt sched).getJacobian p).residual t ∧
      ∀ u, ((E.toErrorFunction pt sched).getJacobian (Function.update p i u)).residual t = f u ∨
        ((E.toErrorFunction pt sched).getJacobian (Function.update p i u)).residual t = -f u := by
  have hK := reached_kept hc.normals hE
  obtain ⟨θ, S, S', ch, hC⟩ := curve_exists hK hF hc hsort p hi
  have hj := hC.jacobian hsched (fun _ => hshape) hw hws hen
  have hp := hj (p i)
  rw [Function.update_eq_self, set_self'] at hp
  have hsq := hC.squares hsched (fun _ => hshape) hw hws hen (p i)
  rw [Function.update_eq_self] at hsq
  refine ⟨hp.1, hp.2.1, hsq, fun t ht => ?_⟩
  have ht' : E.constraintType = .plane := hK.kind
  have hbs : E.blockSize = 1 := by unfold blockSize; rw [ht']
  have ht : t < E.getJacobianSize := ht
  rw [size_eq, hbs, one_mul] at ht
  have hg : E.constraints[t]? = some E.constraints[t] := List.getElem?_eq_getElem ht
  have hres : ∀ q st, E.resAt c q st E.constraints[t] 0 = E.distOf c q st E.constraints[t] := fun q st => by
    unfold resAt; rw [ht']
  have hdist : ∀ q st, E.distOf c q st E.constraints[t] =
      (c.posedVertex q st E.constraints[t].vertexIndex - E.constraints[t].targetPosition).dot
        (facing (c.posedNormal q st E.constraints[t].vertexIndex) E.constraints[t].targetNormal) := fun q st => by
    simp only [distOf, computeNormalWeights, ht']
    congr 1
    ext <;> simp
  have hvel : E.velAt c (paramVec pt.transform.cols p) (S (p i)) ch i E.constraints[t] 0 =
      E.distVel c (paramVec pt.transform.cols p) (S (p i)) ch i E.constraints[t] := by unfold velAt; rw [ht']
  have e := hp.2.2 t _ hg 0 (by rw [hbs]; norm_num)
  rw [hbs, one_mul, add_zero, hres, hvel] at e
  refine ⟨fun u => Real.sqrt (E.constraints[t].weight * kVertexPositionWeight * E.weight) *
    (c.posedVertex ((paramVec pt.transform.cols p).set i u) (S u) E.constraints[t].vertexIndex -
      E.constraints[t].targetPosition).dot (facing (c.posedNormal (paramVec pt.transform.cols p) (S (p i))
        E.constraints[t].vertexIndex) E.constraints[t].targetNormal), ?_, ?_, fun u => ?_⟩
  · rw [e.2]
    exact (hC.plane rfl (List.getElem_mem _)).const_mul _
  · rw [e.1, hdist]
    simp only
    rw [set_self']
  · have eu := ((hj u).2.2 t _ hg 0 (by rw [hbs]; norm_num)).1
    rw [hbs, one_mul, add_zero, hres, hdist] at eu
    rw [eu]
    have hf : ∀ (n n' tn x : Vec3 ℝ), x.dot (facing n tn) = x.dot (facing n' tn) ∨
        x.dot (facing n tn) = -x.dot (facing n' tn) := by
      intro n n' tn x
      have : x.dot ((-1 : ℝ) • tn) = -x.dot tn := by simp [Vec3.dot]; ring
      unfold facing
      by_cases h1 : n.dot tn < 0 <;> by_cases h2 : n'.dot tn < 0 <;>
        simp only [h1, h2, if_true, if_false, this, neg_neg, true_or, or_true]
    rcases hf (c.posedNormal ((paramVec pt.transform.cols p).set i u) (S u) E.constraints[t].vertexIndex)
      (c.posedNormal (paramVec pt.transform.cols p) (S (p i)) E.constraints[t].vertexIndex) E.constraints[t].targetNormal
      (c.posedVertex ((paramVec pt.transform.cols p).set i u) (S u) E.constraints[t].vertexIndex -
        E.constraints[t].targetPosition) with h | h
    · left; rw [h]
    · right; rw [h]; ring

open VertexError in
/-- **C68**, constraints along the normals of the vertices: without shapes, for vertices carried by one joint, and with the
target normals not perpendicular to the normals of the vertices (if they matter), the gradient is the derivative of the
error and the Jacobian that of the residuals.  Missing: shapes and vertices carried by several
joints, for which the claim is false (`C68_shape_gradient_wrong`, `C68_two_bones_gradient_wrong`). -/
theorem C68_normal_partial (B : ErrorBase) (c : SkinnedCharacter) (sort : List BoneWeight → List BoneWeight)
    (hsort : ∀ l, (sort l).Perm l) (type : VertexConstraintType) (htype : type ≠ .position)
    (E : VertexError) (hE : E.Reached B c sort type) (pt : ParameterTransform ℝ) (hF : E.Fits pt)
    (hc : c.Valid E.skeleton.joints.length pt.transform.cols) (hb : c.blendShape = none)
    (hf : c.faceExpressionBlendShape = none) (hshape : ∀ q ∈ c.blendShapeParameters, q < 0)
    (hrigid : ∀ k ∈ E.constraints, c.Rigid k.vertexIndex)
    (sched : Fin 3 → (Nat → ℝ) → List Nat) (hsched : FullSchedule c sched) (hw : 0 ≤ E.weight)
    (hws : ∀ k ∈ E.constraints, 0 ≤ k.weight) (p : Nat → ℝ)
    (hside : type ≠ .normal → ∀ k ∈ E.constraints, ∀ st, E.stateFor pt (paramVec pt.transform.cols p) true = some st →
      (c.posedNormal (paramVec pt.transform.cols p) st k.vertexIndex).dot k.targetNormal ≠ 0)
    (i : Nat) (hi : i < pt.transform.cols) (hen : E.enabledParameters.mem i = true) :
    (E.toErrorFunction pt sched).GradientIsDerivative p i ∧ (E.toErrorFunction pt sched).JacobianIsDerivative p i ∧
      ((E.toErrorFunction pt sched).getJacobian p).rows = (E.toErrorFunction pt sched).jacobianSize := by
  have hK := reached_kept hc.normals hE
  obtain ⟨θ, S, S', ch, hC⟩ := curve_exists hK hF hc hsort p hi
  have hst := hC.state (p i)
  rw [set_self'] at hst
  have hr : ∀ k ∈ E.constraints, ∀ b < E.blockSize,
      HasDerivAt (fun u => E.resAt c ((paramVec pt.transform.cols p).set i u) (S u) k b)
      (E.velAt c (paramVec pt.transform.cols p) (S (p i)) ch i k b) (p i) := fun k hk b _ =>
    hC.rigid_res hb hf htype hk (hrigid k hk) (fun h => hside h k hk _ hst) b
  exact ⟨hC.isDerivative hsched hen fun k hk => Curve.term_of_res hr hk,
    hC.jacobianIsDerivative hsched (fun _ _ => hshape) hw hws hen hr⟩

open VertexError in
/-- **C68**: the three calls return for every object that a program can come to: the error for all types, the gradient for
all types, the Jacobian when it has as many rows as announced and a blend shape for its parameters. -/
theorem C68_returns (B : ErrorBase) (c : SkinnedCharacter) (sort : List BoneWeight → List BoneWeight)
    (hsort : ∀ l, (sort l).Perm l) (type : VertexConstraintType) (E : VertexError) (hE : E.Reached B c sort type)
    (pt : ParameterTransform ℝ) (hF : E.Fits pt) (order : List Nat) (p : List ℝ) (st : List JointState)
    (hok : c.CallOk order p st) (hp : p.length = pt.transform.cols) (hst : st.length = E.skeleton.joints.length)
    (hcl : ∀ js ∈ st, js.derivDirty = false) (hw : 0 ≤ E.weight) (hws : ∀ k ∈ E.constraints, 0 ≤ k.weight)
    (hshape : type ≠ .position → c.blendShape = none → ∀ q ∈ c.blendShapeParameters, q < 0)
    (n : Nat) (hn : E.getJacobianSize ≤ n) (g : Nat → ℝ) (J : Nat → Nat → ℝ) (r : Nat → ℝ) :
    (E.getError order p st).isSome ∧ (E.getGradient order p st g).isSome ∧ (E.getJacobian order p st n J r).isSome := by
  have hK := reached_kept hok.2.normals hE
  have hch : ∀ j, ∃ l, j < E.skeleton.joints.length → Chain E.skeleton (some j) l := by
    intro j
    by_cases hj : j < E.skeleton.joints.length
    · obtain ⟨l, hl⟩ := chain_exists hF.skeleton j hj
      exact ⟨l, fun _ => hl⟩
    · exact ⟨[], fun h => absurd h hj⟩
  choose ch hch using hch
  have hS : E.Setting pt B c sort type p st ch := ⟨hK, hF, hst, hcl, hch, hsort, hok.2, by rw [hp, hF.transform]⟩
  obtain ⟨_, h2, -⟩ := hS.gradient hok.1 g
  obtain ⟨_, h3, -⟩ := hS.jacobian hok.1 hshape (fun k hk => by
    have := hws k hk
    unfold kVertexPositionWeight
    positivity) hn J r
  rw [error_eq hok.1 hK hok.2, h2, h3]
  simp

end Momentum
