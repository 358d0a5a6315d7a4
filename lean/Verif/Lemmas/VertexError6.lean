import Verif.Lemmas.VertexError5

/-!
# The vertex error function: all constraints
-/

namespace Momentum
open Skeleton
namespace VertexError

/-- The number of rows of one constraint. -/
def blockSize (E : VertexError) : Nat :=
  match E.constraintType with
  | .position => 3
  | _ => 1

/-- Entry `b` of the difference that a constraint measures. -/
noncomputable def resAt (E : VertexError) (c : SkinnedCharacter) (p : List ℝ) (st : List JointState)
    (k : VertexConstraint) (b : Nat) : ℝ :=
  match E.constraintType with
  | .position => (c.posedVertex p st k.vertexIndex - k.targetPosition).toFn ⟨b % 3, Nat.mod_lt _ (by norm_num)⟩
  | _ => E.distOf c p st k

/-- The derivative that the code computes for it. -/
noncomputable def velAt (E : VertexError) (c : SkinnedCharacter) (p : List ℝ) (st : List JointState)
    (ch : Nat → List Nat) (i : Nat) (k : VertexConstraint) (b : Nat) : ℝ :=
  match E.constraintType with
  | .position => (E.vertVel c p st ch i k.vertexIndex).toFn ⟨b % 3, Nat.mod_lt _ (by norm_num)⟩
  | _ => E.distVel c p st ch i k

/-- The square that a constraint measures. -/
noncomputable def term (E : VertexError) (c : SkinnedCharacter) (p : List ℝ) (st : List JointState)
    (k : VertexConstraint) : ℝ := ∑ b ∈ Finset.range E.blockSize, E.resAt c p st k b ^ 2

/-- Half the derivative that the code computes for it. -/
noncomputable def termVel (E : VertexError) (c : SkinnedCharacter) (p : List ℝ) (st : List JointState)
    (ch : Nat → List Nat) (i : Nat) (k : VertexConstraint) : ℝ :=
  ∑ b ∈ Finset.range E.blockSize, E.resAt c p st k b * E.velAt c p st ch i k b

theorem term_position {E : VertexError} (h : E.constraintType = .position) (c : SkinnedCharacter) (p : List ℝ)
    (st : List JointState) (k : VertexConstraint) :
    E.term c p st k = (c.posedVertex p st k.vertexIndex - k.targetPosition).sqNorm := by
  simp [term, blockSize, resAt, h, Finset.sum_range_succ, Vec3.toFn, Vec3.sqNorm, Vec3.dot]; ring

theorem term_normal {E : VertexError} (h : E.constraintType ≠ .position) (c : SkinnedCharacter) (p : List ℝ)
    (st : List JointState) (k : VertexConstraint) : E.term c p st k = E.distOf c p st k ^ 2 := by
  cases e : E.constraintType <;> simp_all [term, blockSize, resAt]

theorem termVel_position {E : VertexError} (h : E.constraintType = .position) (c : SkinnedCharacter) (p : List ℝ)
    (st : List JointState) (ch : Nat → List Nat) (i : Nat) (k : VertexConstraint) : E.termVel c p st ch i k =
      (c.posedVertex p st k.vertexIndex - k.targetPosition).dot (E.vertVel c p st ch i k.vertexIndex) := by
  simp [termVel, blockSize, resAt, velAt, h, Finset.sum_range_succ, Vec3.toFn, Vec3.dot]

theorem termVel_normal {E : VertexError} (h : E.constraintType ≠ .position) (c : SkinnedCharacter) (p : List ℝ)
    (st : List JointState) (ch : Nat → List Nat) (i : Nat) (k : VertexConstraint) : E.termVel c p st ch i k =
      E.distOf c p st k * E.distVel c p st ch i k := by
  cases e : E.constraintType <;> simp_all [termVel, blockSize, resAt, velAt]

theorem size_eq (E : VertexError) : E.getJacobianSize = E.blockSize * E.constraints.length := by
  unfold getJacobianSize blockSize
  cases E.constraintType <;> simp

theorem plane_eq : kVertexPlaneWeight = kVertexPositionWeight := rfl

section
variable {E : VertexError} {pt : ParameterTransform ℝ} {c : SkinnedCharacter} {p : List ℝ} {st : List JointState}
  {ch : Nat → List Nat} (hR : E.Ready pt c p st ch)

include hR in
theorem Ready.errorOf {k : VertexConstraint} (hk : k.vertexIndex < c.vertices.length) :
    E.errorOf k = some (k.weight * E.term c p st k * kVertexPositionWeight) := by
  by_cases ht : E.constraintType = .position
  · unfold VertexError.errorOf
    rw [term_position ht, ht]
    simp only [hR.diff hk, Option.map_some]
  · rw [term_normal ht]
    unfold VertexError.errorOf
    have e : ∀ x y : Vec3 ℝ, x.dot y = y.dot x := fun x y => by simp [Vec3.dot]; ring
    cases h : E.constraintType with
    | position => exact absurd h ht
    | _ =>
      simp only [Option.bind_eq_bind, Option.bind_some, hR.normals hk, hR.diff hk, Option.some.injEq]
      rw [e]
      have : (c.posedVertex p st k.vertexIndex - k.targetPosition).dot (E.blendNormals (c.posedNormal p st k.vertexIndex,
        facing (c.posedNormal p st k.vertexIndex) k.targetNormal)) = E.distOf c p st k := rfl
      rw [this, plane_eq]; ring

include hR in
theorem Ready.error_fold (l : List VertexConstraint) (hl : ∀ k ∈ l, k.vertexIndex < c.vertices.length) (x : ℝ) :
    l.foldlM (fun error c => (E.errorOf c).map fun x => error + x) x =
      some (x + (l.map fun k => k.weight * E.term c p st k * kVertexPositionWeight).sum) := by
  induction l generalizing x with
  | nil => simp
  | cons k l ih =>
    rw [List.foldlM_cons, hR.errorOf (hl k (by simp))]
    simp only [Option.map_some, Option.bind_eq_bind, Option.bind_some]
    rw [ih fun k hk => hl k (by simp [hk])]
    simp [add_assoc]

include hR in
theorem Ready.gradStep {k : VertexConstraint} (hk : k.vertexIndex < c.vertices.length) (s : ℝ × (Nat → ℝ)) :
    ∃ g, E.gradStep st s k = some (s.1 + k.weight * E.term c p st k * kVertexPositionWeight, g) ∧
      ∀ i, E.enabledParameters.mem i = true → g i = s.2 i + k.weight * 2 * kVertexPositionWeight * E.weight *
        E.termVel c p st ch i k := by
  by_cases ht : E.constraintType = .position
  · obtain ⟨g, g1, g2⟩ := hR.positionGradient hk s
    refine ⟨g, ?_, fun i hi => ?_⟩
    · unfold VertexError.gradStep; rw [term_position ht, ht]; exact g1
    · rw [termVel_position ht]; exact g2 i hi
  · obtain ⟨g, g1, g2⟩ := hR.normalGradient ht hk s
    refine ⟨g, ?_, fun i hi => ?_⟩
    · rw [term_normal ht]
      unfold VertexError.gradStep
      have e : s.1 + k.weight * E.distOf c p st k ^ 2 * kVertexPositionWeight =
        s.1 + k.weight * E.distOf c p st k * E.distOf c p st k * kVertexPlaneWeight := by rw [plane_eq]; ring
      rw [e]
      cases h : E.constraintType with
      | position => exact absurd h ht
      | _ => exact g1
    · rw [termVel_normal ht, g2 i hi]; ring

include hR in
theorem Ready.grad_fold (l : List VertexConstraint) (hl : ∀ k ∈ l, k.vertexIndex < c.vertices.length)
    (s : ℝ × (Nat → ℝ)) : ∃ g, l.foldlM (E.gradStep st) s =
      some (s.1 + (l.map fun k => k.weight * E.term c p st k * kVertexPositionWeight).sum, g) ∧
    ∀ i, E.enabledParameters.mem i = true → g i = s.2 i + (l.map fun k => k.weight * 2 * kVertexPositionWeight *
      E.weight * E.termVel c p st ch i k).sum := by
  induction l generalizing s with
  | nil => exact ⟨s.2, by simp, by simp⟩
  | cons k l ih =>
    obtain ⟨g, g1, g2⟩ := hR.gradStep (hl k (by simp)) s
    obtain ⟨g', g3, g4⟩ := ih (fun k hk => hl k (by simp [hk])) (s.1 + k.weight * E.term c p st k * kVertexPositionWeight, g)
    refine ⟨g', ?_, fun i hi => ?_⟩
    · rw [List.foldlM_cons, g1]
      simp only [Option.bind_eq_bind, Option.bind_some]
      rw [g3]; simp [add_assoc]
    · rw [g4 i hi]; simp only; rw [g2 i hi]; simp [add_assoc]

include hR in
theorem Ready.jacStep (hbp : E.constraintType ≠ .position → c.blendShape = none → ∀ q ∈ c.blendShapeParameters, q < 0)
    {k : VertexConstraint} (hk : k.vertexIndex < c.vertices.length)
    (hw : 0 ≤ k.weight * kVertexPositionWeight * E.weight) {n m : Nat} (hn : E.blockSize * m + E.blockSize ≤ n)
    (s : JacobianResult) : ∃ s', E.jacStep st n s (m, k) = some s' ∧ s'.rows = s.rows ∧
      s'.error = s.error + k.weight * kVertexPositionWeight * E.weight * E.term c p st k ∧
      (∀ t, t < E.blockSize * m ∨ E.blockSize * m + E.blockSize ≤ t → s'.residual t = s.residual t ∧
        ∀ i, E.enabledParameters.mem i = true → s'.e i t = s.e i t) ∧
      ∀ b < E.blockSize, s'.residual (E.blockSize * m + b) =
          Real.sqrt (k.weight * kVertexPositionWeight * E.weight) * E.resAt c p st k b ∧
        ∀ i, E.enabledParameters.mem i = true → s'.e i (E.blockSize * m + b) = s.e i (E.blockSize * m + b) +
          Real.sqrt (k.weight * kVertexPositionWeight * E.weight) * E.velAt c p st ch i k b := by
  by_cases ht : E.constraintType = .position
  · have hb : E.blockSize = 3 := by simp [blockSize, ht]
    rw [hb] at hn ⊢
    obtain ⟨s', s1, s2, s3, s4, s5⟩ := hR.positionJacobian hk hw (3 * m) s
    refine ⟨s', ?_, s2, by rw [term_position ht]; exact s3, s4, fun b hb3 => ?_⟩
    · unfold VertexError.jacStep
      rw [ht]
      simp only
      rw [if_pos hn]
      exact s1
    · obtain ⟨r1, r2⟩ := s5 ⟨b, hb3⟩
      have e : (⟨b % 3, Nat.mod_lt _ (by norm_num)⟩ : Fin 3) = ⟨b, hb3⟩ := by
        ext; exact Nat.mod_eq_of_lt hb3
      refine ⟨?_, fun i hi => ?_⟩
      · unfold resAt; rw [ht]; simp only [e]; exact r1
      · unfold velAt; rw [ht]; simp only [e]; exact r2 i hi
  · have hb : E.blockSize = 1 := by
      unfold blockSize
      cases h : E.constraintType with
      | position => exact absurd h ht
      | _ => rfl
    rw [hb] at hn ⊢
    rw [one_mul] at *
    obtain ⟨s', s1, s2, s3, s4, s5, s6⟩ := hR.normalJacobian ht (hbp ht) hk hw m s
    refine ⟨s', ?_, s2, by rw [term_normal ht, s3]; ring, fun t h => s4 t (by omega), fun b hb1 => ?_⟩
    · unfold VertexError.jacStep
      cases h : E.constraintType with
      | position => exact absurd h ht
      | _ => simp only; rw [if_pos hn]; exact s1
    · obtain rfl : b = 0 := by omega
      refine ⟨?_, fun i hi => ?_⟩
      · unfold resAt
        cases h : E.constraintType with
        | position => exact absurd h ht
        | _ => rw [add_zero, s5, mul_comm]
      · unfold velAt
        cases h : E.constraintType with
        | position => exact absurd h ht
        | _ => rw [add_zero, s6 i hi]

include hR in
theorem Ready.jac_fold (hbp : E.constraintType ≠ .position → c.blendShape = none → ∀ q ∈ c.blendShapeParameters, q < 0)
    (l : List VertexConstraint) (hl : ∀ k ∈ l, k.vertexIndex < c.vertices.length)
    (hw : ∀ k ∈ l, 0 ≤ k.weight * kVertexPositionWeight * E.weight) {n : Nat} : ∀ (m : Nat)
    (_ : E.blockSize * (m + l.length) ≤ n) (s : JacobianResult),
    ∃ s', (l.mapIdx fun j k => (m + j, k)).foldlM (E.jacStep st n) s = some s' ∧ s'.rows = s.rows ∧
      s'.error = s.error + (l.map fun k => k.weight * kVertexPositionWeight * E.weight * E.term c p st k).sum ∧
      (∀ t, t < E.blockSize * m ∨ E.blockSize * (m + l.length) ≤ t → s'.residual t = s.residual t ∧
        ∀ i, E.enabledParameters.mem i = true → s'.e i t = s.e i t) ∧
      ∀ j k, l[j]? = some k → ∀ b < E.blockSize, s'.residual (E.blockSize * (m + j) + b) =
          Real.sqrt (k.weight * kVertexPositionWeight * E.weight) * E.resAt c p st k b ∧
        ∀ i, E.enabledParameters.mem i = true → s'.e i (E.blockSize * (m + j) + b) =
          s.e i (E.blockSize * (m + j) + b) +
          Real.sqrt (k.weight * kVertexPositionWeight * E.weight) * E.velAt c p st ch i k b := by
  induction l with
  | nil =>
    intro m _ s
    exact ⟨s, rfl, rfl, by simp, fun t _ => ⟨rfl, fun i _ => rfl⟩, by simp⟩
  | cons k l ih =>
    intro m hn s
    have ex : E.blockSize * (m + (k :: l).length) = E.blockSize * (m + 1 + l.length) := by
      rw [List.length_cons]; congr 1; omega
    have ex1 : E.blockSize * (m + 1) = E.blockSize * m + E.blockSize := by ring
    have ex2 : E.blockSize * (m + 1 + l.length) = E.blockSize * (m + 1) + E.blockSize * l.length := by ring
    obtain ⟨s1, a1, a2, a3, a4, a5⟩ := hR.jacStep hbp (hl k (by simp)) (hw k (by simp)) (n := n) (m := m)
      (by omega) s
    obtain ⟨s2, b1, b2, b3, b4, b5⟩ := ih (fun k hk => hl k (by simp [hk])) (fun k hk => hw k (by simp [hk])) (m + 1)
      (by omega) s1
    refine ⟨s2, ?_, by rw [b2, a2], by rw [b3, a3]; simp [add_assoc], fun t ht => ?_, ?_⟩
    · rw [List.mapIdx_cons, List.foldlM_cons, add_zero, a1]
      simp only [Option.bind_eq_bind, Option.bind_some]
      have : (fun i k => (m + (i + 1), k)) = fun (i : Nat) (k : VertexConstraint) => (m + 1 + i, k) := by
        funext i k; congr 1; omega
      rw [this]; exact b1
    · obtain ⟨c1, c2⟩ := b4 t (by omega)
      obtain ⟨d1, d2⟩ := a4 t (by omega)
      exact ⟨by rw [c1, d1], fun i hi => by rw [c2 i hi, d2 i hi]⟩
    · intro j k' hj b hb
      cases j with
      | zero =>
        simp only [List.getElem?_cons_zero, Option.some.injEq] at hj
        subst hj
        obtain ⟨c1, c2⟩ := b4 (E.blockSize * (m + 0) + b) (by rw [add_zero]; omega)
        obtain ⟨d1, d2⟩ := a5 b hb
        rw [add_zero] at *
        exact ⟨by rw [c1, d1], fun i hi => by rw [c2 i hi, d2 i hi]⟩
      | succ j =>
        simp only [List.getElem?_cons_succ] at hj
        obtain ⟨c1, c2⟩ := b5 j k' hj b hb
        have e : m + 1 + j = m + (j + 1) := by omega
        rw [e] at c1 c2
        have e2 : E.blockSize * (m + (j + 1)) = E.blockSize * (m + 1) + E.blockSize * j := by ring
        obtain ⟨d1, d2⟩ := a4 (E.blockSize * (m + (j + 1)) + b) (by right; rw [e2]; omega)
        exact ⟨c1, fun i hi => by rw [c2 i hi, d2 i hi]⟩
end

/-- What is needed to evaluate an object. -/
structure Setting (E : VertexError) (pt : ParameterTransform ℝ) (B : ErrorBase) (c : SkinnedCharacter)
    (sort : List BoneWeight → List BoneWeight) (type : VertexConstraintType) (p : List ℝ) (st : List JointState)
    (ch : Nat → List Nat) : Prop where
  kept : E.Kept B c sort type
  fits : E.Fits pt
  len : st.length = E.skeleton.joints.length
  clean : ∀ js ∈ st, js.derivDirty = false
  chain : ∀ j < E.skeleton.joints.length, Chain E.skeleton (some j) (ch j)
  perm : ∀ l, (sort l).Perm l
  valid : c.Valid st.length p.length
  plen : p.length = E.transform.cols

section
variable {E : VertexError} {pt : ParameterTransform ℝ} {B : ErrorBase} {c : SkinnedCharacter}
  {sort : List BoneWeight → List BoneWeight} {type : VertexConstraintType} {p : List ℝ} {st : List JointState}
  {ch : Nat → List Nat} (hS : E.Setting pt B c sort type p st ch)

include hS in
theorem Setting.ready : (E.posed c p st).Ready pt c p st ch :=
  ⟨hS.fits, hS.len, hS.clean, hS.chain, by rw [show (E.posed c p st).sort = sort from hS.kept.sorted]; exact hS.perm,
    hS.valid, hS.plen, hS.kept.char, rfl, rfl, rfl, fun h => by rw [← hS.kept.face h]; exact hS.kept.kind⟩

variable {order : List Nat} (ho : order.Perm (List.range c.vertices.length))

include ho in
/-- The error needs neither the derivatives in the state nor the parameter transform. -/
theorem error_eq (hK : E.Kept B c sort type) (hc : c.Valid st.length p.length) : E.getError order p st =
    some (E.weight * (E.constraints.map fun k => k.weight * E.term c p st k * kVertexPositionWeight).sum,
      E.posed c p st) := by
  unfold getError
  rw [updateMeshes_eq hK hc ho]
  simp only [Option.bind_eq_bind, Option.bind_some]
  have hE : ∀ k : VertexConstraint, k.vertexIndex < c.vertices.length → (E.posed c p st).errorOf k =
      some (k.weight * E.term c p st k * kVertexPositionWeight) := by
    intro k hk
    have hd : (E.posed c p st).diffOf k = some (c.posedVertex p st k.vertexIndex - k.targetPosition) := by
      simp [diffOf, posed, hk]
    have hn : (E.posed c p st).normalsOf k = some (c.posedNormal p st k.vertexIndex,
        facing (c.posedNormal p st k.vertexIndex) k.targetNormal) := by
      simp [normalsOf, posed, hk, facing]
    unfold errorOf
    have ek : (E.posed c p st).constraintType = E.constraintType := rfl
    rw [ek]
    by_cases ht : E.constraintType = .position
    · rw [term_position ht, ht]
      simp only [hd, Option.map_some]
    · rw [term_normal ht]
      have e : ∀ x y : Vec3 ℝ, x.dot y = y.dot x := fun x y => by simp [Vec3.dot]; ring
      cases h : E.constraintType with
      | position => exact absurd h ht
      | _ =>
        simp only [Option.bind_eq_bind, Option.bind_some, hn, hd, Option.some.injEq]
        rw [e]
        have : (c.posedVertex p st k.vertexIndex - k.targetPosition).dot ((E.posed c p st).blendNormals
          (c.posedNormal p st k.vertexIndex, facing (c.posedNormal p st k.vertexIndex) k.targetNormal)) =
            E.distOf c p st k := rfl
        rw [this, plane_eq]; ring
  have hfold : ∀ (l : List VertexConstraint), (∀ k ∈ l, k.vertexIndex < c.vertices.length) → ∀ x,
      l.foldlM (fun error k => ((E.posed c p st).errorOf k).map fun x => error + x) x =
      some (x + (l.map fun k => k.weight * E.term c p st k * kVertexPositionWeight).sum) := by
    intro l
    induction l with
    | nil => intro _ x; simp
    | cons k l ih =>
      intro hl x
      rw [List.foldlM_cons, hE k (hl k (by simp))]
      simp only [Option.map_some, Option.bind_eq_bind, Option.bind_some]
      rw [ih fun k hk => hl k (by simp [hk])]
      simp [add_assoc]
  rw [show (E.posed c p st).constraints = E.constraints from rfl, hfold _ hK.index]
  simp only [Option.bind_some, zero_add]
  rw [mul_comm]; rfl

include hS ho in
theorem Setting.gradient (g0 : Nat → ℝ) : ∃ g, E.getGradient order p st g0 =
    some ((E.weight * (E.constraints.map fun k => k.weight * E.term c p st k * kVertexPositionWeight).sum, g),
      E.posed c p st) ∧ ∀ i, E.enabledParameters.mem i = true → g i = g0 i + (E.constraints.map fun k =>
        k.weight * 2 * kVertexPositionWeight * E.weight * E.termVel c p st ch i k).sum := by
  obtain ⟨g, g1, g2⟩ := hS.ready.grad_fold E.constraints hS.kept.index (0, g0)
  refine ⟨g, ?_, g2⟩
  unfold getGradient
  rw [updateMeshes_eq hS.kept hS.valid ho]
  simp only [Option.bind_eq_bind, Option.bind_some]
  rw [show (E.posed c p st).constraints = E.constraints from rfl, g1]
  simp only [Option.bind_some, zero_add]
  rfl

include hS ho in
theorem Setting.jacobian (hbp : type ≠ .position → c.blendShape = none → ∀ q ∈ c.blendShapeParameters, q < 0)
    (hw : ∀ k ∈ E.constraints, 0 ≤ k.weight * kVertexPositionWeight * E.weight) {n : Nat} (hn : E.getJacobianSize ≤ n)
    (J0 : Nat → Nat → ℝ) (r0 : Nat → ℝ) : ∃ s, E.getJacobian order p st n J0 r0 = some (s, E.posed c p st) ∧
      s.rows = E.getJacobianSize ∧
      s.error = E.weight * (E.constraints.map fun k => k.weight * E.term c p st k * kVertexPositionWeight).sum ∧
      ∀ j k, E.constraints[j]? = some k → ∀ b < E.blockSize, s.residual (E.blockSize * j + b) =
          Real.sqrt (k.weight * kVertexPositionWeight * E.weight) * E.resAt c p st k b ∧
        ∀ i, E.enabledParameters.mem i = true → s.e i (E.blockSize * j + b) = J0 i (E.blockSize * j + b) +
          Real.sqrt (k.weight * kVertexPositionWeight * E.weight) * E.velAt c p st ch i k b := by
  have hbs : (E.posed c p st).blockSize = E.blockSize := rfl
  have hbs1 : 1 ≤ E.blockSize := by unfold blockSize; cases E.constraintType <;> simp
  rw [size_eq] at hn
  obtain ⟨s, s1, s2, s3, s4, s5⟩ := hS.ready.jac_fold (fun h => hbp (by rw [← hS.kept.kind]; exact h)) E.constraints
    hS.kept.index hw (n := n) 0 (by rw [zero_add, hbs]; exact hn) ⟨0, 0, J0, r0⟩
  have hsm : ¬ n < 1 * E.constraints.length := by
    have := Nat.mul_le_mul_right E.constraints.length hbs1
    omega
  refine ⟨{ s with rows := E.getJacobianSize }, ?_, rfl, ?_, fun j k hj b hb => ?_⟩
  · unfold getJacobian
    rw [if_neg hsm, updateMeshes_eq hS.kept hS.valid ho]
    simp only [Option.bind_eq_bind, Option.bind_some]
    have e : (fun (k : Nat) (c : VertexConstraint) => (k, c)) = fun k c => (0 + k, c) := by funext k c; simp
    rw [show (E.posed c p st).constraints = E.constraints from rfl, e, s1]
    rfl
  · simp only
    rw [s3, zero_add, ← list_sum_map_mul]
    congr 1
    refine List.map_congr_left fun k _ => ?_
    have : (E.posed c p st).term c p st k = E.term c p st k := rfl
    rw [this, show (E.posed c p st).weight = E.weight from rfl]
    ring
  · have := s5 j k hj b hb
    rw [zero_add] at this
    exact this
end

end VertexError
end Momentum
