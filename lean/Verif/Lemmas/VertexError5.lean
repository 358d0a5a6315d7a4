import Verif.Lemmas.VertexError4

/-!
# Closed forms of the vertex error function: constraints along normals
-/

namespace Momentum
open Skeleton
namespace VertexError

/-- What one joint contributes with the source normal `n`. -/
noncomputable def srcVel (js : JointState) (r : Fin 7 → ℝ) (n tgt y : Vec3 ℝ) : ℝ :=
  n.dot (r 0 • js.translationAxis 0 + r 1 • js.translationAxis 1 + r 2 • js.translationAxis 2) +
    (jointSpin js r).dot (((-1 : ℝ) • n).cross (tgt - js.transform.translation)) +
    n.dot (r 6 • (Real.log 2 • (y - js.transform.translation)))

/-- The same from the sums of weights and of weighted points. -/
noncomputable def srcVelW (js : JointState) (r : Fin 7 → ℝ) (n tgt : Vec3 ℝ) (w : ℝ) (P : Vec3 ℝ) : ℝ :=
  w * (n.dot (r 0 • js.translationAxis 0 + r 1 • js.translationAxis 1 + r 2 • js.translationAxis 2) +
    (jointSpin js r).dot (((-1 : ℝ) • n).cross (tgt - js.transform.translation))) +
    n.dot (r 6 • (Real.log 2 • (P - w • js.transform.translation)))

theorem srcVelW_add (js : JointState) (r : Fin 7 → ℝ) (n tgt : Vec3 ℝ) (w w' : ℝ) (P P' : Vec3 ℝ) :
    srcVelW js r n tgt (w + w') (P + P') = srcVelW js r n tgt w P + srcVelW js r n tgt w' P' := by
  unfold srcVelW
  generalize (n.dot (r 0 • js.translationAxis 0 + r 1 • js.translationAxis 1 + r 2 • js.translationAxis 2) +
    (jointSpin js r).dot (((-1 : ℝ) • n).cross (tgt - js.transform.translation))) = A
  simp [Vec3.dot]; ring

theorem srcVelW_smul (js : JointState) (r : Fin 7 → ℝ) (n tgt : Vec3 ℝ) (w : ℝ) (y : Vec3 ℝ) :
    srcVelW js r n tgt w (w • y) = w * srcVel js r n tgt y := by
  unfold srcVelW srcVel
  generalize n.dot (r 0 • js.translationAxis 0 + r 1 • js.translationAxis 1 + r 2 • js.translationAxis 2) = A
  generalize (jointSpin js r).dot (((-1 : ℝ) • n).cross (tgt - js.transform.translation)) = B
  simp [Vec3.dot]; ring

/-- What the joints contribute with the source normal. -/
noncomputable def srcSum (st : List JointState) (ch : Nat → List Nat) (rates : Nat → ℝ) (ibp : List (Affine ℝ))
    (row : List (Nat × ℝ)) (v n tgt : Vec3 ℝ) : ℝ :=
  (row.map fun jw => jw.2 * ((ch jw.1).map fun a =>
    srcVel (stateAt st a) (ratesOf rates a) n tgt (movedBy (worldAffines st) ibp v jw.1)).sum).sum

/-- The values in `nrmGradDofs` without the common factor. -/
noncomputable def nrmDv (k0 sw tw : ℝ) (n1 n2 tgt : Vec3 ℝ) (boneWeight : ℝ) (pos : Vec3 ℝ) (js : JointState) :
    List (Nat × ℝ) :=
  let posd := pos - js.transform.translation
  let t (d : Fin 3) : ℝ := boneWeight * k0 * (sw • n1 + tw • n2).dot (js.translationAxis d)
  let r (d : Fin 3) : ℝ := boneWeight * k0 * rotTerm sw tw n1 n2 tgt js d ((js.rotationAxis d).cross posd)
  [(0, t 0), (3, r 0), (1, t 1), (4, r 1), (2, t 2), (5, r 2),
    (6, boneWeight * k0 * (sw • n1 + tw • n2).dot (Real.log 2 • posd))]

theorem nrmGradDofs_eq (sw tw : ℝ) (n : Vec3 ℝ × Vec3 ℝ) (tgt : Vec3 ℝ) (wgt dist bw : ℝ) (pos : Vec3 ℝ) {js : JointState}
    (h : js.derivDirty = false) : nrmGradDofs sw tw n (sw • n.1 + tw • n.2) tgt wgt dist bw pos js =
      (nrmDv (wgt * dist) sw tw n.1 n.2 tgt bw pos js).map fun d => (d.1, some d.2) := by
  simp [nrmGradDofs, nrmDv, JointState.getRotationDerivative, JointState.getTranslationDerivative,
    JointState.getScaleDerivative, h, mul_assoc]

theorem nrmJacDofs_eq (sw tw : ℝ) (n : Vec3 ℝ × Vec3 ℝ) (tgt : Vec3 ℝ) (wgt bw : ℝ) (pos : Vec3 ℝ) {js : JointState}
    (h : js.derivDirty = false) : nrmJacDofs sw tw n (sw • n.1 + tw • n.2) tgt wgt bw pos js =
      ((nrmDv wgt sw tw n.1 n.2 tgt bw pos js).map fun d => (d.1, fun _ : Fin 1 => d.2)).map
        fun d => (d.1, some d.2) := by
  simp [nrmJacDofs, nrmDv, JointState.getRotationDerivative, JointState.getTranslationDerivative,
    JointState.getScaleDerivative, h, mul_assoc]

theorem nrmDv_sum (k0 sw tw : ℝ) (n1 n2 tgt : Vec3 ℝ) (bw : ℝ) (pos : Vec3 ℝ) (js : JointState) (w : Nat → ℝ) (a : Nat) :
    dofSum (fun v => v) w a (nrmDv k0 sw tw n1 n2 tgt bw pos js) =
      bw * (k0 * (tw * n2.dot (jointVel js (ratesOf w a) pos) + sw * srcVel js (ratesOf w a) n1 tgt pos)) := by
  rw [jointVel_split]
  unfold srcVel
  rw [jointSpin_split]
  simp only [dofSum, nrmDv, rotTerm, ratesOf, mul_comm 7 a, List.map_cons, List.map_nil, List.sum_cons, List.sum_nil]
  generalize (js.rotationAxis 0).cross (pos - js.transform.translation) = r0
  generalize (js.rotationAxis 1).cross (pos - js.transform.translation) = r1
  generalize (js.rotationAxis 2).cross (pos - js.transform.translation) = r2
  generalize ((-1 : ℝ) • n1).cross (tgt - js.transform.translation) = cr
  generalize Real.log 2 • (pos - js.transform.translation) = sc
  simp [Vec3.dot]
  ring

theorem nrmDv_lt {k0 sw tw : ℝ} {n1 n2 tgt : Vec3 ℝ} {bw : ℝ} {pos : Vec3 ℝ} {js : JointState} {d : Nat × ℝ}
    (hd : d ∈ nrmDv k0 sw tw n1 n2 tgt bw pos js) : d.1 < 7 := by
  simp only [nrmDv, List.mem_cons, List.not_mem_nil, or_false] at hd
  rcases hd with rfl | rfl | rfl | rfl | rfl | rfl | rfl <;> simp

section
variable {E : VertexError} {pt : ParameterTransform ℝ} {c : SkinnedCharacter} {p : List ℝ} {st : List JointState}
  {ch : Nat → List Nat} (hR : E.Ready pt c p st ch)

open Classical in
/-- The target normal, turned to the side of the source normal. -/
noncomputable def facing (n t : Vec3 ℝ) : Vec3 ℝ := if n.dot t < 0 then (-1 : ℝ) • t else t

include hR in
theorem Ready.normals {k : VertexConstraint} (hk : k.vertexIndex < c.vertices.length) :
    E.normalsOf k = some (c.posedNormal p st k.vertexIndex,
      facing (c.posedNormal p st k.vertexIndex) k.targetNormal) := by
  unfold normalsOf; rw [(hR.vertex hk).2.2.2.1]; rfl

/-- The derivative that the code computes for the distance of a constraint. -/
noncomputable def distVel (E : VertexError) (c : SkinnedCharacter) (p : List ℝ) (st : List JointState)
    (ch : Nat → List Nat) (i : Nat) (k : VertexConstraint) : ℝ :=
  E.computeNormalWeights.2 * (facing (c.posedNormal p st k.vertexIndex) k.targetNormal).dot
      (E.vertVel c p st ch i k.vertexIndex) +
    E.computeNormalWeights.1 * (srcSum st ch (fun r => E.transform.coeff r i) c.inverseBindPose
        (c.skinWeights.getD k.vertexIndex []) (c.restVertex p k.vertexIndex) (c.posedNormal p st k.vertexIndex)
        k.targetPosition +
      (c.posedNormal p st k.vertexIndex).dot (blendedNormal (worldAffines st) c.inverseBindPose
        (c.skinWeights.getD k.vertexIndex []) (c.restRate i k.vertexIndex)))

/-- The distance of a constraint along the blended normal. -/
noncomputable def distOf (E : VertexError) (c : SkinnedCharacter) (p : List ℝ) (st : List JointState)
    (k : VertexConstraint) : ℝ :=
  (c.posedVertex p st k.vertexIndex - k.targetPosition).dot
    (E.computeNormalWeights.1 • c.posedNormal p st k.vertexIndex +
      E.computeNormalWeights.2 • facing (c.posedNormal p st k.vertexIndex) k.targetNormal)

theorem distVel_eq (E : VertexError) (c : SkinnedCharacter) (p : List ℝ) (st : List JointState)
    (ch : Nat → List Nat) (i : Nat) (k : VertexConstraint) (k0 : ℝ) :
    k0 * E.distVel c p st ch i k =
      ((c.skinWeights.getD k.vertexIndex []).map fun jw => jw.2 * ((ch jw.1).map fun a =>
        k0 * (E.computeNormalWeights.2 * (facing (c.posedNormal p st k.vertexIndex) k.targetNormal).dot
            (jointVel (stateAt st a) (ratesOf (fun r => E.transform.coeff r i) a)
              (movedBy (worldAffines st) c.inverseBindPose (c.restVertex p k.vertexIndex) jw.1)) +
          E.computeNormalWeights.1 * srcVel (stateAt st a) (ratesOf (fun r => E.transform.coeff r i) a)
            (c.posedNormal p st k.vertexIndex) k.targetPosition
            (movedBy (worldAffines st) c.inverseBindPose (c.restVertex p k.vertexIndex) jw.1))).sum).sum +
        k0 * (E.computeNormalWeights.1 • c.posedNormal p st k.vertexIndex +
          E.computeNormalWeights.2 • facing (c.posedNormal p st k.vertexIndex) k.targetNormal).dot
          (blendedNormal (worldAffines st) c.inverseBindPose (c.skinWeights.getD k.vertexIndex [])
            (c.restRate i k.vertexIndex)) := by
  unfold distVel vertVel srcSum skinVel posVel
  generalize E.computeNormalWeights.1 = sw
  generalize E.computeNormalWeights.2 = tw
  generalize facing (c.posedNormal p st k.vertexIndex) k.targetNormal = n2
  generalize c.posedNormal p st k.vertexIndex = n1
  generalize blendedNormal (worldAffines st) c.inverseBindPose (c.skinWeights.getD k.vertexIndex [])
    (c.restRate i k.vertexIndex) = bn
  generalize c.skinWeights.getD k.vertexIndex [] = row
  have hn2 : IsLin fun x => n2.dot x :=
    ⟨fun a b => by simp [Vec3.dot]; ring, fun r a => by simp [Vec3.dot]; ring⟩
  rw [hn2.add, hn2.sum]
  have e : ∀ x : Vec3 ℝ, (sw • n1 + tw • n2).dot x = sw * n1.dot x + tw * n2.dot x := by
    intro x; simp [Vec3.dot]; ring
  rw [e]
  have key : ∀ row : List (Nat × ℝ), (row.map fun jw => jw.2 * ((ch jw.1).map fun a =>
        k0 * (tw * n2.dot (jointVel (stateAt st a) (ratesOf (fun r => E.transform.coeff r i) a)
              (movedBy (worldAffines st) c.inverseBindPose (c.restVertex p k.vertexIndex) jw.1)) +
          sw * srcVel (stateAt st a) (ratesOf (fun r => E.transform.coeff r i) a) n1 k.targetPosition
            (movedBy (worldAffines st) c.inverseBindPose (c.restVertex p k.vertexIndex) jw.1))).sum).sum =
      k0 * (tw * (row.map fun jw => n2.dot (jw.2 • ((ch jw.1).map fun a =>
          jointVel (stateAt st a) (ratesOf (fun r => E.transform.coeff r i) a)
            (movedBy (worldAffines st) c.inverseBindPose (c.restVertex p k.vertexIndex) jw.1)).sum)).sum +
        sw * (row.map fun jw => jw.2 * ((ch jw.1).map fun a =>
          srcVel (stateAt st a) (ratesOf (fun r => E.transform.coeff r i) a) n1 k.targetPosition
            (movedBy (worldAffines st) c.inverseBindPose (c.restVertex p k.vertexIndex) jw.1)).sum).sum) := by
    intro row
    induction row with
    | nil => simp
    | cons jw row ih =>
      simp only [List.map_cons, List.sum_cons, ih]
      rw [hn2.smul, hn2.sum]
      have : ∀ l : List Nat, (l.map fun a => k0 * (tw * n2.dot (jointVel (stateAt st a)
            (ratesOf (fun r => E.transform.coeff r i) a)
              (movedBy (worldAffines st) c.inverseBindPose (c.restVertex p k.vertexIndex) jw.1)) +
          sw * srcVel (stateAt st a) (ratesOf (fun r => E.transform.coeff r i) a) n1 k.targetPosition
            (movedBy (worldAffines st) c.inverseBindPose (c.restVertex p k.vertexIndex) jw.1))).sum =
          k0 * (tw * (l.map fun a => n2.dot (jointVel (stateAt st a) (ratesOf (fun r => E.transform.coeff r i) a)
              (movedBy (worldAffines st) c.inverseBindPose (c.restVertex p k.vertexIndex) jw.1))).sum +
            sw * (l.map fun a => srcVel (stateAt st a) (ratesOf (fun r => E.transform.coeff r i) a) n1 k.targetPosition
            (movedBy (worldAffines st) c.inverseBindPose (c.restVertex p k.vertexIndex) jw.1)).sum) := by
        intro l
        induction l with
        | nil => simp
        | cons a l ih2 => simp only [List.map_cons, List.sum_cons, ih2]; ring
      rw [this]
      ring
  rw [key]
  ring

include hR in
theorem Ready.noFace (ht : E.constraintType ≠ .position) : c.faceExpressionBlendShape = none := by
  cases e : c.faceExpressionBlendShape with
  | none => rfl
  | some f => exact absurd (hR.face (by rw [e]; rfl)) ht

include hR in
/-- What a constraint along a normal adds to the error and the gradient. -/
theorem Ready.normalGradient (htype : E.constraintType ≠ .position) {k : VertexConstraint}
    (hk : k.vertexIndex < c.vertices.length) (s : ℝ × (Nat → ℝ)) :
    ∃ g, E.normalGradient st s k = some (s.1 + k.weight * E.distOf c p st k * E.distOf c p st k * kVertexPlaneWeight, g) ∧
      ∀ i, E.enabledParameters.mem i = true → g i = s.2 i + k.weight * 2 * kVertexPositionWeight * E.weight *
        E.distOf c p st k * E.distVel c p st ch i k := by
  obtain ⟨-, -, -, -, h5, h6, -⟩ := hR.vertex hk
  obtain ⟨g1, e1, e2⟩ := walk_add hR.fits hR.len hR.chain hR.perm
    (gradScatter_emits (ι := {i : Nat // E.enabledParameters.mem i = true})
      (by rw [hR.fits.transform]; exact hR.fits.wf : E.transform.WF) pt.transform.rows (fun i => i.1)) (fun i => i.2)
    (dofs := nrmGradDofs E.computeNormalWeights.1 E.computeNormalWeights.2
      (c.posedNormal p st k.vertexIndex, facing (c.posedNormal p st k.vertexIndex) k.targetNormal)
      (E.blendNormals (c.posedNormal p st k.vertexIndex, facing (c.posedNormal p st k.vertexIndex) k.targetNormal))
      k.targetPosition (k.weight * 2 * kVertexPositionWeight * E.weight) (E.distOf c p st k))
    (fun js hjs bw pos => nrmGradDofs_eq _ _ _ _ _ _ _ _ (hR.clean js hjs))
    (fun js _ bw pos d hd => nrmDv_lt hd)
    (c := fun i a bw P => k.weight * 2 * kVertexPositionWeight * E.weight * E.distOf c p st k *
      (E.computeNormalWeights.2 * (facing (c.posedNormal p st k.vertexIndex) k.targetNormal).dot
        (velW (stateAt st a) (ratesOf (fun r => E.transform.coeff r i.1) a) bw P) +
       E.computeNormalWeights.1 * srcVelW (stateAt st a) (ratesOf (fun r => E.transform.coeff r i.1) a)
        (c.posedNormal p st k.vertexIndex) k.targetPosition bw P))
    (fun i a w w' P P' => by
      simp only [velW_add, srcVelW_add]
      generalize velW _ _ _ _ = x
      generalize velW _ _ _ _ = y
      simp [Vec3.dot]; ring)
    (fun i a bw y hb => by
      rw [srcVelW_smul, velW_div _ _ hb]
      have : (1 / bw) • bw • y = y := by ext <;> simp <;> field_simp
      rw [this]
      generalize jointVel _ _ _ = x
      have : (facing (c.posedNormal p st k.vertexIndex) k.targetNormal).dot (bw • x) =
        bw * (facing (c.posedNormal p st k.vertexIndex) k.targetNormal).dot x := by simp [Vec3.dot]; ring
      rw [this]
      exact (by intros; ring : ∀ K A B D F : ℝ, K * (A * (bw * B) + D * (bw * F)) = bw * (K * (A * B + D * F))) _ _ _ _ _)
    (fun i a bw pos => nrmDv_sum _ _ _ _ _ _ _ _ _ _ _)
    (ibp := c.inverseBindPose) (v := c.restVertex p k.vertexIndex) h5 h6 s.2
  obtain ⟨g2, g3, e3, e4, e5, e6⟩ := hR.shapes hk (κ := fun i : {i : Nat // E.enabledParameters.mem i = true} => i.1)
    (φ := fun i g => g i.1) (L := fun _ x => k.weight * 2 * kVertexPositionWeight * E.weight * E.distOf c p st k *
      (E.blendNormals (c.posedNormal p st k.vertexIndex, facing (c.posedNormal p st k.vertexIndex) k.targetNormal)).dot x)
    (fun i => IsLin.dot _ _) (fun col hcol d g => gradAdd_emits _ E.transform.cols (fun x =>
      k.weight * 2 * kVertexPositionWeight * E.weight * E.distOf c p st k *
      (E.blendNormals (c.posedNormal p st k.vertexIndex,
        facing (c.posedNormal p st k.vertexIndex) k.targetNormal)).dot x) col hcol d g) g1
  have e5 := e5 (hR.noFace htype)
  subst e5
  refine ⟨g3, ?_, fun i hi => ?_⟩
  · unfold VertexError.normalGradient
    simp only [Option.bind_eq_bind, Option.bind_some, hR.diff hk, hR.bones hk, hR.normals hk]
    have ed : (c.posedVertex p st k.vertexIndex - k.targetPosition).dot (E.blendNormals
      (c.posedNormal p st k.vertexIndex, facing (c.posedNormal p st k.vertexIndex) k.targetNormal)) =
        E.distOf c p st k := rfl
    simp only [ed, e1, e3, Option.bind_some]
  · have a1 := e6 ⟨i, hi⟩
    have a2 := e2 ⟨i, hi⟩
    simp only at a1 a2
    rw [a1, a2, add_assoc, distVel_eq]
    rfl

include hR in
/-- What a constraint along a normal writes into the Jacobian. -/
theorem Ready.normalJacobian (htype : E.constraintType ≠ .position)
    (hbp : c.blendShape = none → ∀ q ∈ c.blendShapeParameters, q < 0) {k : VertexConstraint}
    (hk : k.vertexIndex < c.vertices.length) (hw : 0 ≤ k.weight * kVertexPositionWeight * E.weight) (offset : Nat)
    (s : JacobianResult) :
    ∃ s', E.normalJacobian st offset s k = some s' ∧ s'.rows = s.rows ∧
      s'.error = s.error + k.weight * kVertexPositionWeight * E.weight * E.distOf c p st k * E.distOf c p st k ∧
      (∀ t, t ≠ offset → s'.residual t = s.residual t ∧
        ∀ i, E.enabledParameters.mem i = true → s'.e i t = s.e i t) ∧
      s'.residual offset = E.distOf c p st k * Real.sqrt (k.weight * kVertexPositionWeight * E.weight) ∧
      ∀ i, E.enabledParameters.mem i = true → s'.e i offset = s.e i offset +
        Real.sqrt (k.weight * kVertexPositionWeight * E.weight) * E.distVel c p st ch i k := by
  obtain ⟨-, -, -, -, h5, h6, -⟩ := hR.vertex hk
  set wgt := Real.sqrt (k.weight * kVertexPositionWeight * E.weight) with hwgt
  set nb := E.blendNormals (c.posedNormal p st k.vertexIndex,
    facing (c.posedNormal p st k.vertexIndex) k.targetNormal) with hnb
  obtain ⟨J1, e1, e2⟩ := walk_add hR.fits hR.len hR.chain hR.perm
    (jacScatter_emits (m := 1) (ι := {i : Nat // E.enabledParameters.mem i = true})
      (by rw [hR.fits.transform]; exact hR.fits.wf : E.transform.WF) offset pt.transform.rows (fun i => i.1))
    (fun it => it.1.2)
    (dofs := nrmJacDofs E.computeNormalWeights.1 E.computeNormalWeights.2
      (c.posedNormal p st k.vertexIndex, facing (c.posedNormal p st k.vertexIndex) k.targetNormal)
      nb k.targetPosition wgt)
    (fun js hjs bw pos => nrmJacDofs_eq _ _ _ _ _ _ _ (hR.clean js hjs))
    (fun js _ bw pos d hd => by
      obtain ⟨d', h1, rfl⟩ := List.mem_map.1 hd
      exact nrmDv_lt h1)
    (c := fun it a bw P => (if offset ≤ it.2 ∧ it.2 < offset + 1 then 1 else 0) * (wgt *
      (E.computeNormalWeights.2 * (facing (c.posedNormal p st k.vertexIndex) k.targetNormal).dot
        (velW (stateAt st a) (ratesOf (fun r => E.transform.coeff r it.1.1) a) bw P) +
       E.computeNormalWeights.1 * srcVelW (stateAt st a) (ratesOf (fun r => E.transform.coeff r it.1.1) a)
        (c.posedNormal p st k.vertexIndex) k.targetPosition bw P)))
    (fun it a w w' P P' => by
      simp only [velW_add, srcVelW_add]
      generalize velW _ _ _ _ = x
      generalize velW _ _ _ _ = y
      simp only [Vec3.dot, Vec3.add_x, Vec3.add_y, Vec3.add_z]; ring)
    (d := fun it a y => (if offset ≤ it.2 ∧ it.2 < offset + 1 then 1 else 0) * (wgt *
      (E.computeNormalWeights.2 * (facing (c.posedNormal p st k.vertexIndex) k.targetNormal).dot
        (jointVel (stateAt st a) (ratesOf (fun r => E.transform.coeff r it.1.1) a) y) +
       E.computeNormalWeights.1 * srcVel (stateAt st a) (ratesOf (fun r => E.transform.coeff r it.1.1) a)
        (c.posedNormal p st k.vertexIndex) k.targetPosition y)))
    (fun it a bw y hb => by
      rw [srcVelW_smul, velW_div _ _ hb]
      have : (1 / bw) • bw • y = y := by ext <;> simp <;> field_simp
      rw [this]
      generalize jointVel _ _ _ = x
      have : (facing (c.posedNormal p st k.vertexIndex) k.targetNormal).dot (bw • x) =
        bw * (facing (c.posedNormal p st k.vertexIndex) k.targetNormal).dot x := by simp [Vec3.dot]; ring
      rw [this]
      exact (by intros; ring : ∀ Z K A B D F : ℝ, Z * (K * (A * (bw * B) + D * (bw * F))) =
        bw * (Z * (K * (A * B + D * F)))) _ _ _ _ _ _)
    (fun it a bw pos => by
      by_cases hb : offset ≤ it.2 ∧ it.2 < offset + 1
      · simp only [hb, and_self, dif_pos, if_true, one_mul]
        rw [← nrmDv_sum]
        simp [dofSum, nrmDv]
      · rw [if_neg hb]
        simp only [hb, dif_neg, not_false_iff, dofSum_zero, zero_mul, mul_zero])
    (ibp := c.inverseBindPose) (v := c.restVertex p k.vertexIndex) h5 h6 s.e
  -- the loop over the shape parameters
  have hLin : ∀ it : {i : Nat // E.enabledParameters.mem i = true} × Nat, IsLin fun x =>
      if _h : offset ≤ it.2 ∧ it.2 < offset + 1 then wgt * x.dot nb else 0 := by
    intro it
    by_cases hb : offset ≤ it.2 ∧ it.2 < offset + 1
    · simp only [hb, and_self, dif_pos]
      exact ⟨fun a b => by simp [Vec3.dot]; ring, fun r a => by simp [Vec3.dot]; ring⟩
    · simp only [hb, dif_neg, not_false_iff]
      exact IsLin.nul
  obtain ⟨J2, J3, e3, e4, e5, e6⟩ := hR.shapes hk
    (κ := fun it : {i : Nat // E.enabledParameters.mem i = true} × Nat => it.1.1)
    (φ := fun it J => J it.1.1 it.2) hLin
    (fun col hcol d J => jacAdd_emits (m := 1) (fun i : {i : Nat // E.enabledParameters.mem i = true} => i.1)
      E.transform.cols offset (fun x _ => wgt * x.dot nb) col hcol d J) J1
  have e5 := e5 (hR.noFace htype)
  subst e5
  have eloop : E.shapeLoop st k.vertexIndex (E.character.blendShape.map (·.shapeVectors)) E.character.blendShapeParameters
      (fun col d => jacAdd (m := 1) E.transform.cols offset col fun _ => wgt * d.dot nb) J1 = some J3 := by
    unfold blendLoop at e3
    rw [hR.char] at e3 ⊢
    cases e : c.blendShape with
    | none =>
      rw [e] at e3
      have e3 : J1 = J3 := Option.some.inj e3
      rw [e3]
      unfold shapeLoop
      simp only [Option.map_none]
      have hneg : ∀ l : List (Nat × Int), (∀ kp ∈ l, kp.2 < 0) → l.foldlM (E.shapeStep st k.vertexIndex none
          (fun col d => jacAdd (m := 1) E.transform.cols offset col fun _ => wgt * d.dot nb)) J3 = some J3 := by
        intro l
        induction l with
        | nil => intro _; rfl
        | cons kp l ih =>
          intro h
          rw [List.foldlM_cons]
          have : E.shapeStep st k.vertexIndex none
            (fun col d => jacAdd (m := 1) E.transform.cols offset col fun _ => wgt * d.dot nb) J3 kp = some J3 := by
            unfold shapeStep; rw [if_pos (h kp (by simp))]
          rw [this]
          exact ih fun x hx => h x (by simp [hx])
      refine hneg _ fun kp hkp => ?_
      rw [List.mem_mapIdx] at hkp
      obtain ⟨q, hq, rfl⟩ := hkp
      exact hbp e _ (List.getElem_mem hq)
    | some b => rw [e] at e3; exact e3
  have hcol : ∀ i (hi : E.enabledParameters.mem i = true) t, J3 i t = s.e i t +
      if t = offset then wgt * E.distVel c p st ch i k else 0 := by
    intro i hi t
    have a1 := e6 (⟨i, hi⟩, t)
    have a2 := e2 (⟨i, hi⟩, t)
    simp only at a1 a2
    rw [a1, a2, add_assoc]
    congr 1
    by_cases ht : t = offset
    · have hb : offset ≤ t ∧ t < offset + 1 := by omega
      simp only [hb, and_self, if_true, dif_pos, one_mul]
      rw [if_pos ht, distVel_eq]
      congr 1
      rw [hnb]
      simp only [blendNormals, Vec3.dot]
      ring
    · have hb : ¬ (offset ≤ t ∧ t < offset + 1) := by omega
      simp only [hb, if_false, dif_neg, not_false_iff, zero_mul, add_zero]
      rw [if_neg ht]
      simp
  have hres : E.normalJacobian st offset s k = some
      { error := s.error + wgt * wgt * E.distOf c p st k * E.distOf c p st k
        rows := s.rows
        e := J3
        residual := fun t => if t = offset then E.distOf c p st k * wgt else s.residual t } := by
    unfold VertexError.normalJacobian
    simp only [Option.bind_eq_bind, Option.bind_some, hR.diff hk, hR.bones hk, hR.normals hk]
    have ed : (c.posedVertex p st k.vertexIndex - k.targetPosition).dot nb = E.distOf c p st k := rfl
    rw [← hnb, ← hwgt]
    simp only [ed, e1, eloop, Option.bind_some]
  refine ⟨_, hres, rfl, ?_, fun t ht => ⟨?_, fun i hi => ?_⟩, ?_, fun i hi => ?_⟩
  · simp only [hwgt, Real.mul_self_sqrt hw]
  · simp only
    rw [if_neg ht]
  · simp only
    rw [hcol i hi, if_neg ht, add_zero]
  · simp only [if_true]
  · simp only
    rw [hcol i hi, if_pos rfl]
end

end VertexError
end Momentum
