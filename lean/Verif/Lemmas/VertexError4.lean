import Verif.Lemmas.VertexError3
import Verif.Lemmas.StateError2

/-!
# Closed forms of the vertex error function
-/

namespace Momentum
open Skeleton
namespace VertexError

/-- An object whose meshes are those for the parameters `p` and the state `st`. -/
structure Ready (E : VertexError) (pt : ParameterTransform ℝ) (c : SkinnedCharacter) (p : List ℝ) (st : List JointState)
    (ch : Nat → List Nat) : Prop where
  fits : E.Fits pt
  len : st.length = E.skeleton.joints.length
  clean : ∀ js ∈ st, js.derivDirty = false
  chain : ∀ j < E.skeleton.joints.length, Chain E.skeleton (some j) (ch j)
  perm : ∀ l, (E.sort l).Perm l
  valid : c.Valid st.length p.length
  plen : p.length = E.transform.cols
  char : E.character = c
  rest : E.restMesh.1 = (List.range c.vertices.length).map (c.restVertex p)
  posed1 : E.posedMesh.1 = (List.range c.vertices.length).map (c.posedVertex p st)
  posed2 : E.posedMesh.2 = (List.range c.vertices.length).map (c.posedNormal p st)
  face : c.faceExpressionBlendShape.isSome → E.constraintType = .position

/-- How fast vertex `idx` moves when parameter `i` moves at rate one. -/
noncomputable def vertVel (E : VertexError) (c : SkinnedCharacter) (p : List ℝ) (st : List JointState)
    (ch : Nat → List Nat) (i idx : Nat) : Vec3 ℝ :=
  skinVel st ch (fun r => E.transform.coeff r i) c.inverseBindPose (c.skinWeights.getD idx []) (c.restVertex p idx) +
    blendedNormal (worldAffines st) c.inverseBindPose (c.skinWeights.getD idx []) (c.restRate i idx)

theorem gradAdd_emits {ι : Type} (κ : ι → Nat) (cols : Nat) (L : Vec3 ℝ → ℝ) (col : Nat) (h : col < cols) (d : Vec3 ℝ)
    (g : Nat → ℝ) : ∃ g', gradAdd cols col (L d) g = some g' ∧
      ∀ i : ι, g' (κ i) = g (κ i) + if col = κ i then L d else 0 := by
  refine ⟨_, if_pos h, fun i => ?_⟩
  by_cases e : col = κ i
  · rw [if_pos e, ← e, Function.update_self]
  · rw [if_neg e, Function.update_of_ne (fun h => e h.symm), add_zero]

theorem jacAdd_emits {m : Nat} {ι : Type} (κ : ι → Nat) (cols offset : Nat) (jc : Vec3 ℝ → Fin m → ℝ) (col : Nat)
    (h : col < cols) (d : Vec3 ℝ) (J : Nat → Nat → ℝ) : ∃ J', jacAdd cols offset col (jc d) J = some J' ∧
      ∀ it : ι × Nat, J' (κ it.1) it.2 = J (κ it.1) it.2 + if col = κ it.1 then
        (if h : offset ≤ it.2 ∧ it.2 < offset + m then jc d ⟨it.2 - offset, by omega⟩ else 0) else 0 := by
  refine ⟨_, if_pos h, fun it => ?_⟩
  by_cases e : col = κ it.1
  · rw [if_pos e, ← e, Function.update_self]
    by_cases hb : offset ≤ it.2 ∧ it.2 < offset + m
    · rw [dif_pos hb, dif_pos hb]
    · rw [dif_neg hb, dif_neg hb, add_zero]
  · rw [if_neg e, Function.update_of_ne (fun h => e h.symm), add_zero]

/-- The values in `posGradDofs` when the derivatives are up to date. -/
noncomputable def posGradDv (diff : Vec3 ℝ) (wgt boneWeight : ℝ) (pos : Vec3 ℝ) (js : JointState) : List (Nat × ℝ) :=
  let posd := pos - js.transform.translation
  let t (d : Fin 3) : ℝ := boneWeight * diff.dot (js.translationAxis d) * wgt
  let r (d : Fin 3) : ℝ := boneWeight * diff.dot ((js.rotationAxis d).cross posd) * wgt
  [(0, t 0), (3, r 0), (1, t 1), (4, r 1), (2, t 2), (5, r 2), (6, boneWeight * diff.dot (Real.log 2 • posd) * wgt)]

theorem posGradDofs_eq (diff : Vec3 ℝ) (wgt bw : ℝ) (pos : Vec3 ℝ) {js : JointState} (h : js.derivDirty = false) :
    posGradDofs diff wgt bw pos js = (posGradDv diff wgt bw pos js).map fun d => (d.1, some d.2) := by
  simp [posGradDofs, posGradDv, JointState.getRotationDerivative, JointState.getTranslationDerivative,
    JointState.getScaleDerivative, h]

theorem posGradDv_sum (diff : Vec3 ℝ) (wgt bw : ℝ) (pos : Vec3 ℝ) (js : JointState) (w : Nat → ℝ) (a : Nat) :
    dofSum (fun v => v) w a (posGradDv diff wgt bw pos js) = bw * (wgt * diff.dot (jointVel js (ratesOf w a) pos)) := by
  rw [jointVel_split]
  simp only [dofSum, posGradDv, List.map_cons, List.map_nil, List.sum_cons, List.sum_nil]
  generalize (js.rotationAxis 0).cross (pos - js.transform.translation) = r0
  generalize (js.rotationAxis 1).cross (pos - js.transform.translation) = r1
  generalize (js.rotationAxis 2).cross (pos - js.transform.translation) = r2
  generalize Real.log 2 • (pos - js.transform.translation) = sc
  simp [Vec3.dot]
  ring

/-- The rows in `posJacDofs` when the derivatives are up to date. -/
noncomputable def posJacDv (wgt boneWeight : ℝ) (pos : Vec3 ℝ) (js : JointState) : List (Nat × (Fin 3 → ℝ)) :=
  let posd := pos - js.transform.translation
  let t (d : Fin 3) : Fin 3 → ℝ := ((boneWeight * wgt) • js.translationAxis d).toFn
  let r (d : Fin 3) : Fin 3 → ℝ := ((boneWeight * wgt) • (js.rotationAxis d).cross posd).toFn
  [(0, t 0), (3, r 0), (1, t 1), (4, r 1), (2, t 2), (5, r 2), (6, ((boneWeight * wgt) • (Real.log 2 • posd)).toFn)]

theorem posJacDofs_eq (wgt bw : ℝ) (pos : Vec3 ℝ) {js : JointState} (h : js.derivDirty = false) :
    posJacDofs wgt bw pos js = (posJacDv wgt bw pos js).map fun d => (d.1, some d.2) := by
  simp [posJacDofs, posJacDv, JointState.getRotationDerivative, JointState.getTranslationDerivative,
    JointState.getScaleDerivative, h]

theorem posJacDv_sum (wgt bw : ℝ) (pos : Vec3 ℝ) (js : JointState) (w : Nat → ℝ) (a : Nat) (b : Fin 3) :
    dofSum (fun jc : Fin 3 → ℝ => jc b) w a (posJacDv wgt bw pos js) =
      bw * (wgt * (jointVel js (ratesOf w a) pos).toFn b) := by
  rw [jointVel_split]
  simp only [dofSum, posJacDv, List.map_cons, List.map_nil, List.sum_cons, List.sum_nil, toFn_add, toFn_smul]
  ring

theorem dofSum_zero {α : Type} (w : Nat → ℝ) (a : Nat) (l : List (Nat × α)) : dofSum (fun _ => 0) w a l = 0 := by
  simp [dofSum]

section
variable {E : VertexError} {pt : ParameterTransform ℝ} {c : SkinnedCharacter} {p : List ℝ} {st : List JointState}
  {ch : Nat → List Nat} (hR : E.Ready pt c p st ch) {idx : Nat} (hidx : idx < c.vertices.length)

include hR hidx in
theorem Ready.vertex : E.character.skinWeights[idx]? = some (c.skinWeights.getD idx []) ∧
    E.restMesh.1[idx]? = some (c.restVertex p idx) ∧ E.posedMesh.1[idx]? = some (c.posedVertex p st idx) ∧
    E.posedMesh.2[idx]? = some (c.posedNormal p st idx) ∧
    (∀ jw ∈ c.skinWeights.getD idx [], jw.1 < st.length) ∧ (∀ jw ∈ c.skinWeights.getD idx [], 0 ≤ jw.2) ∧
    E.character.inverseBindPose.length = st.length := by
  have hs : idx < c.skinWeights.length := by rw [hR.valid.skin]; exact hidx
  have hm : c.skinWeights.getD idx [] ∈ c.skinWeights := by simp [hs]
  refine ⟨by rw [hR.char]; simp [hs], by rw [hR.rest]; simp [hidx], by rw [hR.posed1]; simp [hidx],
    by rw [hR.posed2]; simp [hidx], hR.valid.indices _ hm, hR.valid.nonneg _ hm, by rw [hR.char]; exact hR.valid.bind⟩

include hR hidx in
theorem Ready.bones : E.boneWeights st idx =
    some (E.sort (boneList st c.inverseBindPose (c.skinWeights.getD idx []) (c.restVertex p idx))) := by
  obtain ⟨h1, h2, -, -, h5, -, h7⟩ := hR.vertex hidx
  rw [boneWeights_eq h1 h2 h5 h7, hR.char]

include hR in
theorem Ready.diff {k : VertexConstraint} (hk : k.vertexIndex < c.vertices.length) :
    E.diffOf k = some (c.posedVertex p st k.vertexIndex - k.targetPosition) := by
  unfold diffOf; rw [(hR.vertex hk).2.2.1]; rfl

include hR hidx in
/-- The two loops over shapes together. -/
theorem Ready.shapes {σ ι : Type} {emit : Nat → Vec3 ℝ → σ → Option σ} {φ : ι → σ → ℝ} {κ : ι → Nat}
    {L : ι → Vec3 ℝ → ℝ} (hL : ∀ i, IsLin (L i))
    (hem : ∀ col < E.transform.cols, ∀ d s, ∃ s', emit col d s = some s' ∧
      ∀ i, φ i s' = φ i s + if col = κ i then L i d else 0) (s : σ) :
    ∃ s1 s2, E.blendLoop st idx emit s = some s1 ∧ E.faceLoop st idx emit s1 = some s2 ∧
      (c.faceExpressionBlendShape = none → s2 = s1) ∧
      ∀ i, φ i s2 = φ i s + L i (blendedNormal (worldAffines st) c.inverseBindPose (c.skinWeights.getD idx [])
        (c.restRate (κ i) idx)) := by
  obtain ⟨h1, -, -, -, h5, h6, h7⟩ := hR.vertex hidx
  have hBL := fun i => blendedNormal_lin (ibp := c.inverseBindPose) h5 hR.valid.bind (hL i)
  have hb : ∀ s, ∃ s1, E.blendLoop st idx emit s = some s1 ∧ ∀ i, φ i s1 = φ i s +
      L i (blendedNormal (worldAffines st) c.inverseBindPose (c.skinWeights.getD idx [])
        (match c.blendShape with
          | none => 0
          | some b => shapeRate c.blendShapeParameters b.shapeVectors (κ i) idx)) := by
    intro s
    unfold blendLoop
    rw [hR.char]
    cases e : c.blendShape with
    | none => exact ⟨s, rfl, fun i => by simp only [(hBL i).zero, add_zero]⟩
    | some b =>
      obtain ⟨b1, b2, b3⟩ := hR.valid.blend b e
      obtain ⟨s', f1, f2⟩ := shapeLoop_track h1 h5 h6 h7 hL hem b3
        (fun sv hsv => by rw [b1.cols sv hsv, b2]; exact hidx)
        (fun q hq => by rw [← hR.plen]; exact hR.valid.blendParams q hq) s
      rw [hR.char] at f2
      exact ⟨s', f1, f2⟩
  have hf : ∀ s, ∃ s1, E.faceLoop st idx emit s = some s1 ∧ (c.faceExpressionBlendShape = none → s1 = s) ∧
      ∀ i, φ i s1 = φ i s +
      L i (blendedNormal (worldAffines st) c.inverseBindPose (c.skinWeights.getD idx [])
        (match c.faceExpressionBlendShape with
          | none => 0
          | some f => shapeRate c.faceExpressionParameters f.shapeVectors (κ i) idx)) := by
    intro s
    unfold faceLoop
    rw [hR.char]
    cases e : c.faceExpressionBlendShape with
    | none => exact ⟨s, rfl, fun _ => rfl, fun i => by simp only [(hBL i).zero, add_zero]⟩
    | some b =>
      obtain ⟨b1, b2, b3⟩ := hR.valid.face b e
      obtain ⟨s', f1, f2⟩ := shapeLoop_track h1 h5 h6 h7 hL hem b3
        (fun sv hsv => by rw [b1 sv hsv, b2]; exact hidx)
        (fun q hq => by rw [← hR.plen]; exact hR.valid.faceParams q hq) s
      rw [hR.char] at f2
      exact ⟨s', f1, nofun, f2⟩
  obtain ⟨s1, g1, g2⟩ := hb s
  obtain ⟨s2, g3, g4, g5⟩ := hf s1
  refine ⟨s1, s2, g1, g3, g4, fun i => ?_⟩
  rw [g5, g2, add_assoc]
  congr 1
  exact ((hBL i).add _ _).symm

include hR in
/-- What a position constraint adds to the error and the gradient. -/
theorem Ready.positionGradient {k : VertexConstraint} (hk : k.vertexIndex < c.vertices.length) (s : ℝ × (Nat → ℝ)) :
    ∃ g, E.positionGradient st s k = some (s.1 + k.weight *
        (c.posedVertex p st k.vertexIndex - k.targetPosition).sqNorm * kVertexPositionWeight, g) ∧
      ∀ i, E.enabledParameters.mem i = true → g i = s.2 i + k.weight * 2 * kVertexPositionWeight * E.weight *
        (c.posedVertex p st k.vertexIndex - k.targetPosition).dot (E.vertVel c p st ch i k.vertexIndex) := by
  obtain ⟨-, -, -, -, h5, h6, -⟩ := hR.vertex hk
  obtain ⟨g1, e1, e2⟩ := walk_lin hR.fits hR.len hR.chain hR.perm
    (gradScatter_emits (ι := {i : Nat // E.enabledParameters.mem i = true})
      (by rw [hR.fits.transform]; exact hR.fits.wf : E.transform.WF) pt.transform.rows (fun i => i.1)) (fun i => i.2)
    (dofs := posGradDofs (c.posedVertex p st k.vertexIndex - k.targetPosition)
      (k.weight * 2 * kVertexPositionWeight * E.weight))
    (fun js hjs bw pos => posGradDofs_eq _ _ _ _ (hR.clean js hjs))
    (fun js _ bw pos d hd => by
      simp only [posGradDv, List.mem_cons, List.not_mem_nil, or_false] at hd
      rcases hd with rfl | rfl | rfl | rfl | rfl | rfl | rfl <;> simp)
    (L := fun _ x => k.weight * 2 * kVertexPositionWeight * E.weight *
      (c.posedVertex p st k.vertexIndex - k.targetPosition).dot x)
    (fun i => IsLin.dot _ _) (fun i a bw pos => posGradDv_sum _ _ _ _ _ _ _)
    (ibp := c.inverseBindPose) (v := c.restVertex p k.vertexIndex) h5 h6 s.2
  obtain ⟨g2, g3, e3, e4, -, e5⟩ := hR.shapes hk (κ := fun i : {i : Nat // E.enabledParameters.mem i = true} => i.1)
    (φ := fun i g => g i.1) (L := fun _ x => k.weight * 2 * kVertexPositionWeight * E.weight *
      (c.posedVertex p st k.vertexIndex - k.targetPosition).dot x)
    (fun i => IsLin.dot _ _) (fun col hcol d g => gradAdd_emits _ E.transform.cols (fun x =>
      k.weight * 2 * kVertexPositionWeight * E.weight *
        (c.posedVertex p st k.vertexIndex - k.targetPosition).dot x) col hcol d g) g1
  refine ⟨g3, ?_, fun i hi => ?_⟩
  · unfold VertexError.positionGradient
    simp only [Option.bind_eq_bind, Option.bind_some, hR.diff hk, hR.bones hk, e1, e3, e4]
  · have a1 := e5 ⟨i, hi⟩
    have a2 := e2 ⟨i, hi⟩
    simp only at a1 a2
    rw [a1, a2, add_assoc, vertVel]
    congr 1
    exact ((IsLin.dot _ _).add _ _).symm

include hR in
/-- What a position constraint writes into the Jacobian. -/
theorem Ready.positionJacobian {k : VertexConstraint} (hk : k.vertexIndex < c.vertices.length)
    (hw : 0 ≤ k.weight * kVertexPositionWeight * E.weight) (offset : Nat) (s : JacobianResult) :
    ∃ s', E.positionJacobian st offset s k = some s' ∧ s'.rows = s.rows ∧
      s'.error = s.error + k.weight * kVertexPositionWeight * E.weight *
        (c.posedVertex p st k.vertexIndex - k.targetPosition).sqNorm ∧
      (∀ t, t < offset ∨ offset + 3 ≤ t → s'.residual t = s.residual t ∧
        ∀ i, E.enabledParameters.mem i = true → s'.e i t = s.e i t) ∧
      ∀ b : Fin 3, s'.residual (offset + b) = Real.sqrt (k.weight * kVertexPositionWeight * E.weight) *
          (c.posedVertex p st k.vertexIndex - k.targetPosition).toFn b ∧ ∀ i, E.enabledParameters.mem i = true →
        s'.e i (offset + b) = s.e i (offset + b) + Real.sqrt (k.weight * kVertexPositionWeight * E.weight) *
          (E.vertVel c p st ch i k.vertexIndex).toFn b := by
  obtain ⟨-, -, -, -, h5, h6, -⟩ := hR.vertex hk
  have hLin : ∀ it : {i : Nat // E.enabledParameters.mem i = true} × Nat, IsLin fun x =>
      if h : offset ≤ it.2 ∧ it.2 < offset + 3 then
        ((Real.sqrt (k.weight * kVertexPositionWeight * E.weight)) • x).toFn ⟨it.2 - offset, by omega⟩ else 0 := by
    intro it
    by_cases hb : offset ≤ it.2 ∧ it.2 < offset + 3
    · simp only [hb, and_self, dif_pos, toFn_smul]
      exact IsLin.entry _ _
    · simp only [hb, dif_neg, not_false_iff]
      exact IsLin.nul
  obtain ⟨J1, e1, e2⟩ := walk_lin hR.fits hR.len hR.chain hR.perm
    (jacScatter_emits (m := 3) (ι := {i : Nat // E.enabledParameters.mem i = true})
      (by rw [hR.fits.transform]; exact hR.fits.wf : E.transform.WF) offset pt.transform.rows (fun i => i.1))
    (fun it => it.1.2)
    (dofs := posJacDofs (Real.sqrt (k.weight * kVertexPositionWeight * E.weight)))
    (fun js hjs bw pos => posJacDofs_eq _ _ _ (hR.clean js hjs))
    (fun js _ bw pos d hd => by
      simp only [posJacDv, List.mem_cons, List.not_mem_nil, or_false] at hd
      rcases hd with rfl | rfl | rfl | rfl | rfl | rfl | rfl <;> simp)
    hLin (fun it a bw pos => by
      by_cases hb : offset ≤ it.2 ∧ it.2 < offset + 3
      · simp only [hb, and_self, dif_pos, toFn_smul]
        exact posJacDv_sum _ _ _ _ _ _ _
      · simp only [hb, dif_neg, not_false_iff, dofSum_zero, mul_zero])
    (ibp := c.inverseBindPose) (v := c.restVertex p k.vertexIndex) h5 h6 s.e
  obtain ⟨J2, J3, e3, e4, -, e5⟩ := hR.shapes hk
    (κ := fun it : {i : Nat // E.enabledParameters.mem i = true} × Nat => it.1.1)
    (φ := fun it J => J it.1.1 it.2) hLin
    (fun col hcol d J => jacAdd_emits (fun i : {i : Nat // E.enabledParameters.mem i = true} => i.1) E.transform.cols offset
      (fun x => ((Real.sqrt (k.weight * kVertexPositionWeight * E.weight)) • x).toFn) col hcol d J) J1
  have hcol : ∀ i (hi : E.enabledParameters.mem i = true) t, J3 i t = s.e i t +
      if h : offset ≤ t ∧ t < offset + 3 then
        ((Real.sqrt (k.weight * kVertexPositionWeight * E.weight)) • E.vertVel c p st ch i k.vertexIndex).toFn
          ⟨t - offset, by omega⟩ else 0 := by
    intro i hi t
    have a1 := e5 (⟨i, hi⟩, t)
    have a2 := e2 (⟨i, hi⟩, t)
    simp only at a1 a2
    rw [a1, a2, add_assoc]
    congr 1
    exact ((hLin (⟨i, hi⟩, t)).add _ _).symm
  have hres : E.positionJacobian st offset s k = some
      { error := s.error + Real.sqrt (k.weight * kVertexPositionWeight * E.weight) *
          Real.sqrt (k.weight * kVertexPositionWeight * E.weight) *
          (c.posedVertex p st k.vertexIndex - k.targetPosition).sqNorm
        rows := s.rows
        e := J3
        residual := fun t => if h : offset ≤ t ∧ t < offset + 3 then
          (Real.sqrt (k.weight * kVertexPositionWeight * E.weight) •
            (c.posedVertex p st k.vertexIndex - k.targetPosition)).toFn ⟨t - offset, by omega⟩ else s.residual t } := by
    unfold VertexError.positionJacobian
    simp only [Option.bind_eq_bind, Option.bind_some, hR.diff hk, hR.bones hk, e1, e3, e4]
  refine ⟨_, hres, rfl, ?_, fun t ht => ⟨?_, fun i hi => ?_⟩, fun b => ⟨?_, fun i hi => ?_⟩⟩
  · simp only [Real.mul_self_sqrt hw]
  · simp only
    rw [dif_neg (by omega)]
  · simp only
    rw [hcol i hi, dif_neg (by omega), add_zero]
  · simp only
    rw [dif_pos (by omega), toFn_smul]
    congr 2
    exact Fin.ext (by simp)
  · simp only
    rw [hcol i hi, dif_pos (by omega), toFn_smul]
    congr 3
    exact Fin.ext (by simp)
end

end VertexError
end Momentum
