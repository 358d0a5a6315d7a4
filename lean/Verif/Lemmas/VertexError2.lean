import Verif.Spec.VertexError
import Verif.Lemmas.VertexError
import Verif.Props.Skinning2
import Verif.Props.Mesh

/-!
# The meshes of the vertex error function
-/

namespace Momentum
open Skeleton

theorem posedNormal_eq (c : SkinnedCharacter) (params : List ℝ) (st : List JointState) (i : Nat) :
    c.posedNormal params st i = (blendedNormal (worldAffines st) c.inverseBindPose (c.skinWeights.getD i [])
      ((c.restNormals params).getD i 0)).normalize := rfl

theorem extractBlendWeights_eq {parameters : List Int} {params : List ℝ} (h : ∀ p ∈ parameters, p < params.length) :
    extractBlendWeights parameters params = some (parameters.map (shapeCoeff params)) := by
  unfold extractBlendWeights
  induction parameters with
  | nil => rfl
  | cons p l ih =>
    rw [List.mapM_cons, ih (fun q hq => h q (by simp [hq]))]
    have hp := h p (by simp)
    by_cases h0 : 0 ≤ p
    · have : p.toNat < params.length := by omega
      simp [h0, shapeCoeff, this]
    · simp [h0, shapeCoeff]

theorem applyDeltas_eq {f : BlendShapeBase} (hf : ∀ sv ∈ f.shapeVectors, sv.length = f.modelSize) {w : List ℝ}
    (hw : w.length ≤ f.shapeVectors.length) {v : List (Vec3 ℝ)} (hv : f.modelSize = v.length) :
    f.applyDeltas w v = some ((List.range v.length).map fun i => v.getD i 0 +
      ((w.zip f.shapeVectors).map fun ws => ws.1 • ws.2.getD i 0).sum) := by
  have h := C52_shape (K := ℝ) ⟨v, f.modelSize, f.shapeVectors⟩ ⟨hv.symm, hf⟩ w
  rw [if_pos hw] at h
  unfold computeShape at h
  rw [if_neg (by simp [hv]), if_neg (by simp only; omega)] at h
  unfold BlendShapeBase.applyDeltas
  rw [if_neg (by omega), if_neg (by simp [hv])]
  have e : (List.range v.length).mapM (blendVertex ⟨v, f.modelSize, f.shapeVectors⟩ w) =
      some (shapeAt ⟨v, f.modelSize, f.shapeVectors⟩ w) := by
    simp only at h
    revert h
    cases (List.range v.length).mapM (blendVertex ⟨v, f.modelSize, f.shapeVectors⟩ w) with
    | none => intro h; cases h
    | some l => intro h; cases h; rfl
  unfold blendVertex at e
  simp only at e
  rw [e]
  unfold shapeAt
  simp only [hv]

theorem zip_coeff (params : List ℝ) (parameters : List Int) (shapes : List (List (Vec3 ℝ))) (i : Nat) :
    (((parameters.map (shapeCoeff params)).zip shapes).map fun ws => ws.1 • ws.2.getD i 0).sum =
      shapeOffset parameters shapes params i := by
  unfold shapeOffset
  rw [List.zip_map_left, List.map_map]
  rfl

theorem getD_map_range {α : Type} [Zero α] (n : Nat) (f : Nat → α) (i : Nat) (hi : i < n) :
    ((List.range n).map f).getD i 0 = f i := by
  simp [List.getD_eq_getElem?_getD, hi]

namespace VertexError

/-- What all reachable objects have in common. -/
structure Kept (B : ErrorBase) (c : SkinnedCharacter) (sort : List BoneWeight → List BoneWeight)
    (type : VertexConstraintType) (E : VertexError) : Prop where
  skel : E.skeleton = B.skeleton
  trans : E.transform = B.transform
  char : E.character = c
  sorted : E.sort = sort
  kind : E.constraintType = type
  neutral : E.neutralMesh = c.vertices
  plain : c.blendShape = none → c.faceExpressionBlendShape = none → E.restMesh = (c.vertices, c.normals)
  rest1 : E.restMesh.1.length = c.vertices.length
  posed1 : E.posedMesh.1.length = c.vertices.length
  posed2 : E.posedMesh.2.length = c.vertices.length
  index : ∀ k ∈ E.constraints, k.vertexIndex < c.vertices.length
  face : c.faceExpressionBlendShape.isSome → type = .position

/-- The object after `updateMeshes`. -/
noncomputable def posed (E : VertexError) (c : SkinnedCharacter) (p : List ℝ) (st : List JointState) : VertexError :=
  { E with
    restMesh := ((List.range c.vertices.length).map (c.restVertex p), c.restNormals p)
    posedMesh := ((List.range c.vertices.length).map (c.posedVertex p st),
      (List.range c.vertices.length).map (c.posedNormal p st)) }

theorem shape_eq {B : ErrorBase} {c : SkinnedCharacter} {sort : List BoneWeight → List BoneWeight}
    {type : VertexConstraintType} {E : VertexError} (hK : E.Kept B c sort type) {joints : Nat} {p : List ℝ}
    (hc : c.Valid joints p.length) : ∃ v, E.shapeVertices p = some v ∧ v.length = c.vertices.length ∧
      E.faceVertices p v = some ((List.range c.vertices.length).map (c.restVertex p)) := by
  unfold shapeVertices faceVertices
  rw [hK.char]
  have hext : ∀ l : List (Vec3 ℝ), l.length = c.vertices.length →
      l = (List.range c.vertices.length).map fun i => l.getD i 0 := by
    intro l hl
    apply List.ext_getElem
    · simp [hl]
    · intro i h1 h2; simp [h1]
  have hbw := extractBlendWeights_eq hc.blendParams
  have hfw := extractBlendWeights_eq hc.faceParams
  cases hb : c.blendShape with
  | none =>
    cases hf : c.faceExpressionBlendShape with
    | none =>
      refine ⟨_, rfl, hK.rest1, ?_⟩
      have := hK.plain hb hf
      simp only [this, Option.some.injEq]
      refine (hext _ rfl).trans (List.map_congr_left fun i hi => ?_)
      simp [SkinnedCharacter.restVertex, hb, hf]
    | some f =>
      refine ⟨_, rfl, hK.rest1, ?_⟩
      obtain ⟨f1, f2, f3⟩ := hc.face f hf
      simp only [hfw, Option.bind_some, Option.isSome_none, Bool.false_eq_true, if_false, hK.neutral]
      rw [applyDeltas_eq f1 (by simpa using f3) f2]
      congr 1
      refine List.map_congr_left fun i hi => ?_
      rw [zip_coeff]
      simp [SkinnedCharacter.restVertex, hb, hf]
  | some b =>
    obtain ⟨b1, b2, b3⟩ := hc.blend b hb
    have hs := C52_shape b b1 (c.blendShapeParameters.map (shapeCoeff p))
    rw [if_pos (by simpa using b3)] at hs
    have hsl : (shapeAt b (c.blendShapeParameters.map (shapeCoeff p))).length = c.vertices.length := by
      simp [shapeAt, b2]
    refine ⟨_, by simp only [hbw, Option.bind_some, hs]; rfl, hsl, ?_⟩
    have hgd : ∀ i < c.vertices.length, (shapeAt b (c.blendShapeParameters.map (shapeCoeff p))).getD i 0 =
        b.baseShape.getD i 0 + shapeOffset c.blendShapeParameters b.shapeVectors p i := by
      intro i hi
      unfold shapeAt
      rw [getD_map_range _ _ _ (by omega), zip_coeff]
    cases hf : c.faceExpressionBlendShape with
    | none =>
      simp only [Option.some.injEq]
      refine (hext _ hsl).trans (List.map_congr_left fun i hi => ?_)
      rw [hgd i (List.mem_range.1 hi)]
      simp [SkinnedCharacter.restVertex, hb, hf]
    | some f =>
      obtain ⟨f1, f2, f3⟩ := hc.face f hf
      simp only [hfw, Option.bind_some, Option.isSome_some, if_true]
      rw [applyDeltas_eq f1 (by simpa using f3) (by omega), hsl]
      congr 1
      refine List.map_congr_left fun i hi => ?_
      rw [zip_coeff, hgd i (List.mem_range.1 hi)]
      simp [SkinnedCharacter.restVertex, hb, hf]

theorem updateMeshes_eq {B : ErrorBase} {c : SkinnedCharacter} {sort : List BoneWeight → List BoneWeight}
    {type : VertexConstraintType} {E : VertexError} (hK : E.Kept B c sort type) {p : List ℝ} {st : List JointState}
    (hc : c.Valid st.length p.length) {order : List Nat} (ho : order.Perm (List.range c.vertices.length)) :
    E.updateMeshes order p st = some (E.posed c p st) := by
  obtain ⟨v, h1, -, h2⟩ := shape_eq hK hc
  have hn : E.restNormals ((List.range c.vertices.length).map (c.restVertex p)) = some (c.restNormals p) ∧
      (c.restNormals p).length = c.vertices.length := by
    obtain ⟨ns, n1, n2, -⟩ := C31_normals ((List.range c.vertices.length).map (c.restVertex p)) c.faces
    unfold restNormals SkinnedCharacter.restNormals
    rw [hK.char]
    by_cases h : (c.blendShape.isSome || c.faceExpressionBlendShape.isSome) = true
    · rw [if_pos h, if_pos h, n1]
      exact ⟨rfl, by simpa using n2⟩
    · rw [if_neg h, if_neg h]
      simp only [Bool.or_eq_true, not_or, Bool.not_eq_true, Option.isSome_eq_false_iff, Option.isNone_iff_eq_none] at h
      rw [hK.plain h.1 h.2]
      exact ⟨rfl, hc.normals⟩
  obtain ⟨ns, m1, m2, m3, -⟩ := C25_mesh order c.inverseBindPose (worldAffines st) c.skinWeights
    ((List.range c.vertices.length).map (c.restVertex p)) (c.restNormals p) E.posedMesh (by simpa using ho)
    (by rw [hc.bind]; simp [worldAffines]) (by simpa using hc.skin) (by simpa using hn.2) (by simpa using hK.posed1)
    (by rw [hn.2]; exact hK.posed2) (by rw [hc.bind]; exact hc.indices) hc.first
  unfold updateMeshes
  simp only [Option.bind_eq_bind, Option.bind_some, h1, h2, hn.1]
  rw [hK.char, m1]
  simp only [Outcome.value, Option.bind_some, posed, Option.some.injEq]
  have e1 : List.zipWith (fun row p => blended (worldAffines st) c.inverseBindPose row p) c.skinWeights
      ((List.range c.vertices.length).map (c.restVertex p)) = (List.range c.vertices.length).map (c.posedVertex p st) := by
    apply List.ext_getElem
    · simp [hc.skin]
    · intro i i1 i2
      have hi : i < c.skinWeights.length := by simp at i1; exact i1.1
      simp [SkinnedCharacter.posedVertex, hi]
  have e2 : ns = (List.range c.vertices.length).map (c.posedNormal p st) := by
    apply List.ext_getElem?
    intro i
    by_cases hi : i < c.vertices.length
    · have a1 : c.skinWeights[i]? = some (c.skinWeights.getD i []) := by
        simp [show i < c.skinWeights.length by rw [hc.skin]; exact hi]
      have a2 : (c.restNormals p)[i]? = some ((c.restNormals p).getD i 0) := by
        simp [show i < (c.restNormals p).length by rw [hn.2]; exact hi]
      rw [m3 i _ _ a1 a2, ← posedNormal_eq]
      simp [hi]
    · rw [List.getElem?_eq_none (by simp at m2; omega), List.getElem?_eq_none (by simp; omega)]
  rw [e1, e2, hK.char]

theorem posed_kept {B : ErrorBase} {c : SkinnedCharacter} {sort : List BoneWeight → List BoneWeight}
    {type : VertexConstraintType} {E : VertexError} (hK : E.Kept B c sort type) (p : List ℝ) (st : List JointState) :
    (E.posed c p st).Kept B c sort type := by
  refine ⟨hK.skel, hK.trans, hK.char, hK.sorted, hK.kind, hK.neutral, fun h1 h2 => ?_, by simp [posed], by simp [posed],
    by simp [posed], hK.index, hK.face⟩
  simp only [posed, SkinnedCharacter.restNormals, h1, h2, Option.isSome_none, Bool.or_self, Bool.false_eq_true, if_false]
  congr 1
  apply List.ext_getElem
  · simp
  · intro i i1 i2; simp [SkinnedCharacter.restVertex, h1, h2, i2]

end VertexError
end Momentum
