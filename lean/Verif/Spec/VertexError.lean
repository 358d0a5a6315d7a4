import Verif.Model.VertexError
import Verif.Spec.Skinning

/-!
# Specification vocabulary for the vertex error function: where the vertices of a character are
-/

namespace Momentum

/-- The coefficient of a shape whose parameter has index `p`; a negative index stands for no parameter. -/
noncomputable def shapeCoeff (params : List ℝ) (p : Int) : ℝ := if 0 ≤ p then params.getD p.toNat 0 else 0

/-- How far the shapes move vertex `i`. -/
noncomputable def shapeOffset (parameters : List Int) (shapes : List (List (Vec3 ℝ))) (params : List ℝ) (i : Nat) : Vec3 ℝ :=
  ((parameters.zip shapes).map fun ps => shapeCoeff params ps.1 • ps.2.getD i 0).sum

namespace SkinnedCharacter

/-- Where vertex `i` is at rest: the base shape (or the mesh, without a blend shape) and the offsets of all shapes. -/
noncomputable def restVertex (c : SkinnedCharacter) (params : List ℝ) (i : Nat) : Vec3 ℝ :=
  (match c.blendShape with
    | none => c.vertices.getD i 0
    | some b => b.baseShape.getD i 0 + shapeOffset c.blendShapeParameters b.shapeVectors params i) +
  (match c.faceExpressionBlendShape with
    | none => 0
    | some f => shapeOffset c.faceExpressionParameters f.shapeVectors params i)

/-- Where vertex `i` is in the world. -/
noncomputable def posedVertex (c : SkinnedCharacter) (params : List ℝ) (st : List JointState) (i : Nat) : Vec3 ℝ :=
  blended (worldAffines st) c.inverseBindPose (c.skinWeights.getD i []) (c.restVertex params i)

/-- The normals at rest: those of the mesh, or those computed from the shape when there are shapes. -/
noncomputable def restNormals (c : SkinnedCharacter) (params : List ℝ) : List (Vec3 ℝ) :=
  if c.blendShape.isSome || c.faceExpressionBlendShape.isSome then
    (updateNormals ((List.range c.vertices.length).map (c.restVertex params)) c.faces).getD []
  else c.normals

/-- The normal at vertex `i` in the world. -/
noncomputable def posedNormal (c : SkinnedCharacter) (params : List ℝ) (st : List JointState) (i : Nat) : Vec3 ℝ :=
  ((c.skinWeights.getD i []).map fun jw => jw.2 •
    (movedBy (worldAffines st) c.inverseBindPose ((c.restNormals params).getD i 0) jw.1 -
      movedBy (worldAffines st) c.inverseBindPose 0 jw.1)).sum.normalize

/-- A character whose parts fit together, for `joints` joints and `cols` model parameters: one normal and one row of skin
weights for each vertex, skin weights that are not negative and come with the non-zero ones first, shapes with as many
vertices as the mesh, and parameters in range. -/
structure Valid (c : SkinnedCharacter) (joints cols : Nat) : Prop where
  normals : c.normals.length = c.vertices.length
  skin : c.skinWeights.length = c.vertices.length
  bind : c.inverseBindPose.length = joints
  indices : IndicesValid c.skinWeights joints
  first : ∀ row ∈ c.skinWeights, WeightsFirst row
  nonneg : ∀ row ∈ c.skinWeights, ∀ jw ∈ row, 0 ≤ jw.2
  blend : ∀ b, c.blendShape = some b →
    b.Valid ∧ b.modelSize = c.vertices.length ∧ c.blendShapeParameters.length ≤ b.shapeVectors.length
  blendParams : ∀ p ∈ c.blendShapeParameters, p < cols
  face : ∀ f, c.faceExpressionBlendShape = some f → (∀ sv ∈ f.shapeVectors, sv.length = f.modelSize) ∧
    f.modelSize = c.vertices.length ∧ c.faceExpressionParameters.length ≤ f.shapeVectors.length
  faceParams : ∀ p ∈ c.faceExpressionParameters, p < cols

/-- Vertex `i` is carried by one joint. -/
def Rigid (c : SkinnedCharacter) (i : Nat) : Prop :=
  ∃ j zs, c.skinWeights.getD i [] = (j, 1) :: zs ∧ ∀ z ∈ zs, z.2 = 0

end SkinnedCharacter

open Classical in
/-- The square that a constraint measures: the squared distance from the vertex to the target, or the squared distance along
the target normal, along the normal of the vertex, or along the mean of the two, the target normal turned to the side of
the normal of the vertex. -/
noncomputable def VertexConstraint.measure (k : VertexConstraint) (type : VertexConstraintType) (c : SkinnedCharacter)
    (params : List ℝ) (st : List JointState) : ℝ :=
  let diff := c.posedVertex params st k.vertexIndex - k.targetPosition
  let n := c.posedNormal params st k.vertexIndex
  match type with
  | .position => diff.sqNorm
  | .plane => diff.dot k.targetNormal ^ 2
  | .normal => diff.dot n ^ 2
  | .symmetricNormal =>
    diff.dot ((1 / 2 : ℝ) • (n + if n.dot k.targetNormal < 0 then (-1 : ℝ) • k.targetNormal else k.targetNormal)) ^ 2

/-- Arguments that fit the character: the threads process every vertex once, in any order, and the sizes match. -/
def SkinnedCharacter.CallOk (c : SkinnedCharacter) (order : List Nat) (params : List ℝ) (st : List JointState) : Prop :=
  order.Perm (List.range c.vertices.length) ∧ c.Valid st.length params.length

/-- The states an object can get into: made by the constructor for a character, and changed by any calls after that. -/
inductive VertexError.Reached (B : ErrorBase) (c : SkinnedCharacter) (sort : List BoneWeight → List BoneWeight)
    (type : VertexConstraintType) : VertexError → Prop
  | new {E} : VertexError.construct B c sort type = some E → Reached B c sort type E
  | configure {E} (w a e) : Reached B c sort type E → Reached B c sort type (E.configure w a e)
  | clear {E} : Reached B c sort type E → Reached B c sort type E.clearConstraints
  | add {E k E'} : Reached B c sort type E → E.addConstraint k = some E' → Reached B c sort type E'
  | error {E o p st x E'} : Reached B c sort type E → c.CallOk o p st → E.getError o p st = some (x, E') →
      Reached B c sort type E'
  | gradient {E o p st g x E'} : Reached B c sort type E → c.CallOk o p st → E.getGradient o p st g = some (x, E') →
      Reached B c sort type E'
  | jacobian {E o p st n J r x E'} : Reached B c sort type E → c.CallOk o p st →
      E.getJacobian o p st n J r = some (x, E') → Reached B c sort type E'

end Momentum
