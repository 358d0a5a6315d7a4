import Verif.Model.ErrorBase
import Verif.Model.ConstraintError
import Verif.Model.Skinning
import Verif.Model.Mesh

/-!
# The vertex error function

momentum/character_solver/vertex_error_function.{h,cpp}, over the reals.  Every call that updates the object returns the
new object.  `none` is an exception, a failed check, a read or write out of range or through a null pointer, or a loop that
does not end.
-/

namespace Momentum

/-- vertex_error_function.h:18-33 `VertexConstraintT`.  `addConstraint` does not accept negative indices. -/
structure VertexConstraint where
  vertexIndex : Nat
  weight : ℝ
  targetPosition : Vec3 ℝ
  targetNormal : Vec3 ℝ

/-- vertex_error_function.h:35-40 `VertexConstraintType`. -/
inductive VertexConstraintType where
  | position
  | plane
  | normal
  | symmetricNormal
  deriving DecidableEq

/-- character/blend_shape_base.h: the matrix `shapeVectors`, as in `BlendShape`. -/
structure BlendShapeBase where
  modelSize : Nat
  shapeVectors : List (List (Vec3 ℝ))

/-- character/blend_shape_base.cpp:15-32 `computeDeltas` and `applyDeltas`; vectors of different sizes are an error. -/
def BlendShapeBase.applyDeltas (b : BlendShapeBase) (weights : List ℝ) (result : List (Vec3 ℝ)) :
    Option (List (Vec3 ℝ)) :=
  if b.shapeVectors.length < weights.length then none
  else if b.modelSize ≠ result.length then none
  else (List.range result.length).mapM fun i => do
    let base ← result[i]?
    let offs ← (b.shapeVectors.take weights.length).mapM fun sv => sv[i]?
    some (base + (List.zipWith (fun w o => w • o) weights offs).sum)

/-- What the error function reads of the character (character.h); the transform of the parameters is in `ErrorBase`.  The
rows of the skin weights have `kMaxSkinJoints` entries in the code. -/
structure SkinnedCharacter where
  vertices : List (Vec3 ℝ)
  normals : List (Vec3 ℝ)
  faces : List (Int × Int × Int)
  skinWeights : List (List (Nat × ℝ))
  inverseBindPose : List (Affine ℝ)
  blendShape : Option (BlendShape ℝ)
  faceExpressionBlendShape : Option BlendShapeBase
  blendShapeParameters : List Int
  faceExpressionParameters : List Int

/-- vertex_error_function.cpp:110-129 `BoneWeightT`. -/
structure BoneWeight where
  parentBone : Nat
  weight : ℝ
  weightedPoint : Vec3 ℝ

/-- vertex_error_function.h:124-137: the members.  `sort` is the `std::sort` of vertex_error_function.cpp:170, of which
only the order by joint is known.  (The check that there are a mesh and skin weights is left out: here they are always
there.) -/
structure VertexError extends ErrorBase where
  character : SkinnedCharacter
  sort : List BoneWeight → List BoneWeight
  constraints : List VertexConstraint
  neutralMesh : List (Vec3 ℝ)
  restMesh : List (Vec3 ℝ) × List (Vec3 ℝ)
  posedMesh : List (Vec3 ℝ) × List (Vec3 ℝ)
  constraintType : VertexConstraintType

/-- vertex_error_function.h:80 with position_error_function.h:64. -/
noncomputable def kVertexPositionWeight : ℝ := 1 / 10000
/-- vertex_error_function.h:81 with plane_error_function.h:87. -/
noncomputable def kVertexPlaneWeight : ℝ := 1 / 10000

/-- vertex_error_function.cpp:194-213: where the first entry goes when its joint has become `p`: past the entries with
larger joints, and into the entry with the same joint if there is one. -/
noncomputable def relocate (b : BoneWeight) : List BoneWeight → List BoneWeight
  | [] => [b]
  | c :: rest =>
    if b.parentBone < c.parentBone then c :: relocate b rest
    else if b.parentBone = c.parentBone then
      ⟨b.parentBone, b.weight + c.weight, b.weightedPoint + c.weightedPoint⟩ :: rest
    else b :: c :: rest

/-- vertex_error_function.cpp:186-214: the entries after the first one moved to `parent`. -/
noncomputable def advance (parent : Option Nat) (b : BoneWeight) (rest : List BoneWeight) : List BoneWeight :=
  match parent with
  | none => rest
  | some p => relocate { b with parentBone := p } rest

/-- The loop `while (!skinningIter.finished())` (vertex_error_function.cpp:323-363,429-466,547-590,656-698) with
`SkinningWeightIteratorT::next` (:182-218).  `dofs` lists the degrees of freedom of the joint with the value computed for
each from the weight and the position that `next` returns. -/
noncomputable def skinWalk {α σ : Type} (skel : Skeleton ℝ) (active : List Bool) (st : List JointState)
    (dofs : ℝ → Vec3 ℝ → JointState → List (Nat × Option α)) (emit : Nat → α → σ → Option σ) (l : List BoneWeight) (s : σ) :
    Option σ :=
  match l with
  | [] => some s
  | b :: rest =>
    match skel.joints[b.parentBone]?, st[b.parentBone]? with
    | some jt, some js =>
      match (dofs b.weight ((1 / b.weight) • b.weightedPoint) js).foldlM (activeStep active emit (b.parentBone * 7)) s with
      | none => none
      | some s' => skinWalk skel active st dofs emit (advance jt.parent b rest) s'
    | _, _ => none
partial_fixpoint

/-- `jac.col(col) += jc` where `jac` are the `m` rows from `offset` on. -/
def jacAdd {m : Nat} (cols offset col : Nat) (jc : Fin m → ℝ) (J : Nat → Nat → ℝ) : Option (Nat → Nat → ℝ) :=
  if col < cols then
    some (Function.update J col fun t =>
      if h : offset ≤ t ∧ t < offset + m then J col t + jc ⟨t - offset, by omega⟩ else J col t)
  else none

/-- The value of a computation that neither throws nor has undefined behaviour. -/
def Outcome.value {α : Type} : Outcome α → Option α
  | .ok a => some a
  | _ => none

namespace VertexError

/-- vertex_error_function.cpp:30-46: the constructor. -/
def construct (B : ErrorBase) (c : SkinnedCharacter) (sort : List BoneWeight → List BoneWeight)
    (type : VertexConstraintType) : Option VertexError :=
  if c.faceExpressionBlendShape.isSome ∧ type ≠ .position then none
  else some ⟨B, c, sort, [], c.vertices, (c.vertices, c.normals), (c.vertices, c.normals), type⟩

/-- vertex_error_function.cpp:51-54 `clearConstraints`. -/
def clearConstraints (E : VertexError) : VertexError := { E with constraints := [] }

/-- vertex_error_function.cpp:56-64 `addConstraint`. -/
def addConstraint (E : VertexError) (c : VertexConstraint) : Option VertexError :=
  if c.vertexIndex < E.character.vertices.length then some { E with constraints := E.constraints ++ [c] } else none

/-- skeleton_error_function.h: `setWeight`, `setActiveJoints` and `setEnabledParameters`. -/
def configure (E : VertexError) (w : ℝ) (active : List Bool) (enabled : ParameterSet) : VertexError :=
  { E with weight := w, activeJointParams := active, enabledParameters := enabled }

/-- vertex_error_function.cpp:844-849: the shape from the blend shape. -/
noncomputable def shapeVertices (E : VertexError) (params : List ℝ) : Option (List (Vec3 ℝ)) :=
  match E.character.blendShape with
  | none => some E.restMesh.1
  | some b => (extractBlendWeights E.character.blendShapeParameters params).bind fun w => (computeShape b w).value

/-- vertex_error_function.cpp:850-865: the face expression on top. -/
noncomputable def faceVertices (E : VertexError) (params : List ℝ) (v : List (Vec3 ℝ)) : Option (List (Vec3 ℝ)) :=
  match E.character.faceExpressionBlendShape with
  | none => some v
  | some f =>
    (extractBlendWeights E.character.faceExpressionParameters params).bind fun w =>
      f.applyDeltas w (if E.character.blendShape.isSome then v else E.neutralMesh)

/-- vertex_error_function.cpp:866-868. -/
noncomputable def restNormals (E : VertexError) (v : List (Vec3 ℝ)) : Option (List (Vec3 ℝ)) :=
  if E.character.blendShape.isSome || E.character.faceExpressionBlendShape.isSome then updateNormals v E.character.faces
  else some E.restMesh.2

/-- vertex_error_function.cpp:837-877 `updateMeshes`.  `order` is the order in which the threads of `applySSD` process the
vertices. -/
noncomputable def updateMeshes (E : VertexError) (order : List Nat) (params : List ℝ) (st : List JointState) :
    Option VertexError := do
  let v ← E.shapeVertices params
  let v ← E.faceVertices params v
  let n ← E.restNormals v
  let posed ← (applySSDMesh order E.character.inverseBindPose E.character.skinWeights v n (worldAffines st)
    E.posedMesh).value
  some { E with restMesh := (v, n), posedMesh := posed }

/-- vertex_error_function.cpp:735-746 `computeNormalWeights`. -/
noncomputable def computeNormalWeights (E : VertexError) : ℝ × ℝ :=
  match E.constraintType with
  | .plane => (0, 1)
  | .normal => (1, 0)
  | _ => (1 / 2, 1 / 2)

/-- `posedMesh_->vertices[constr.vertexIndex] - constr.targetPosition`. -/
noncomputable def diffOf (E : VertexError) (c : VertexConstraint) : Option (Vec3 ℝ) :=
  (E.posedMesh.1[c.vertexIndex]?).map fun v => v - c.targetPosition

open Classical in
/-- vertex_error_function.cpp:90-94 and two more times: the source normal and the target normal, turned to the side of
the source normal. -/
noncomputable def normalsOf (E : VertexError) (c : VertexConstraint) : Option (Vec3 ℝ × Vec3 ℝ) :=
  (E.posedMesh.2[c.vertexIndex]?).map fun sourceNormal =>
    (sourceNormal, if sourceNormal.dot c.targetNormal < 0 then (-1 : ℝ) • c.targetNormal else c.targetNormal)

/-- vertex_error_function.cpp:95-96: the blend of the two normals. -/
noncomputable def blendNormals (E : VertexError) (n : Vec3 ℝ × Vec3 ℝ) : Vec3 ℝ :=
  E.computeNormalWeights.1 • n.1 + E.computeNormalWeights.2 • n.2

/-- vertex_error_function.cpp:77-103: what one constraint adds to the error. -/
noncomputable def errorOf (E : VertexError) (c : VertexConstraint) : Option ℝ :=
  match E.constraintType with
  | .position => (E.diffOf c).map fun diff => c.weight * diff.sqNorm * kVertexPositionWeight
  | _ => do
    let n ← E.normalsOf c
    let diff ← E.diffOf c
    let dist := (E.blendNormals n).dot diff
    some (c.weight * dist * dist * kVertexPlaneWeight)

/-- vertex_error_function.cpp:66-108 `getError`. -/
noncomputable def getError (E : VertexError) (order : List Nat) (params : List ℝ) (st : List JointState) :
    Option (ℝ × VertexError) := do
  let E ← E.updateMeshes order params st
  let error ← E.constraints.foldlM (fun error c => (E.errorOf c).map fun x => error + x) 0
  some (error * E.weight, E)

/-- vertex_error_function.cpp:157-169: one pass of the loop in the constructor of the iterator. -/
noncomputable def boneStep (E : VertexError) (st : List JointState) (v : Vec3 ℝ) (acc : List BoneWeight) (jw : Nat × ℝ) :
    Option (List BoneWeight) :=
  if 0 < jw.2 then do
    let js ← st[jw.1]?
    let ib ← E.character.inverseBindPose[jw.1]?
    some (acc ++ [⟨jw.1, jw.2, jw.2 • js.transform.toAffine3.apply (ib.apply v)⟩])
  else some acc

/-- vertex_error_function.cpp:148-174: the constructor of the iterator.  The check of the invariants is compiled in debug
builds only and left out. -/
noncomputable def boneWeights (E : VertexError) (st : List JointState) (vertexIndex : Nat) : Option (List BoneWeight) := do
  let row ← E.character.skinWeights[vertexIndex]?
  let v ← E.restMesh.1[vertexIndex]?
  let l ← row.foldlM (E.boneStep st v) []
  some (E.sort l)

/-- vertex_error_function.cpp:294-302: one pass of the loop below. -/
noncomputable def dWorldStep (E : VertexError) (st : List JointState) (d_restPos acc : Vec3 ℝ) (jw : Nat × ℝ) :
    Option (Vec3 ℝ) :=
  if 0 < jw.2 then do
    let js ← st[jw.1]?
    let ib ← E.character.inverseBindPose[jw.1]?
    some (acc + jw.2 • js.transform.toAffine3.linear.mulVec (ib.linear.mulVec d_restPos))
  else some acc

/-- vertex_error_function.cpp:288-305 `calculateDWorldPos` (and the same loop at :608-616,716-724). -/
noncomputable def dWorldPos (E : VertexError) (st : List JointState) (vertexIndex : Nat) (d_restPos : Vec3 ℝ) :
    Option (Vec3 ℝ) := do
  let row ← E.character.skinWeights[vertexIndex]?
  row.foldlM (E.dWorldStep st d_restPos) 0

/-- vertex_error_function.cpp:370-383 and five more times: one shape parameter.  `emit` adds what belongs to the parameter,
given how the vertex moves in the world. -/
noncomputable def shapeStep {σ : Type} (E : VertexError) (st : List JointState) (vertexIndex : Nat)
    (shapeVectors : Option (List (List (Vec3 ℝ)))) (emit : Nat → Vec3 ℝ → σ → Option σ) (s : σ) (kp : Nat × Int) :
    Option σ :=
  if kp.2 < 0 then some s
  else do
    let shapes ← shapeVectors
    let shape ← shapes[kp.1]?
    let d_restPos ← shape[vertexIndex]?
    let d ← E.dWorldPos st vertexIndex d_restPos
    emit kp.2.toNat d s

/-- The loop over the shape parameters. -/
noncomputable def shapeLoop {σ : Type} (E : VertexError) (st : List JointState) (vertexIndex : Nat)
    (shapeVectors : Option (List (List (Vec3 ℝ)))) (parameters : List Int) (emit : Nat → Vec3 ℝ → σ → Option σ) (s : σ) :
    Option σ :=
  (parameters.mapIdx fun k p => (k, p)).foldlM (E.shapeStep st vertexIndex shapeVectors emit) s

/-- vertex_error_function.cpp:366-385 (and 470-488,593-620): the blend shape, only if there is one. -/
noncomputable def blendLoop {σ : Type} (E : VertexError) (st : List JointState) (vertexIndex : Nat)
    (emit : Nat → Vec3 ℝ → σ → Option σ) (s : σ) : Option σ :=
  match E.character.blendShape with
  | none => some s
  | some b => E.shapeLoop st vertexIndex (some b.shapeVectors) E.character.blendShapeParameters emit s

/-- vertex_error_function.cpp:388-406 (and 492-510): the face expression, only if there is one. -/
noncomputable def faceLoop {σ : Type} (E : VertexError) (st : List JointState) (vertexIndex : Nat)
    (emit : Nat → Vec3 ℝ → σ → Option σ) (s : σ) : Option σ :=
  match E.character.faceExpressionBlendShape with
  | none => some s
  | some f => E.shapeLoop st vertexIndex (some f.shapeVectors) E.character.faceExpressionParameters emit s

/-- `gradient[paramIdx] += x`. -/
def gradAdd (cols : Nat) (col : Nat) (x : ℝ) (g : Nat → ℝ) : Option (Nat → ℝ) :=
  if col < cols then some (Function.update g col (g col + x)) else none

/-- vertex_error_function.cpp:332-362: the degrees of freedom of a joint in `calculatePositionGradient`. -/
noncomputable def posGradDofs (diff : Vec3 ℝ) (wgt boneWeight : ℝ) (pos : Vec3 ℝ) (js : JointState) :
    List (Nat × Option ℝ) :=
  let posd := pos - js.transform.translation
  let t (d : Fin 3) : Option ℝ := (js.getTranslationDerivative d).map fun v => boneWeight * diff.dot v * wgt
  let r (d : Fin 3) : Option ℝ := (js.getRotationDerivative d posd).map fun v => boneWeight * diff.dot v * wgt
  [(0, t 0), (3, r 0), (1, t 1), (4, r 1), (2, t 2), (5, r 2),
    (6, some (boneWeight * diff.dot (js.getScaleDerivative posd) * wgt))]

/-- vertex_error_function.cpp:307-410 `calculatePositionGradient`; `s` holds the error so far and the gradient. -/
noncomputable def positionGradient (E : VertexError) (st : List JointState) (s : ℝ × (Nat → ℝ)) (c : VertexConstraint) :
    Option (ℝ × (Nat → ℝ)) := do
  let diff ← E.diffOf c
  let wgt := c.weight * 2 * kVertexPositionWeight * E.weight
  let bones ← E.boneWeights st c.vertexIndex
  let g ← skinWalk E.skeleton E.activeJointParams st (posGradDofs diff wgt) (gradScatter E.transform) bones s.2
  let g ← E.blendLoop st c.vertexIndex (fun col d => gradAdd E.transform.cols col (wgt * diff.dot d)) g
  let g ← E.faceLoop st c.vertexIndex (fun col d => gradAdd E.transform.cols col (wgt * diff.dot d)) g
  some (s.1 + c.weight * diff.sqNorm * kVertexPositionWeight, g)

/-- vertex_error_function.cpp:438-465: the degrees of freedom of a joint in `calculatePositionJacobian`. -/
noncomputable def posJacDofs (wgt boneWeight : ℝ) (pos : Vec3 ℝ) (js : JointState) : List (Nat × Option (Fin 3 → ℝ)) :=
  let posd := pos - js.transform.translation
  let t (d : Fin 3) : Option (Fin 3 → ℝ) := (js.getTranslationDerivative d).map fun v => ((boneWeight * wgt) • v).toFn
  let r (d : Fin 3) : Option (Fin 3 → ℝ) := (js.getRotationDerivative d posd).map fun v => ((boneWeight * wgt) • v).toFn
  [(0, t 0), (3, r 0), (1, t 1), (4, r 1), (2, t 2), (5, r 2),
    (6, some ((boneWeight * wgt) • js.getScaleDerivative posd).toFn)]

/-- vertex_error_function.cpp:412-516 `calculatePositionJacobian` on the three rows from `offset` on. -/
noncomputable def positionJacobian (E : VertexError) (st : List JointState) (offset : Nat) (s : JacobianResult)
    (c : VertexConstraint) : Option JacobianResult := do
  let diff ← E.diffOf c
  let wgt := Real.sqrt (c.weight * kVertexPositionWeight * E.weight)
  let bones ← E.boneWeights st c.vertexIndex
  let J ← skinWalk E.skeleton E.activeJointParams st (posJacDofs wgt) (jacScatter E.transform offset) bones s.e
  let J ← E.blendLoop st c.vertexIndex (fun col d => jacAdd E.transform.cols offset col (wgt • d).toFn) J
  let J ← E.faceLoop st c.vertexIndex (fun col d => jacAdd E.transform.cols offset col (wgt • d).toFn) J
  some
    { error := s.error + wgt * wgt * diff.sqNorm
      rows := s.rows
      e := J
      residual := fun t => if h : offset ≤ t ∧ t < offset + 3 then (wgt • diff).toFn ⟨t - offset, by omega⟩ else s.residual t }

/-- vertex_error_function.cpp:569-576 (and 678-684): the derivative for a rotation. -/
noncomputable def rotTerm (sw tw : ℝ) (sourceNormal targetNormal targetPosition : Vec3 ℝ) (js : JointState) (d : Fin 3)
    (v : Vec3 ℝ) : ℝ :=
  let cross := ((-1 : ℝ) • sourceNormal).cross (targetPosition - js.transform.translation)
  sw * (js.rotationAxis d).dot cross + tw * targetNormal.dot v

/-- vertex_error_function.cpp:553-589: the degrees of freedom of a joint in `calculateNormalGradient`. -/
noncomputable def nrmGradDofs (sw tw : ℝ) (n : Vec3 ℝ × Vec3 ℝ) (normal targetPosition : Vec3 ℝ) (wgt dist boneWeight : ℝ)
    (pos : Vec3 ℝ) (js : JointState) : List (Nat × Option ℝ) :=
  let posd := pos - js.transform.translation
  let t (d : Fin 3) : Option ℝ := (js.getTranslationDerivative d).map fun v => boneWeight * wgt * dist * normal.dot v
  let r (d : Fin 3) : Option ℝ := (js.getRotationDerivative d posd).map fun v =>
    boneWeight * wgt * dist * rotTerm sw tw n.1 n.2 targetPosition js d v
  [(0, t 0), (3, r 0), (1, t 1), (4, r 1), (2, t 2), (5, r 2),
    (6, some (boneWeight * wgt * dist * normal.dot (js.getScaleDerivative posd)))]

/-- vertex_error_function.cpp:518-624 `calculateNormalGradient`. -/
noncomputable def normalGradient (E : VertexError) (st : List JointState) (s : ℝ × (Nat → ℝ)) (c : VertexConstraint) :
    Option (ℝ × (Nat → ℝ)) := do
  let n ← E.normalsOf c
  let normal := E.blendNormals n
  let diff ← E.diffOf c
  let dist := diff.dot normal
  let wgt := c.weight * 2 * kVertexPositionWeight * E.weight
  let bones ← E.boneWeights st c.vertexIndex
  let g ← skinWalk E.skeleton E.activeJointParams st
    (nrmGradDofs E.computeNormalWeights.1 E.computeNormalWeights.2 n normal c.targetPosition wgt dist)
    (gradScatter E.transform) bones s.2
  let g ← E.blendLoop st c.vertexIndex (fun col d => gradAdd E.transform.cols col (wgt * dist * normal.dot d)) g
  some (s.1 + c.weight * dist * dist * kVertexPlaneWeight, g)

/-- vertex_error_function.cpp:662-697: the degrees of freedom of a joint in `calculateNormalJacobian`. -/
noncomputable def nrmJacDofs (sw tw : ℝ) (n : Vec3 ℝ × Vec3 ℝ) (normal targetPosition : Vec3 ℝ) (wgt boneWeight : ℝ)
    (pos : Vec3 ℝ) (js : JointState) : List (Nat × Option (Fin 1 → ℝ)) :=
  let posd := pos - js.transform.translation
  let t (d : Fin 3) : Option (Fin 1 → ℝ) := (js.getTranslationDerivative d).map fun v _ => boneWeight * wgt * normal.dot v
  let r (d : Fin 3) : Option (Fin 1 → ℝ) := (js.getRotationDerivative d posd).map fun v _ =>
    boneWeight * wgt * rotTerm sw tw n.1 n.2 targetPosition js d v
  [(0, t 0), (3, r 0), (1, t 1), (4, r 1), (2, t 2), (5, r 2),
    (6, some fun _ => boneWeight * wgt * normal.dot (js.getScaleDerivative posd))]

/-- vertex_error_function.cpp:626-733 `calculateNormalJacobian` on row `offset`.  The blend shape is read without a check
that there is one. -/
noncomputable def normalJacobian (E : VertexError) (st : List JointState) (offset : Nat) (s : JacobianResult)
    (c : VertexConstraint) : Option JacobianResult := do
  let n ← E.normalsOf c
  let normal := E.blendNormals n
  let diff ← E.diffOf c
  let dist := diff.dot normal
  let wgt := Real.sqrt (c.weight * kVertexPositionWeight * E.weight)
  let bones ← E.boneWeights st c.vertexIndex
  let J ← skinWalk E.skeleton E.activeJointParams st
    (nrmJacDofs E.computeNormalWeights.1 E.computeNormalWeights.2 n normal c.targetPosition wgt)
    (jacScatter E.transform offset) bones s.e
  let J ← E.shapeLoop st c.vertexIndex (E.character.blendShape.map (·.shapeVectors)) E.character.blendShapeParameters
    (fun col d => jacAdd (m := 1) E.transform.cols offset col fun _ => wgt * d.dot normal) J
  some
    { error := s.error + wgt * wgt * dist * dist
      rows := s.rows
      e := J
      residual := fun t => if t = offset then dist * wgt else s.residual t }

/-- vertex_error_function.cpp:757-773: one constraint in `getGradient`. -/
noncomputable def gradStep (E : VertexError) (st : List JointState) (s : ℝ × (Nat → ℝ)) (c : VertexConstraint) :
    Option (ℝ × (Nat → ℝ)) :=
  match E.constraintType with
  | .position => E.positionGradient st s c
  | _ => E.normalGradient st s c

/-- vertex_error_function.cpp:748-775 `getGradient`: the returned error, the gradient and the object after the call. -/
noncomputable def getGradient (E : VertexError) (order : List Nat) (params : List ℝ) (st : List JointState)
    (gradient : Nat → ℝ) : Option ((ℝ × (Nat → ℝ)) × VertexError) := do
  let E ← E.updateMeshes order params st
  let s ← E.constraints.foldlM (E.gradStep st) (0, gradient)
  some ((E.weight * s.1, s.2), E)

/-- vertex_error_function.cpp:824-835 `getJacobianSize`. -/
def getJacobianSize (E : VertexError) : Nat :=
  match E.constraintType with
  | .position => 3 * E.constraints.length
  | _ => E.constraints.length

/-- vertex_error_function.cpp:792-819: one constraint in `getJacobian`, on a Jacobian of `n` rows; the block is out of range
if it does not end within them. -/
noncomputable def jacStep (E : VertexError) (st : List JointState) (n : Nat) (s : JacobianResult)
    (kc : Nat × VertexConstraint) : Option JacobianResult :=
  match E.constraintType with
  | .position => if 3 * kc.1 + 3 ≤ n then E.positionJacobian st (3 * kc.1) s kc.2 else none
  | _ => if kc.1 + 1 ≤ n then E.normalJacobian st kc.1 s kc.2 else none

/-- vertex_error_function.cpp:777-822 `getJacobian` on blocks of `n` rows with the contents given.  The check of the number
of columns is left out: the Jacobian here has those of the parameter transform. -/
noncomputable def getJacobian (E : VertexError) (order : List Nat) (params : List ℝ) (st : List JointState) (n : Nat)
    (jacobian : Nat → Nat → ℝ) (residual : Nat → ℝ) : Option (JacobianResult × VertexError) :=
  if n < 1 * E.constraints.length then none
  else do
    let E ← E.updateMeshes order params st
    let s ← (E.constraints.mapIdx fun k c => (k, c)).foldlM (E.jacStep st n) ⟨0, 0, jacobian, residual⟩
    some ({ s with rows := E.getJacobianSize }, E)

end VertexError
end Momentum
