import Verif.Model.Character
import Verif.Model.Bvh
import Verif.Model.SkeletonState
import Mathlib.Analysis.SpecialFunctions.Sqrt

/-!
# momentum/character/linear_skinning.cpp, blend_shape_skinning.cpp, locator_state.cpp,
collision_geometry_state.cpp, and the scaling / transforming functions of character_utility.cpp

A skeleton state enters through the list of its joint transformations (`jointState[i].transformation`).
A skin weight row is the list of its (index, weight) pairs.  Failed `MT_CHECK`s are `throws`, out-of-range
accesses `ub`.
-/

namespace Momentum

/-- Eigen `Matrix3::inverse()` (cofactors over the determinant).  Over an exact field the result for a singular
matrix is a convention; theorems assume a nonzero determinant. -/
def Mat3.inverse {K : Type} [Field K] (a : Mat3 K) : Mat3 K :=
  let d := a.det
  { m00 := (a.m11 * a.m22 - a.m12 * a.m21) / d
    m01 := (a.m02 * a.m21 - a.m01 * a.m22) / d
    m02 := (a.m01 * a.m12 - a.m02 * a.m11) / d
    m10 := (a.m12 * a.m20 - a.m10 * a.m22) / d
    m11 := (a.m00 * a.m22 - a.m02 * a.m20) / d
    m12 := (a.m02 * a.m10 - a.m00 * a.m12) / d
    m20 := (a.m10 * a.m21 - a.m11 * a.m20) / d
    m21 := (a.m01 * a.m20 - a.m00 * a.m21) / d
    m22 := (a.m00 * a.m11 - a.m01 * a.m10) / d }

/-- Eigen `Affine3::inverse()`: inverse of the linear part, and minus that times the translation.  The last row
of the stored 4x4 matrix is not read. -/
def Affine.inverse {K : Type} [Field K] (a : Affine K) : Affine K :=
  ⟨a.linear.inverse, -(a.linear.inverse.mulVec a.translation)⟩

section
variable {K : Type} [CommRing K] [DecidableEq K]

/-- linear_skinning.cpp:45-49, also :134-137, :254-257: bind pose to output pose, joint by joint. -/
def skinTransforms (world ibp : List (Affine K)) : List (Affine K) := List.zipWith (· * ·) world ibp

/-- linear_skinning.cpp:61-82: the loop over the weights of one vertex; the index check precedes the test for
a zero weight, which ends the loop. -/
def skinPoint (ts : List (Affine K)) (p : Vec3 K) (acc : Vec3 K) : List (Nat × K) → Outcome (Vec3 K)
  | [] => .ok acc
  | (j, w) :: row =>
    match ts[j]? with
    | none => .throws
    | some t => if w = 0 then .ok acc else skinPoint ts p (acc + w • (t.translation + t.linear.mulVec p)) row

/-- linear_skinning.cpp:55-82: one vertex of the parallel loop. -/
def ssdStep (ts : List (Affine K)) (skin : List (List (Nat × K))) (points : List (Vec3 K))
    (res : List (Vec3 K)) (i : Nat) : Outcome (List (Vec3 K)) :=
  match skin[i]?, points[i]? with
  | some row, some p => (skinPoint ts p 0 row).bind fun v => .ok (res.set i v)
  | _, _ => .ub

/-- linear_skinning.cpp:20-86 `applySSD`.  `order` is the order in which the threads process the vertices; each
vertex is treated as one step since it writes only its own output. -/
def applySSD (order : List Nat) (ibp : List (Affine K)) (skin : List (List (Nat × K)))
    (points : List (Vec3 K)) (world : List (Affine K)) : Outcome (List (Vec3 K)) :=
  if world.length ≠ ibp.length then .throws
  else if skin.length ≠ points.length then .throws
  else
    order.foldl (fun (acc : Outcome (List (Vec3 K))) i =>
      acc.bind fun res => ssdStep (skinTransforms world ibp) skin points res i)
      (.ok (List.replicate points.length 0))

/-- `matrix += transformation.matrix() * weight` (linear_skinning.cpp:219, :292), on the upper three rows. -/
def Affine.addScaled (a t : Affine K) (w : K) : Affine K :=
  ⟨⟨a.linear.m00 + t.linear.m00 * w, a.linear.m01 + t.linear.m01 * w, a.linear.m02 + t.linear.m02 * w,
    a.linear.m10 + t.linear.m10 * w, a.linear.m11 + t.linear.m11 * w, a.linear.m12 + t.linear.m12 * w,
    a.linear.m20 + t.linear.m20 * w, a.linear.m21 + t.linear.m21 * w, a.linear.m22 + t.linear.m22 * w⟩,
   a.translation + w • t.translation⟩

/-- `transform.matrix().setZero()`. -/
def Affine.zero : Affine K := ⟨⟨0, 0, 0, 0, 0, 0, 0, 0, 0⟩, 0⟩

/-- linear_skinning.cpp:273-293: the loop over the weights in `applyInverseSSD`. -/
def blendMatrix (ts : List (Affine K)) (acc : Affine K) : List (Nat × K) → Outcome (Affine K)
  | [] => .ok acc
  | (j, w) :: row =>
    match ts[j]? with
    | none => .throws
    | some t => if w = 0 then .ok acc else blendMatrix ts (acc.addScaled t w) row

/-- linear_skinning.cpp:207-219: the loop over the weights in `getInverseSSDTransformation`; there is no index
check and the zero-weight test comes first. -/
def blendMatrixUnchecked (world ibp : List (Affine K)) (acc : Affine K) : List (Nat × K) → Outcome (Affine K)
  | [] => .ok acc
  | (j, w) :: row =>
    if w = 0 then .ok acc
    else
      match world[j]?, ibp[j]? with
      | some a, some b => blendMatrixUnchecked world ibp (acc.addScaled (a * b) w) row
      | _, _ => .ub

end

section
variable {K : Type} [Field K] [DecidableEq K]

/-- linear_skinning.cpp:186-222 `getInverseSSDTransformation`. -/
def getInverseSSDTransformation (ibp : List (Affine K)) (skin : List (List (Nat × K)))
    (world : List (Affine K)) (index : Nat) : Outcome (Affine K) :=
  if world.length ≠ ibp.length then .throws
  else
    match skin[index]? with
    | none => .throws
    | some row => (blendMatrixUnchecked world ibp Affine.zero row).bind fun m => .ok m.inverse

/-- linear_skinning.cpp:263-296: one vertex of `applyInverseSSD`. -/
def inverseStep (ts : List (Affine K)) (skin : List (List (Nat × K))) (points : List (Vec3 K))
    (res : List (Vec3 K)) (i : Nat) : Outcome (List (Vec3 K)) :=
  match skin[i]?, points[i]? with
  | some row, some p => (blendMatrix ts Affine.zero row).bind fun m => .ok (res.set i (m.inverse.apply p))
  | _, _ => .ub

/-- linear_skinning.cpp:236-299 `applyInverseSSD`. -/
def applyInverseSSD (ibp : List (Affine K)) (skin : List (List (Nat × K))) (points : List (Vec3 K))
    (world : List (Affine K)) : Outcome (List (Vec3 K)) :=
  if world.length ≠ ibp.length then .throws
  else if skin.length ≠ points.length then .throws
  else
    (List.range skin.length).foldl (fun (acc : Outcome (List (Vec3 K))) i =>
      acc.bind fun res => inverseStep (skinTransforms world ibp) skin points res i)
      (.ok (List.replicate points.length 0))

end

section
variable {K : Type} [CommRing K] [DecidableEq K]

/-- blend_shape_base.h / blend_shape.h: base shape, and the matrix `shapeVectors`: its number of rows over three
(`modelSize`) and one list of per-vertex offsets per shape (its columns). -/
structure BlendShape (K : Type) where
  baseShape : List (Vec3 K)
  modelSize : Nat
  shapeVectors : List (List (Vec3 K))

/-- `baseVec + shapeVectors.leftCols(weights.size()) * weights` at vertex `i`; entries outside the matrix or
the base shape are `none`. -/
def blendVertex (b : BlendShape K) (weights : List K) (i : Nat) : Option (Vec3 K) := do
  let base ← b.baseShape[i]?
  let offs ← (b.shapeVectors.take weights.length).mapM fun sv => sv[i]?
  some (base + (List.zipWith (fun w o => w • o) weights offs).sum)

/-- blend_shape.cpp:23-37 `computeShape` with blend_shape_base.cpp:15-22 `computeDeltas`. -/
def computeShape (b : BlendShape K) (weights : List K) : Outcome (List (Vec3 K)) :=
  if b.baseShape.length ≠ b.modelSize then .throws
  else if b.shapeVectors.length < weights.length then .throws
  else
    match (List.range b.baseShape.length).mapM (blendVertex b weights) with
    | some l => .ok l
    | none => .ub

/-- blend_shape_skinning.cpp:113-121: rest position of vertex `i`; entries outside the matrix or the base
shape are `none`. -/
def restPosition (bs : Option (BlendShape K)) (vertices : List (Vec3 K)) (weights : List K) (i : Nat) :
    Option (Vec3 K) :=
  match bs with
  | none => vertices[i]?
  | some b => blendVertex b weights i

/-- blend_shape_skinning.cpp:123-133: the loop over the weights; no index check. -/
def skinPointUnchecked (ts : List (Affine K)) (p : Vec3 K) (acc : Vec3 K) : List (Nat × K) → Outcome (Vec3 K)
  | [] => .ok acc
  | (j, w) :: row =>
    if w = 0 then .ok acc
    else
      match ts[j]? with
      | none => .ub
      | some t => skinPointUnchecked ts p (acc + w • (t.linear.mulVec p + t.translation)) row

/-- blend_shape_skinning.cpp:112-135: one vertex of the parallel loop. -/
def blendSkinStep (ts : List (Affine K)) (skin : List (List (Nat × K))) (bs : Option (BlendShape K))
    (vertices : List (Vec3 K)) (weights : List K) (res : List (Vec3 K)) (i : Nat) : Outcome (List (Vec3 K)) :=
  match skin[i]?, restPosition bs vertices weights i with
  | some row, some p => (skinPointUnchecked ts p 0 row).bind fun v => .ok (res.set i v)
  | _, _ => .ub

/-- blend_shape_skinning.cpp:61-141 `skinWithBlendShapes`: the vertices.  The recomputation of the normals at
the end is not included (see the mesh model). -/
def skinWithBlendShapes (order : List Nat) (ibp : List (Affine K)) (skin : List (List (Nat × K)))
    (bs : Option (BlendShape K)) (vertices : List (Vec3 K)) (world : List (Affine K)) (weights : List K) :
    Outcome (List (Vec3 K)) :=
  if world.length ≠ ibp.length then .throws
  else if skin.length ≠ vertices.length then .throws
  else if bs.any (fun b => decide (b.shapeVectors.length < weights.length)) then .throws
  else
    order.foldl (fun (acc : Outcome (List (Vec3 K))) i =>
      acc.bind fun res => blendSkinStep (skinTransforms world ibp) skin bs vertices weights res i)
      (.ok (List.replicate vertices.length 0))

end

/-- blend_shape_skinning.cpp:22-34 `extractBlendWeights`; a parameter index outside the vector is `none`. -/
def extractBlendWeights {K : Type} [Zero K] (blendShapeParameters : List Int) (pose : List K) : Option (List K) :=
  blendShapeParameters.mapM fun p => if 0 ≤ p then pose[p.toNat]? else some 0

/-- character_state.cpp:107-131: the posed vertices of a character without pose shapes. -/
def posedVertices {K : Type} [CommRing K] [DecidableEq K] (order : List Nat) (ibp : List (Affine K))
    (skin : List (List (Nat × K))) (bs : Option (BlendShape K)) (vertices : List (Vec3 K))
    (world : List (Affine K)) (weights : List K) : Outcome (List (Vec3 K)) :=
  match bs with
  | some b => skinWithBlendShapes order ibp skin (some b) vertices world weights
  | none => applySSD order ibp skin vertices world

/-- character.cpp:646-661 `bakeBlendShape`: the mesh vertices of the result.  The result is a copy of the
character, so it keeps its blend shape. -/
def bakedVertices {K : Type} [CommRing K] (bs : Option (BlendShape K)) (vertices : List (Vec3 K))
    (weights : List K) : Outcome (List (Vec3 K)) :=
  match bs with
  | some b => computeShape b weights
  | none => .ok vertices

/-! ### The mesh version, with normals -/

/-- Eigen `normalize()`: divides by the norm when the squared norm is positive. -/
noncomputable def Vec3.normalize (v : Vec3 ℝ) : Vec3 ℝ :=
  if 0 < v.sqNorm then (Real.sqrt v.sqNorm)⁻¹ • v else v

/-- linear_skinning.cpp:153-179: the weight loop of the mesh version; accumulates position and normal. -/
noncomputable def skinPointNormal (ts : List (Affine ℝ)) (p n : Vec3 ℝ) (acc : Vec3 ℝ × Vec3 ℝ) :
    List (Nat × ℝ) → Outcome (Vec3 ℝ × Vec3 ℝ)
  | [] => .ok acc
  | (j, w) :: row =>
    match ts[j]? with
    | none => .throws
    | some t => if w = 0 then .ok acc
      else skinPointNormal ts p n
        (acc.1 + w • (t.translation + t.linear.mulVec p), acc.2 + w • t.linear.mulVec n) row

/-- linear_skinning.cpp:144-181: one vertex.  `mesh.normals[i]` is read although only the sizes of the two
meshes' normals were compared. -/
noncomputable def meshStep (ts : List (Affine ℝ)) (skin : List (List (Nat × ℝ))) (vertices normals : List (Vec3 ℝ))
    (res : List (Vec3 ℝ) × List (Vec3 ℝ)) (i : Nat) : Outcome (List (Vec3 ℝ) × List (Vec3 ℝ)) :=
  match skin[i]?, vertices[i]?, normals[i]? with
  | some row, some p, some n => (skinPointNormal ts p n (0, 0) row).bind fun v =>
      .ok (res.1.set i v.1, res.2.set i v.2.normalize)
  | _, _, _ => .ub

/-- linear_skinning.cpp:98-184 `applySSD` on meshes: vertices and normals of the output mesh.  The checks on
the output mesh's sizes are taken as satisfied: `out` has the sizes of the input mesh. -/
noncomputable def applySSDMesh (order : List Nat) (ibp : List (Affine ℝ)) (skin : List (List (Nat × ℝ)))
    (vertices normals : List (Vec3 ℝ)) (world : List (Affine ℝ)) (out : List (Vec3 ℝ) × List (Vec3 ℝ)) :
    Outcome (List (Vec3 ℝ) × List (Vec3 ℝ)) :=
  if world.length < ibp.length then .throws
  else if skin.length ≠ vertices.length then .throws
  else if out.1.length ≠ vertices.length then .throws
  else if out.2.length ≠ normals.length then .throws
  else
    order.foldl (fun (acc : Outcome (List (Vec3 ℝ) × List (Vec3 ℝ))) i =>
      acc.bind fun res => meshStep (skinTransforms world ibp) skin vertices normals res i) (.ok out)

/-! ### Bind pose, locators, capsules -/

/-- `jointState[i].transformation` of a skeleton state. -/
noncomputable def worldAffines (states : List JointState) : List (Affine ℝ) :=
  states.map fun st => st.transform.toAffine3

/-- character.cpp:546-554 `initInverseBindPose`: the bind pose is the state for zero joint parameters. -/
noncomputable def initInverseBindPose (s : Skeleton ℝ) : Option (List (Affine ℝ)) :=
  (skeletonState s (List.replicate (s.joints.length * 7) 0) false).map fun st =>
    (worldAffines st).map Affine.inverse

section
variable {K : Type} [CommRing K]

/-- locator_state.cpp:15-38 `LocatorState::update`; `none` is an out-of-range parent. -/
def locatorPositions (world : List (Affine K)) (locators : List (Locator K)) : Option (List (Vec3 K)) :=
  locators.mapM fun l => (world[l.parent]?).map fun t => t.apply l.offset

/-- One element of collision_geometry_state.h `CollisionGeometryStateT`. -/
structure CapsuleState (K : Type) where
  origin : Vec3 K
  direction : Vec3 K
  radius0 : K
  radius1 : K
  delta : K

/-- collision_geometry_state.cpp:28-33: one capsule, from its joint's transformation and scale. -/
def capsuleState (world : Affine K) (scale : K) (tc : TaperedCapsule K) : CapsuleState K :=
  let t := world * tc.transformation
  let r0 := tc.radius0 * scale
  let r1 := tc.radius1 * scale
  { origin := t.translation
    direction := tc.length • t.linear.col 0
    radius0 := r0
    radius1 := r1
    delta := r1 - r0 }

/-- collision_geometry_state.cpp:15-35 `CollisionGeometryStateT::update`; each joint is given by its
transformation and scale; `none` is an out-of-range parent. -/
def collisionState (world : List (Affine K × K)) (g : List (TaperedCapsule K)) : Option (List (CapsuleState K)) :=
  g.mapM fun tc => (world[tc.parent]?).map fun w => capsuleState w.1 w.2 tc

/-! ### character_utility.cpp:22-90, 296-310: scaling -/

/-- character_utility.cpp:22-28. -/
def scaleSkeleton (s : Skeleton K) (c : K) : Skeleton K :=
  ⟨s.joints.map fun j => { j with translationOffset := c • j.translationOffset }⟩

/-- character_utility.cpp:42-49. -/
def scaleLocators (l : List (Locator K)) (c : K) : List (Locator K) :=
  l.map fun l => { l with offset := c • l.offset, limitOrigin := c • l.limitOrigin }

/-- character_utility.cpp:64-79. -/
def scaleCapsules (g : List (TaperedCapsule K)) (c : K) : List (TaperedCapsule K) :=
  g.map fun t => { t with
    transformation := ⟨t.transformation.linear, c • t.transformation.translation⟩
    radius0 := c * t.radius0
    radius1 := c * t.radius1
    length := c * t.length }

/-- character_utility.cpp:86-89: the loop of `scaleInverseBindPose`. -/
def scaleAffines (l : List (Affine K)) (c : K) : List (Affine K) :=
  l.map fun t => ⟨t.linear, c • t.translation⟩

end

/-- character_utility.cpp:296-310 `scaleCharacter`.  `none` is the failed `MT_CHECK(scale > 0)` of line 85.
The parameters of ellipsoid limits, pose shapes and blend shapes are not part of the model (the code passes
the shapes on unscaled).  The constructor (character.cpp:46-49) keeps the mesh only together with skin
weights, and recomputes an empty inverse bind pose, which the model leaves to `initInverseBindPose`. -/
def scaleCharacter {K : Type} [Field K] [LinearOrder K] (c : Character K) (s : K) : Option (Character K) :=
  if 0 < s then
    some { c with
      skeleton := scaleSkeleton c.skeleton s
      locators := scaleLocators c.locators s
      mesh := if c.skinWeights.isSome then c.mesh.map fun v => v.map fun p => s • p else none
      skinWeights := if c.mesh.isSome then c.skinWeights else none
      collision := c.collision.map fun g => scaleCapsules g s
      inverseBindPose := scaleAffines c.inverseBindPose s }
  else none

/-! ### character_utility.cpp:314-378: transforming -/

/-- character_utility.cpp:314-331 `transformSkeleton`, for a transformation given by its rotation quaternion
and translation (what the code extracts after checking that there is no scale or shear).  `none` is the failed
check for an empty skeleton. -/
def transformSkeleton {K : Type} [CommRing K] (s : Skeleton K) (q : Quat K) (t : Vec3 K) : Option (Skeleton K) :=
  match s.joints with
  | [] => none
  | j :: js => some ⟨{ j with
      preRotation := q * j.preRotation
      translationOffset := q.rotate j.translationOffset + t } :: js⟩

/-- character_utility.cpp:333-348 `transformMesh`, the vertices. -/
def transformVertices {K : Type} [CommRing K] (v : List (Vec3 K)) (x : Affine K) : List (Vec3 K) :=
  v.map fun p => x.apply p

/-- character_utility.cpp:350-360 `transformInverseBindPose`. -/
def transformInverseBindPose {K : Type} [Field K] (l : List (Affine K)) (x : Affine K) : List (Affine K) :=
  l.map fun m => m * x.inverse

end Momentum
