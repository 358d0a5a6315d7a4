import Verif.Model.Skinning
import Verif.Model.ParameterTransform
import Mathlib.LinearAlgebra.Matrix.NonsingularInverse
import Mathlib.Data.Matrix.Basic

/-!
# pymomentum/tensor_momentum/tensor_skinning.cpp, tensor_blend_shape.cpp, tensor_parameter_transform.cpp

The forward functions and backward passes for one element of the batch.  Incoming gradients are functions of the index: their sizes
are checked by `TensorChecker` before.  `none` stands for an access outside a list or for a failed check.
-/

namespace Momentum

section
variable {K : Type} [CommRing K]

/-- `Eigen::Matrix4`. -/
abbrev Mat4 (K : Type) := Matrix (Fin 4) (Fin 4) K

/-- `affine.matrix()`; tensor_skinning.cpp:61-70 `affine3fToMatrixList` does this for each element. -/
def Affine.matrix (a : Affine K) : Mat4 K :=
  !![a.linear.m00, a.linear.m01, a.linear.m02, a.translation.x;
     a.linear.m10, a.linear.m11, a.linear.m12, a.translation.y;
     a.linear.m20, a.linear.m21, a.linear.m22, a.translation.z;
     0, 0, 0, 1]

/-- tensor_skinning.cpp:47-59 `multiply`. -/
def multiplyLists (lhs rhs : List (Mat4 K)) : Option (List (Mat4 K)) :=
  if lhs.length ≠ rhs.length then none else some (List.zipWith (· * ·) lhs rhs)

/-- `p.homogeneous()`. -/
def Vec3.homogeneous (p : Vec3 K) : Fin 4 → K := ![p.x, p.y, p.z, 1]

/-- `p.head<3>()`. -/
def head3 (p : Fin 4 → K) : Vec3 K := ⟨p 0, p 1, p 2⟩

section
variable [DecidableEq K]

/-- tensor_skinning.cpp:142-153: the loop over the weights of one vertex. -/
def skinVertex (full : List (Mat4 K)) (p : Fin 4 → K) (acc : Fin 4 → K) : List (Nat × K) → Option (Fin 4 → K)
  | [] => some acc
  | (index, weight) :: row =>
    if weight = 0 then some acc
    else match full[index]? with
      | none => none
      | some m => skinVertex full p (acc + (weight • m).mulVec p) row

/-- tensor_skinning.cpp:132-139 `p_rest`: the rest points given, or the vertices of the mesh when there are none. -/
def restPoint (mesh : List (Vec3 K)) (restPoints : Option (List (Vec3 K))) (i : Nat) : Option (Fin 4 → K) :=
  match restPoints with
  | none => mesh[i]?.map Vec3.homogeneous
  | some r => r[i]?.map Vec3.homogeneous

/-- tensor_skinning.cpp:130-156: one vertex. -/
def skinOne (full : List (Mat4 K)) (skin : List (List (Nat × K))) (mesh : List (Vec3 K))
    (restPoints : Option (List (Vec3 K))) (i : Nat) : Option (Vec3 K) :=
  match restPoint mesh restPoints i, skin[i]? with
  | some p, some row => (skinVertex full p 0 row).map head3
  | _, _ => none

/-- tensor_skinning.cpp:72-164 `SkinPointsFunction::forward`. -/
def skinPointsForward (ibp : List (Affine K)) (skin : List (List (Nat × K))) (mesh : List (Vec3 K))
    (transforms : List (Mat4 K)) (restPoints : Option (List (Vec3 K))) : Option (List (Vec3 K)) :=
  (multiplyLists transforms (ibp.map Affine.matrix)).bind fun full =>
    (List.range mesh.length).mapM (skinOne full skin mesh restPoints)

/-- Three consecutive numbers: `segment<3>(3 * i)`. -/
def segmentVec (v : Nat → K) (i : Nat) : Vec3 K := ⟨v (3 * i), v (3 * i + 1), v (3 * i + 2)⟩

/-- tensor_skinning.cpp:262-265: what one weight of a vertex adds to the derivative for its joint: `d * pᵀ` in the upper left
corner and `d` in the upper part of the last column. -/
def transformBlock (d : Vec3 K) (p : Fin 4 → K) (weight : K) : Mat4 K :=
  !![weight * d.x * p 0, weight * d.x * p 1, weight * d.x * p 2, weight * d.x;
     weight * d.y * p 0, weight * d.y * p 1, weight * d.y * p 2, weight * d.y;
     weight * d.z * p 0, weight * d.z * p 1, weight * d.z * p 2, weight * d.z;
     0, 0, 0, 0]

/-- tensor_skinning.cpp:251-266: the loop over the weights of one vertex. -/
def accumTransforms (ibp : List (Mat4 K)) (d : Vec3 K) (p : Fin 4 → K) (accum : List (Mat4 K)) :
    List (Nat × K) → Option (List (Mat4 K))
  | [] => some accum
  | (index, weight) :: row =>
    if weight = 0 then some accum
    else match ibp[index]?, accum[index]? with
      | some b, some a =>
        accumTransforms ibp d p (accum.set index (a + transformBlock d (b.mulVec p) weight)) row
      | _, _ => none

/-- tensor_skinning.cpp:238-267: one vertex. -/
def transformStep (ibp : List (Mat4 K)) (skin : List (List (Nat × K))) (mesh : List (Vec3 K))
    (restPoints : Option (List (Vec3 K))) (dLoss : Nat → K) (accum : List (Mat4 K)) (i : Nat) : Option (List (Mat4 K)) :=
  match restPoint mesh restPoints i, skin[i]? with
  | some p, some row => accumTransforms ibp (segmentVec dLoss i) p accum row
  | _, _ => none

/-- tensor_skinning.cpp:291-306: the loop over the weights of one vertex, for the derivative with respect to its rest point. -/
def accumRest (full : List (Mat4 K)) (d : Vec3 K) (acc : Vec3 K) : List (Nat × K) → Option (Vec3 K)
  | [] => some acc
  | (index, weight) :: row =>
    if weight = 0 then some acc
    else match full[index]? with
      | none => none
      | some m => accumRest full d (acc + weight •
          ⟨m 0 0 * d.x + m 1 0 * d.y + m 2 0 * d.z, m 0 1 * d.x + m 1 1 * d.y + m 2 1 * d.z,
            m 0 2 * d.x + m 1 2 * d.y + m 2 2 * d.z⟩) row

/-- tensor_skinning.cpp:166-320 `SkinPointsFunction::backward`: the derivatives with respect to the transforms, and to the rest points
when they are given. -/
def skinPointsBackward (ibp : List (Affine K)) (skin : List (List (Nat × K))) (mesh : List (Vec3 K))
    (transforms : List (Mat4 K)) (restPoints : Option (List (Vec3 K))) (dLoss : Nat → K) :
    Option (List (Mat4 K) × Option (List (Vec3 K))) :=
  ((List.range mesh.length).foldlM (transformStep (ibp.map Affine.matrix) skin mesh restPoints dLoss)
    (List.replicate transforms.length 0)).bind fun dTransforms =>
  match restPoints with
  | none => some (dTransforms, none)
  | some _ =>
    (multiplyLists transforms (ibp.map Affine.matrix)).bind fun full =>
    ((List.range mesh.length).mapM fun i => skin[i]?.bind fun row => accumRest full (segmentVec dLoss i) 0 row).map fun dRest =>
      (dTransforms, some dRest)

end

/-! ## Blend shapes -/

/-- tensor_blend_shape.cpp:86-92 at vertex `i`: the base shape (zero behind its end) plus `shapeVectors.leftCols(nCoeffs) * coeffs`. -/
def tensorBlendVertex (b : BlendShape K) (coeffs : List K) (i : Nat) : Option (Vec3 K) :=
  ((b.shapeVectors.take coeffs.length).mapM fun sv => sv[i]?).map fun offs =>
    b.baseShape.getD i 0 + (List.zipWith (fun c o => c • o) coeffs offs).sum

/-- tensor_blend_shape.cpp:40-102 `ApplyBlendShapeCoefficientsFunction::forward`.  A base shape with more vertices than the shape vectors
have is written outside the result. -/
def applyBlendShapeForward (b : BlendShape K) (coeffs : List K) : Option (List (Vec3 K)) :=
  if b.shapeVectors.length < coeffs.length then none
  else if b.modelSize < b.baseShape.length then none
  else (List.range b.modelSize).mapM (tensorBlendVertex b coeffs)

/-- tensor_blend_shape.cpp:104-161 `backward`: `shapeVectors.leftCols(n).transpose() * dLoss`. -/
def applyBlendShapeBackward (b : BlendShape K) (n : Nat) (dLoss : Nat → K) : List K :=
  (b.shapeVectors.take n).map fun sv => ((List.range b.modelSize).map fun i => (sv.getD i 0).dot (segmentVec dLoss i)).sum

/-! ## Parameter transforms -/

/-- `A.transpose() * d`. -/
def SparseMat.transposeMulVec (A : SparseMat K) (d : Nat → K) : List K :=
  (List.range A.cols).map fun j => ((A.entries.filter (·.col == j)).map fun e => e.val * d e.row).sum

/-- tensor_parameter_transform.cpp:125-190 `ApplyParameterTransformFunction::backward`. -/
def applyParamTransformBackward (pt : ParameterTransform K) (dLoss : Nat → K) : List K := pt.transform.transposeMulVec dLoss

end

/-- `Eigen::SparseQR` with a fill-reducing ordering, for `m × n` matrices of rank `n`: `matrixQ` (its first `n` columns),
`matrixR` (its first `n` rows) and `colsPermutation`. -/
structure SparseQR (K : Type) (m n : Nat) where
  Q : Matrix (Fin m) (Fin n) K
  R : Matrix (Fin n) (Fin n) K
  perm : Equiv.Perm (Fin n)

section
variable {K : Type} [Field K] {m n : Nat}

/-- What `compute` establishes: `A * P = Q * R` with orthonormal columns and an invertible upper triangular matrix, where column `i`
of `A * P` is column `perm i` of `A`. -/
structure SparseQR.Factors (qr : SparseQR K m n) (A : Matrix (Fin m) (Fin n) K) : Prop where
  eq : ∀ r i, A r (qr.perm i) = (qr.Q * qr.R) r i
  orth : qr.Q.transpose * qr.Q = 1
  tri : ∀ i j, j < i → qr.R i j = 0
  inv : IsUnit qr.R.det

/-- `SparseQR::solve`: `P * R⁻¹ * Qᵀ * b`. -/
noncomputable def SparseQR.solve (qr : SparseQR K m n) (b : Fin m → K) : Fin n → K :=
  fun i => (qr.R⁻¹.mulVec (qr.Q.transpose.mulVec b)) (qr.perm.symm i)

/-- inverse_parameter_transform.cpp:30-42 `apply`, the model parameters (called in tensor_parameter_transform.cpp:400-406). -/
noncomputable def inverseParamTransformForward (qr : SparseQR K m n) (offsets jointParameters : Fin m → K) : Fin n → K :=
  qr.solve (jointParameters - offsets)

/-- tensor_parameter_transform.cpp:415-480 `ApplyInverseParameterTransformFunction::backward`: `Q * R⁻ᵀ * dLoss`. -/
noncomputable def inverseParamTransformBackward (qr : SparseQR K m n) (dLoss : Fin n → K) : Fin m → K :=
  qr.Q.mulVec (qr.R.transpose⁻¹.mulVec dLoss)

end

end Momentum
