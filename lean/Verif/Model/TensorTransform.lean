import Verif.Model.TensorQuat
import Verif.Model.Transform

/-!
# pymomentum/tensor_momentum/tensor_transforms.cpp

A skeleton state is a row of eight numbers tx, ty, tz, rx, ry, rz, rw, s.  The functions of rows come first, then the tensors of rows
with their leading dimensions.  Numbers are exact; `none` stands for NaN or infinity, or for an exception of `MT_THROW`.
-/

namespace Momentum.TensorTransform

open TensorQuat

section
variable {K : Type}

/-- tensor_transforms.cpp:32-39 `splitSkeletonState`. -/
def splitSkeletonState (r : Fin 8 → K) : Vec3 K × (Fin 4 → K) × K :=
  (⟨r 0, r 1, r 2⟩, ![r 3, r 4, r 5, r 6], r 7)

/-- `at::cat({t, q, s}, -1)`. -/
def catState (t : Vec3 K) (q : Fin 4 → K) (s : K) : Fin 8 → K := ![t.x, t.y, t.z, q 0, q 1, q 2, q 3, s]

variable [CommRing K]

/-- tensor_transforms.cpp:41-65 `skeletonStateToTransforms`. -/
def skeletonStateToTransforms (r : Fin 8 → K) : Matrix (Fin 4) (Fin 4) K :=
  let s := splitSkeletonState r
  let rotMat := quaternionToRotationMatrix s.2.1
  let scale := s.2.2
  let t := s.1
  !![rotMat.m00 * scale, rotMat.m01 * scale, rotMat.m02 * scale, t.x;
     rotMat.m10 * scale, rotMat.m11 * scale, rotMat.m12 * scale, t.y;
     rotMat.m20 * scale, rotMat.m21 * scale, rotMat.m22 * scale, t.z;
     0, 0, 0, 1]

/-- tensor_transforms.cpp:102-109: `multiplySkeletonStates` for one row. -/
def multiplyRow (r1 r2 : Fin 8 → K) : Fin 8 → K :=
  let s1 := splitSkeletonState r1
  let s2 := splitSkeletonState r2
  let tRes := s1.1 + quaternionRotateVector s1.2.1 (s1.2.2 • s2.1)
  let sRes := s1.2.2 * s2.2.2
  let qRes := quaternionMultiply s1.2.1 s2.2.1
  catState tRes qRes sRes

/-- tensor_transforms.cpp:112-125 `quaternionToSkeletonState`. -/
def quaternionToSkeletonState (q : Fin 4 → K) : Fin 8 → K := catState 0 q 1

/-- tensor_transforms.cpp:127-143 `translationToSkeletonState`. -/
def translationToSkeletonState (t : Vec3 K) : Fin 8 → K := catState t quaternionIdentity 1

/-- tensor_transforms.cpp:145-159 `scaleToSkeletonState`. -/
def scaleToSkeletonState (s : K) : Fin 8 → K := catState 0 quaternionIdentity s

/-- tensor_transforms.cpp:170-171: `transformPointsWithSkeletonState` for one row. -/
def transformPointRow (r : Fin 8 → K) (p : Vec3 K) : Vec3 K :=
  let s := splitSkeletonState r
  s.1 + quaternionRotateVector s.2.1 (s.2.2 • p)

/-- tensor_transforms.cpp:186-192 `identitySkeletonState`. -/
def identitySkeletonState : Fin 8 → K := catState 0 quaternionIdentity 1

end

/-- tensor_transforms.cpp:174-184 `inverseSkeletonStates`. -/
def inverseSkeletonStates {K : Type} [Field K] [DecidableEq K] (r : Fin 8 → K) : Option (Fin 8 → K) :=
  let s := splitSkeletonState r
  match quaternionInverse s.2.1 with
  | none => none
  | some qInv =>
    if s.2.2 = 0 then none
    else
      let sInv := 1 / s.2.2
      some (catState ((-sInv) • quaternionRotateVector qInv s.1) qInv sInv)

/-- tensor_transforms.cpp:194-203 `blendSkeletonStates`; the sum over the second to last dimension. -/
noncomputable def blendSkeletonStates (eigh : (Fin 4 → Fin 4 → ℝ) → Eigh) {n : Nat} (rows : Fin n → Fin 8 → ℝ)
    (weightsIn : Option (Fin n → ℝ)) : Option (Fin 8 → ℝ) :=
  match checkAndNormalizeWeights weightsIn with
  | none => none
  | some weights =>
    let t : Vec3 ℝ := ⟨∑ i, weights i * (splitSkeletonState (rows i)).1.x, ∑ i, weights i * (splitSkeletonState (rows i)).1.y,
      ∑ i, weights i * (splitSkeletonState (rows i)).1.z⟩
    let s := ∑ i, weights i * (splitSkeletonState (rows i)).2.2
    (blendQuaternions eigh (fun i => (splitSkeletonState (rows i)).2.1) (some weights)).map fun q => catState t q s

/-! ### Tensors -/

/-- A tensor of rows: the leading dimensions and the row at each index. -/
structure Rows (α : Type) where
  shape : List Nat
  get : List Nat → α

variable {α β γ : Type}

/-- `t.unsqueeze(0)`. -/
def Rows.unsqueeze (t : Rows α) : Rows α := ⟨1 :: t.shape, fun idx => t.get idx.tail⟩

/-- tensor_transforms.cpp:75-77: the loop, which runs `k` times. -/
def Rows.unsqueezeTimes (t : Rows α) : Nat → Rows α
  | 0 => t
  | k + 1 => (t.unsqueezeTimes k).unsqueeze

/-- tensor_transforms.cpp:79-89: the new dimensions. -/
def newDims : List Nat → List Nat → Option (List Nat)
  | l :: ls, r :: rs =>
    if l = 1 then (newDims ls rs).map (r :: ·)
    else if l = r then (newDims ls rs).map (l :: ·)
    else none
  | _, _ => some []

/-- `t.expand(dims)`: dimensions of size one are repeated. -/
def Rows.expand (t : Rows α) (dims : List Nat) : Rows α :=
  ⟨dims, fun idx => t.get (List.zipWith (fun d i => if d = 1 then 0 else i) t.shape idx)⟩

/-- tensor_transforms.cpp:70-93 `matchLeadingDimensions`; both tensors have one more dimension, which is not changed. -/
def matchLeadingDimensions (tLeft : Rows α) (tRight : Rows β) : Option (Rows α) :=
  if tRight.shape.length < tLeft.shape.length then none
  else
    let padded := tLeft.unsqueezeTimes (tRight.shape.length - tLeft.shape.length)
    (newDims padded.shape tRight.shape).map fun dims => padded.expand dims

/-- tensor_transforms.cpp:95-110 `multiplySkeletonStates`. -/
def multiplySkeletonStates {K : Type} [CommRing K] (skelState1 skelState2 : Rows (Fin 8 → K)) : Option (Rows (Fin 8 → K)) :=
  (matchLeadingDimensions skelState1 skelState2).map fun s1 =>
    ⟨s1.shape, fun idx => multiplyRow (s1.get idx) (skelState2.get idx)⟩

/-- tensor_transforms.cpp:161-172 `transformPointsWithSkeletonState`. -/
def transformPointsWithSkeletonState {K : Type} [CommRing K] (skelState : Rows (Fin 8 → K)) (p : Rows (Vec3 K)) :
    Option (Rows (Vec3 K)) :=
  (matchLeadingDimensions skelState p).map fun s => ⟨s.shape, fun idx => transformPointRow (s.get idx) (p.get idx)⟩

end Momentum.TensorTransform
