import Verif.Model.Euler
import Verif.Model.TensorState
import Mathlib.Data.Fin.VecNotation
import Mathlib.Algebra.BigOperators.Fin
import Mathlib.Data.Complex.Basic

/-!
# pymomentum/tensor_momentum/tensor_quaternion.cpp

The functions of tensors are modelled for one row of the last dimension, which is all that they combine (blending combines one more
dimension).  A quaternion is a row of four numbers in the order x, y, z, w.  Numbers are exact.  `none` stands for NaN or infinity:
a division by zero or an arc sine of a number outside [-1, 1].
-/

namespace Momentum.TensorQuat

section
variable {K : Type} [CommRing K]

/-- tensor_quaternion.cpp:187-191 `splitQuaternion`: the scalar and the vector. -/
def splitQuaternion (q : Fin 4 → K) : K × Vec3 K := (q 3, ⟨q 0, q 1, q 2⟩)

/-- `at::cat({v, r}, -1)`. -/
def cat (v : Vec3 K) (r : K) : Fin 4 → K := ![v.x, v.y, v.z, r]

/-- tensor_quaternion.cpp:193-211 `quaternionMultiply`. -/
def quaternionMultiply (q1 q2 : Fin 4 → K) : Fin 4 → K :=
  let s1 := splitQuaternion q1
  let s2 := splitQuaternion q2
  let r := s1.1 * s2.1 - (s1.2.x * s2.2.x + s1.2.y * s2.2.y + s1.2.z * s2.2.z)
  let v := s1.1 • s2.2 + s2.1 • s1.2 + s1.2.cross s2.2
  cat v r

/-- tensor_quaternion.cpp:218-223 `quaternionConjugate`. -/
def quaternionConjugate (q : Fin 4 → K) : Fin 4 → K := cat (-(splitQuaternion q).2) (splitQuaternion q).1

/-- tensor_quaternion.cpp:244-249 `quaternionRotateVector`. -/
def quaternionRotateVector (q : Fin 4 → K) (v : Vec3 K) : Vec3 K :=
  let s := splitQuaternion q
  let av := s.2.cross v
  let aav := s.2.cross av
  v + (2 : K) • (s.1 • av + aav)

/-- tensor_quaternion.cpp:256-259 `quaternionIdentity`. -/
def quaternionIdentity : Fin 4 → K := ![0, 0, 0, 1]

/-- tensor_quaternion.cpp:261-299 `quaternionToRotationMatrix`; the nine entries are reshaped row by row. -/
def quaternionToRotationMatrix (q : Fin 4 → K) : Mat3 K :=
  let qx := q 0
  let qy := q 1
  let qz := q 2
  let qw := q 3
  ⟨1 - 2 * (qy * qy + qz * qz), 2 * (qx * qy - qz * qw), 2 * (qx * qz + qy * qw),
    2 * (qx * qy + qz * qw), 1 - 2 * (qx * qx + qz * qz), 2 * (qy * qz - qx * qw),
    2 * (qx * qz - qy * qw), 2 * (qy * qz + qx * qw), 1 - 2 * (qx * qx + qy * qy)⟩

end

/-- tensor_quaternion.cpp:225-227 `quaternionInverse`. -/
def quaternionInverse {K : Type} [Field K] [DecidableEq K] (q : Fin 4 → K) : Option (Fin 4 → K) :=
  let n := ∑ k, q k * q k
  if n = 0 then none else some fun k => quaternionConjugate q k / n

/-- tensor_quaternion.cpp:213-216 `quaternionNormalize`. -/
noncomputable def quaternionNormalize (q : Fin 4 → ℝ) : Option (Fin 4 → ℝ) :=
  let n := Real.sqrt (∑ k, q k * q k)
  if n = 0 then none else some fun k => q k / n

/-- tensor_quaternion.cpp:229-242 `quaternionToXYZEuler`. -/
noncomputable def quaternionToXYZEuler (q : Fin 4 → ℝ) : Option (Vec3 ℝ) :=
  let qx := q 0
  let qy := q 1
  let qz := q 2
  let qw := q 3
  let rx := atan2 (2 * (qw * qx + qy * qz)) (1 - 2 * (qx * qx + qy * qy))
  let sy := 2 * (qw * qy - qz * qx)
  let rz := atan2 (2 * (qw * qz + qx * qy)) (1 - 2 * (qy * qy + qz * qz))
  if |sy| ≤ 1 then some ⟨rx, Real.arcsin sy, rz⟩ else none

/-- tensor_quaternion.cpp:43-52 `xyzEulerToQuaternion`, for numbers. -/
noncomputable def xyzEulerToQuat (eulerAngles : Fin 3 → ℝ) : Quat ℝ :=
  ([0, 1, 2] : List (Fin 3)).foldl (fun result l => Quat.angleAxis (eulerAngles l) (rotationAxisOf l) * result) Quat.one

/-- Eigen `q.coeffs()`. -/
def coeffs {K : Type} (q : Quat K) : Fin 4 → K := ![q.x, q.y, q.z, q.w]

/-- tensor_quaternion.cpp:90-94: the forward pass. -/
noncomputable def xyzEulerToQuaternion (eulerAngles : Fin 3 → ℝ) : Fin 4 → ℝ := coeffs (xyzEulerToQuat eulerAngles)

/-- tensor_quaternion.cpp:43-52 `xyzEulerToQuaternion`, for Jets. -/
noncomputable def xyzEulerToQuatJet (eulerAngles : Fin 3 → Jet) : Quat Jet :=
  ([0, 1, 2] : List (Fin 3)).foldl
    (fun result l => Quat.angleAxisJet (eulerAngles l) (rotationAxisOf l).toJet * result) (Quat.one : Quat ℝ).toJet

/-- tensor_quaternion.cpp:158-166: the backward pass, one component.  The Jets with three derivatives are three Jets with one, the
component `d` has derivative 1 for the angle `d` (`buildJetVec`). -/
noncomputable def xyzEulerBackward (eulerAngles : Fin 3 → ℝ) (dLoss : Fin 4 → ℝ) (d : Fin 3) : ℝ :=
  (∑ k, coeffs (xyzEulerToQuatJet fun l => TrivSqZeroExt.inl (eulerAngles l) + TrivSqZeroExt.inr (if l = d then 1 else 0)) k *
    Jet.ofReal (dLoss k)).snd

/-! ### Rotation matrix to quaternion -/

/-- What `at::linalg_eig` returns: eigenvalues, and the eigenvectors in the columns. -/
structure Eig where
  values : Fin 3 → ℂ
  vectors : Fin 3 → Vec3 ℂ

/-- `at::max(x, -1)`: the index. -/
noncomputable def maxIndex (f : Fin 3 → ℝ) : Fin 3 := if f 1 ≤ f 0 ∧ f 2 ≤ f 0 then 0 else if f 2 ≤ f 1 then 1 else 2

/-- `at::real`. -/
def realPart (v : Vec3 ℂ) : Vec3 ℝ := ⟨v.x.re, v.y.re, v.z.re⟩

/-- tensor_quaternion.cpp:359-368 and 388-434: the quaternion for an axis, with the sign that gives the matrix. -/
noncomputable def signedQuaternion (m : Mat3 ℝ) (axis : Vec3 ℝ) : Fin 4 → ℝ :=
  let trace := m.m00 + m.m11 + m.m22
  let cosTheta := (trace - 1) / 2
  let cosHalf := Real.sqrt (max ((1 + cosTheta) / 2) 0)
  let sinHalf := Real.sqrt (max ((1 - cosTheta) / 2) 0)
  let qv := sinHalf • axis
  let qw := cosHalf
  let symmetricPart : Vec3 ℝ := ⟨2 * qv.x * qv.y - m.m01, 2 * qv.x * qv.z - m.m02, 2 * qv.y * qv.z - m.m12⟩
  let skewPart : Vec3 ℝ := ⟨-2 * qv.z, 2 * qv.y, -2 * qv.x⟩
  let positive := symmetricPart + qw • skewPart
  let negative := symmetricPart - qw • skewPart
  if Real.sqrt positive.sqNorm < Real.sqrt negative.sqNorm then cat qv qw else cat (-qv) qw

/-- tensor_quaternion.cpp:301-435 `rotationMatrixToQuaternion`. -/
noncomputable def rotationMatrixToQuaternion (eig : Mat3 ℝ → Eig) (m : Mat3 ℝ) : Fin 4 → ℝ :=
  let e := eig m
  signedQuaternion m (realPart (e.vectors (maxIndex fun i => (e.values i).re)))

/-! ### Blending -/

/-- tensor_quaternion.cpp:437-469 `checkAndNormalizeWeights`; the sizes are given by the types. -/
noncomputable def checkAndNormalizeWeights {n : Nat} (weightsIn : Option (Fin n → ℝ)) : Option (Fin n → ℝ) :=
  let weights := weightsIn.getD fun _ => 1
  let weights := fun i => max (weights i) 0
  let sum := ∑ i, weights i
  if sum = 0 then none else some fun i => weights i / sum

/-- tensor_quaternion.cpp:484-486: the weighted sum of the outer products. -/
def outerSum {n : Nat} (quaternions : Fin n → Fin 4 → ℝ) (weights : Fin n → ℝ) : Fin 4 → Fin 4 → ℝ :=
  fun j k => ∑ i, weights i * (quaternions i j * quaternions i k)

/-- What `at::linalg_eigh` returns: eigenvalues, and the eigenvectors in the columns. -/
structure Eigh where
  values : Fin 4 → ℝ
  vectors : Fin 4 → Fin 4 → ℝ

/-- tensor_quaternion.cpp:471-490 `blendQuaternions`. -/
noncomputable def blendQuaternions (eigh : (Fin 4 → Fin 4 → ℝ) → Eigh) {n : Nat} (quaternions : Fin n → Fin 4 → ℝ)
    (weightsIn : Option (Fin n → ℝ)) : Option (Fin 4 → ℝ) :=
  (checkAndNormalizeWeights weightsIn).map fun weights => (eigh (outerSum quaternions weights)).vectors 3

end Momentum.TensorQuat
