import Mathlib.Algebra.Field.Basic
import Mathlib.Algebra.Module.Basic
import Mathlib.Tactic.Ring
import Mathlib.Tactic.FieldSimp
import Mathlib.Tactic.LinearCombination

/-!
# Vectors and quaternions

Models the Eigen value types used through momentum/math/types.h: `Vector3<T>` and `Quaternion<T>`.
The scalar type is an arbitrary commutative ring or field (exact arithmetic instead of float/double).
-/

namespace Momentum

/-- Models Eigen `Vector3<T>` (momentum/math/types.h). -/
@[ext] structure Vec3 (K : Type*) where
  x : K
  y : K
  z : K
  deriving DecidableEq

namespace Vec3
variable {K : Type*}

instance [Zero K] : Zero (Vec3 K) := ⟨⟨0, 0, 0⟩⟩
instance [Add K] : Add (Vec3 K) := ⟨fun a b => ⟨a.x + b.x, a.y + b.y, a.z + b.z⟩⟩
instance [Neg K] : Neg (Vec3 K) := ⟨fun a => ⟨-a.x, -a.y, -a.z⟩⟩
instance [Sub K] : Sub (Vec3 K) := ⟨fun a b => ⟨a.x - b.x, a.y - b.y, a.z - b.z⟩⟩
instance [Mul K] : SMul K (Vec3 K) := ⟨fun s a => ⟨s * a.x, s * a.y, s * a.z⟩⟩

@[simp] theorem zero_x [Zero K] : (0 : Vec3 K).x = 0 := rfl
@[simp] theorem zero_y [Zero K] : (0 : Vec3 K).y = 0 := rfl
@[simp] theorem zero_z [Zero K] : (0 : Vec3 K).z = 0 := rfl
@[simp] theorem add_x [Add K] (a b : Vec3 K) : (a + b).x = a.x + b.x := rfl
@[simp] theorem add_y [Add K] (a b : Vec3 K) : (a + b).y = a.y + b.y := rfl
@[simp] theorem add_z [Add K] (a b : Vec3 K) : (a + b).z = a.z + b.z := rfl
@[simp] theorem neg_x [Neg K] (a : Vec3 K) : (-a).x = -a.x := rfl
@[simp] theorem neg_y [Neg K] (a : Vec3 K) : (-a).y = -a.y := rfl
@[simp] theorem neg_z [Neg K] (a : Vec3 K) : (-a).z = -a.z := rfl
@[simp] theorem sub_x [Sub K] (a b : Vec3 K) : (a - b).x = a.x - b.x := rfl
@[simp] theorem sub_y [Sub K] (a b : Vec3 K) : (a - b).y = a.y - b.y := rfl
@[simp] theorem sub_z [Sub K] (a b : Vec3 K) : (a - b).z = a.z - b.z := rfl
@[simp] theorem smul_x [Mul K] (s : K) (a : Vec3 K) : (s • a).x = s * a.x := rfl
@[simp] theorem smul_y [Mul K] (s : K) (a : Vec3 K) : (s • a).y = s * a.y := rfl
@[simp] theorem smul_z [Mul K] (s : K) (a : Vec3 K) : (s • a).z = s * a.z := rfl

instance [CommRing K] : AddCommGroup (Vec3 K) where
  add_assoc a b c := by ext <;> simp [add_assoc]
  zero_add a := by ext <;> simp
  add_zero a := by ext <;> simp
  add_comm a b := by ext <;> simp [add_comm]
  neg_add_cancel a := by ext <;> simp
  sub_eq_add_neg a b := by ext <;> simp [sub_eq_add_neg]
  nsmul := nsmulRec
  zsmul := zsmulRec

instance [CommRing K] : Module K (Vec3 K) where
  one_smul a := by ext <;> simp
  mul_smul r s a := by ext <;> simp [mul_assoc]
  smul_zero r := by ext <;> simp
  smul_add r a b := by ext <;> simp [mul_add]
  add_smul r s a := by ext <;> simp [add_mul]
  zero_smul a := by ext <;> simp

variable [CommRing K]

/-- Eigen `a.dot(b)`. -/
def dot (a b : Vec3 K) : K := a.x * b.x + a.y * b.y + a.z * b.z

/-- Eigen `a.cross(b)`. -/
def cross (a b : Vec3 K) : Vec3 K :=
  ⟨a.y * b.z - a.z * b.y, a.z * b.x - a.x * b.z, a.x * b.y - a.y * b.x⟩

/-- Eigen `a.squaredNorm()`. -/
def sqNorm (a : Vec3 K) : K := dot a a

@[simp] theorem cross_x (a b : Vec3 K) : (cross a b).x = a.y * b.z - a.z * b.y := rfl
@[simp] theorem cross_y (a b : Vec3 K) : (cross a b).y = a.z * b.x - a.x * b.z := rfl
@[simp] theorem cross_z (a b : Vec3 K) : (cross a b).z = a.x * b.y - a.y * b.x := rfl

/-- Eigen `Vector3::UnitX()`, `UnitY()`, `UnitZ()`. -/
def unitX : Vec3 K := ⟨1, 0, 0⟩
@[inherit_doc unitX] def unitY : Vec3 K := ⟨0, 1, 0⟩
@[inherit_doc unitX] def unitZ : Vec3 K := ⟨0, 0, 1⟩

end Vec3

/-- Models Eigen `Quaternion<T>` (momentum/math/types.h), coefficients w, x, y, z. -/
@[ext] structure Quat (K : Type*) where
  w : K
  x : K
  y : K
  z : K
  deriving DecidableEq

/-- Models Eigen `Matrix3<T>` (row r, column c is `m r c`, written out). -/
@[ext] structure Mat3 (K : Type*) where
  m00 : K
  m01 : K
  m02 : K
  m10 : K
  m11 : K
  m12 : K
  m20 : K
  m21 : K
  m22 : K
  deriving DecidableEq

namespace Mat3
variable {K : Type*} [CommRing K]

/-- Matrix product. -/
def mul (a b : Mat3 K) : Mat3 K where
  m00 := a.m00 * b.m00 + a.m01 * b.m10 + a.m02 * b.m20
  m01 := a.m00 * b.m01 + a.m01 * b.m11 + a.m02 * b.m21
  m02 := a.m00 * b.m02 + a.m01 * b.m12 + a.m02 * b.m22
  m10 := a.m10 * b.m00 + a.m11 * b.m10 + a.m12 * b.m20
  m11 := a.m10 * b.m01 + a.m11 * b.m11 + a.m12 * b.m21
  m12 := a.m10 * b.m02 + a.m11 * b.m12 + a.m12 * b.m22
  m20 := a.m20 * b.m00 + a.m21 * b.m10 + a.m22 * b.m20
  m21 := a.m20 * b.m01 + a.m21 * b.m11 + a.m22 * b.m21
  m22 := a.m20 * b.m02 + a.m21 * b.m12 + a.m22 * b.m22

/-- Identity matrix. -/
def one : Mat3 K := ⟨1, 0, 0, 0, 1, 0, 0, 0, 1⟩

/-- Matrix times scalar. -/
def smul (s : K) (a : Mat3 K) : Mat3 K :=
  ⟨a.m00 * s, a.m01 * s, a.m02 * s, a.m10 * s, a.m11 * s, a.m12 * s, a.m20 * s, a.m21 * s, a.m22 * s⟩

/-- Matrix times vector. -/
def mulVec (a : Mat3 K) (v : Vec3 K) : Vec3 K :=
  ⟨a.m00 * v.x + a.m01 * v.y + a.m02 * v.z, a.m10 * v.x + a.m11 * v.y + a.m12 * v.z,
   a.m20 * v.x + a.m21 * v.y + a.m22 * v.z⟩

/-- Transpose. -/
def transpose (a : Mat3 K) : Mat3 K :=
  ⟨a.m00, a.m10, a.m20, a.m01, a.m11, a.m21, a.m02, a.m12, a.m22⟩

/-- Determinant. -/
def det (a : Mat3 K) : K :=
  a.m00 * (a.m11 * a.m22 - a.m12 * a.m21) - a.m01 * (a.m10 * a.m22 - a.m12 * a.m20)
    + a.m02 * (a.m10 * a.m21 - a.m11 * a.m20)

/-- Column `i` (Eigen `.col(i)`), `i` in {0,1,2}. -/
def col (a : Mat3 K) : Fin 3 → Vec3 K
  | 0 => ⟨a.m00, a.m10, a.m20⟩
  | 1 => ⟨a.m01, a.m11, a.m21⟩
  | 2 => ⟨a.m02, a.m12, a.m22⟩

end Mat3

namespace Quat
variable {K : Type*}

/-- Eigen `Quaternion::Identity()`. -/
def one [Zero K] [One K] : Quat K := ⟨1, 0, 0, 0⟩

variable [CommRing K]

/-- Eigen `q.vec()`. -/
def vec (q : Quat K) : Vec3 K := ⟨q.x, q.y, q.z⟩

/-- Eigen `q1 * q2` (Hamilton product). -/
def mul (a b : Quat K) : Quat K where
  w := a.w * b.w - a.x * b.x - a.y * b.y - a.z * b.z
  x := a.w * b.x + a.x * b.w + a.y * b.z - a.z * b.y
  y := a.w * b.y + a.y * b.w + a.z * b.x - a.x * b.z
  z := a.w * b.z + a.z * b.w + a.x * b.y - a.y * b.x

instance : Mul (Quat K) := ⟨mul⟩

@[simp] theorem mul_w (a b : Quat K) :
    (a * b).w = a.w * b.w - a.x * b.x - a.y * b.y - a.z * b.z := rfl
@[simp] theorem mul_x (a b : Quat K) :
    (a * b).x = a.w * b.x + a.x * b.w + a.y * b.z - a.z * b.y := rfl
@[simp] theorem mul_y (a b : Quat K) :
    (a * b).y = a.w * b.y + a.y * b.w + a.z * b.x - a.x * b.z := rfl
@[simp] theorem mul_z (a b : Quat K) :
    (a * b).z = a.w * b.z + a.z * b.w + a.x * b.y - a.y * b.x := rfl

/-- Eigen `q.squaredNorm()`. -/
def normSq (q : Quat K) : K := q.w * q.w + q.x * q.x + q.y * q.y + q.z * q.z

/-- Eigen `q * v` = `QuaternionBase::_transformVector`:
`uv = vec × v; uv += uv; v + w*uv + vec × uv`. -/
def rotate (q : Quat K) (v : Vec3 K) : Vec3 K :=
  let uv := q.vec.cross v
  let uv2 := uv + uv
  v + q.w • uv2 + q.vec.cross uv2

/-- Eigen `q.toRotationMatrix()`. -/
def toMat (q : Quat K) : Mat3 K where
  m00 := 1 - (2 * q.y * q.y + 2 * q.z * q.z)
  m01 := 2 * q.y * q.x - 2 * q.z * q.w
  m02 := 2 * q.z * q.x + 2 * q.y * q.w
  m10 := 2 * q.y * q.x + 2 * q.z * q.w
  m11 := 1 - (2 * q.x * q.x + 2 * q.z * q.z)
  m12 := 2 * q.z * q.y - 2 * q.x * q.w
  m20 := 2 * q.z * q.x - 2 * q.y * q.w
  m21 := 2 * q.z * q.y + 2 * q.x * q.w
  m22 := 1 - (2 * q.x * q.x + 2 * q.y * q.y)

end Quat

namespace Quat
variable {K : Type*} [Field K] [DecidableEq K]

/-- Eigen `q.inverse()`: conjugate over squared norm, and the zero quaternion for the zero
quaternion (`if (n2 > 0) ... else Zero()`; over an exact field a zero squared norm takes the
second branch). -/
def inverse (q : Quat K) : Quat K :=
  if q.normSq = 0 then ⟨0, 0, 0, 0⟩
  else ⟨q.w / q.normSq, -q.x / q.normSq, -q.y / q.normSq, -q.z / q.normSq⟩

end Quat

end Momentum
