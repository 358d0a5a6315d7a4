import Verif.Model.Vec
import Mathlib.LinearAlgebra.Matrix.Notation

/-!
# momentum/math/transform.h, transform.cpp
-/

namespace Momentum

/-- momentum/math/transform.h:17-21 `struct TransformT { rotation; translation; scale; }`. -/
@[ext] structure Transform (K : Type*) where
  rotation : Quat K
  translation : Vec3 K
  scale : K
  deriving DecidableEq

namespace Transform
variable {K : Type*}

/-- transform.h:44-46, default constructor. -/
def one [Zero K] [One K] : Transform K := ⟨Quat.one, 0, 1⟩

/-- transform.cpp:15-18. -/
def makeRotation [Zero K] [One K] (q : Quat K) : Transform K := ⟨q, 0, 1⟩
/-- transform.cpp:20-23. -/
def makeTranslation [Zero K] [One K] (t : Vec3 K) : Transform K := ⟨Quat.one, t, 1⟩
/-- transform.cpp:25-28. -/
def makeScale [Zero K] [One K] (s : K) : Transform K := ⟨Quat.one, 0, s⟩

variable [CommRing K]

/-- transform.h:92-99 `operator*(const TransformT&)`. -/
def mul (a b : Transform K) : Transform K where
  translation := a.translation + a.rotation.rotate (a.scale • b.translation)
  rotation := a.rotation * b.rotation
  scale := a.scale * b.scale

instance : Mul (Transform K) := ⟨mul⟩

/-- transform.cpp:76-79 `transformPoint`; also `operator*(const Vector3&)` transform.h:108-110. -/
def transformPoint (a : Transform K) (p : Vec3 K) : Vec3 K :=
  a.translation + a.rotation.rotate (a.scale • p)

/-- transform.cpp:81-84 `rotate`. -/
def rotate (a : Transform K) (v : Vec3 K) : Vec3 K := a.rotation.rotate v

/-- transform.h:128-130 `toRotationMatrix`. -/
def toRotationMatrix (a : Transform K) : Mat3 K := a.rotation.toMat

/-- transform.h:133-135 `toLinear`. -/
def toLinear (a : Transform K) : Mat3 K := Mat3.smul a.scale a.toRotationMatrix

/-- transform.cpp:86-95 `inverse` (the code computes `invScale` in double; exact here). -/
def inverse {K : Type*} [Field K] [DecidableEq K] (a : Transform K) : Transform K :=
  let invRot := a.rotation.inverse
  let invScale := 1 / a.scale
  ⟨invRot, (-invScale) • invRot.rotate a.translation, invScale⟩

end Transform

/-- Eigen `Affine3<T>`: a 3x3 linear part and a translation (the last row is implicitly 0 0 0 1,
`AffineCompact`-equivalent view of momentum's `Affine3`). -/
@[ext] structure Affine (K : Type*) where
  linear : Mat3 K
  translation : Vec3 K
  deriving DecidableEq

namespace Affine
variable {K : Type*} [CommRing K]

/-- Eigen affine product. -/
def mul (a b : Affine K) : Affine K := ⟨a.linear.mul b.linear, a.linear.mulVec b.translation + a.translation⟩

instance : Mul (Affine K) := ⟨mul⟩

/-- Eigen affine times point. -/
def apply (a : Affine K) (p : Vec3 K) : Vec3 K := a.linear.mulVec p + a.translation

/-- Identity. -/
def one : Affine K := ⟨Mat3.one, 0⟩

end Affine

namespace Transform
variable {K : Type*} [CommRing K]

/-- transform.cpp:67-74 `toAffine3`; transform.h:119-125 `toMatrix` is the same data with the
row 0 0 0 1 appended, see `toMatrix`. -/
def toAffine3 (a : Transform K) : Affine K := ⟨a.toLinear, a.translation⟩

/-- transform.h:101-106 `operator*(const Affine3&)`. -/
def mulAffine (a : Transform K) (b : Affine K) : Affine K :=
  ⟨a.toLinear.mul b.linear, a.rotation.rotate (a.scale • b.translation) + a.translation⟩

/-- transform.h:119-125 `toMatrix`: 4x4 matrix, rows and columns indexed by `Fin 4`. -/
def toMatrix (a : Transform K) : Matrix (Fin 4) (Fin 4) K :=
  let l := a.toLinear
  let t := a.translation
  !![l.m00, l.m01, l.m02, t.x; l.m10, l.m11, l.m12, t.y; l.m20, l.m21, l.m22, t.z; 0, 0, 0, 1]

end Transform
end Momentum
