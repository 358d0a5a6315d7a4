import Verif.Model.SkeletonState
import Mathlib.Analysis.SpecialFunctions.Complex.Arg
import Mathlib.Analysis.SpecialFunctions.Trigonometric.Inverse

/-!
# momentum/math/utility.{h,cpp}: Euler angles and rotation vectors, over the reals
-/

namespace Momentum

/-- `std::atan2(y, x)`; `atan2(0, 0) = 0`. -/
noncomputable def atan2 (y x : ℝ) : ℝ := Complex.arg ⟨x, y⟩

/-- Eigen `v.reverse()`. -/
def Vec3.reverse {K : Type*} (v : Vec3 K) : Vec3 K := ⟨v.z, v.y, v.x⟩

/-- utility.h:79-97 `EulerConvention`. -/
inductive EulerConvention
  | intrinsic
  | extrinsic
  deriving DecidableEq

/-- utility.cpp:182-213, intrinsic part of `eulerXYZToRotationMatrix`. -/
noncomputable def eulerXYZToMatIntr (a : Vec3 ℝ) : Mat3 ℝ :=
  let cx := Real.cos a.x
  let sx := Real.sin a.x
  let cy := Real.cos a.y
  let sy := Real.sin a.y
  let cz := Real.cos a.z
  let sz := Real.sin a.z
  { m00 := cy * cz
    m10 := cx * sz + cz * sx * sy
    m20 := sx * sz - cx * cz * sy
    m01 := -cy * sz
    m11 := cx * cz - sx * sy * sz
    m21 := cz * sx + cx * sy * sz
    m02 := sy
    m12 := -cy * sx
    m22 := cx * cy }

/-- utility.cpp:216-247, intrinsic part of `eulerZYXToRotationMatrix` (note that the first angle is
the z angle). -/
noncomputable def eulerZYXToMatIntr (a : Vec3 ℝ) : Mat3 ℝ :=
  let cz := Real.cos a.x
  let sz := Real.sin a.x
  let cy := Real.cos a.y
  let sy := Real.sin a.y
  let cx := Real.cos a.z
  let sx := Real.sin a.z
  { m00 := cz * cy
    m10 := sz * cy
    m20 := -sy
    m01 := cz * sy * sx - sz * cx
    m11 := sz * sy * sx + cz * cx
    m21 := cy * sx
    m02 := cz * sy * cx + sz * sx
    m12 := sz * sy * cx - cz * sx
    m22 := cy * cx }

/-- utility.cpp:182-213 `eulerXYZToRotationMatrix`. -/
noncomputable def eulerXYZToRotationMatrix (a : Vec3 ℝ) : EulerConvention → Mat3 ℝ
  | .intrinsic => eulerXYZToMatIntr a
  | .extrinsic => eulerZYXToMatIntr a.reverse

/-- utility.cpp:216-247 `eulerZYXToRotationMatrix`. -/
noncomputable def eulerZYXToRotationMatrix (a : Vec3 ℝ) : EulerConvention → Mat3 ℝ
  | .intrinsic => eulerZYXToMatIntr a
  | .extrinsic => eulerXYZToMatIntr a.reverse

/-- utility.cpp:154-169, intrinsic part of `eulerToQuaternion`; axes are 0, 1, 2. -/
noncomputable def eulerToQuatIntr (a : Vec3 ℝ) (axis0 axis1 axis2 : Fin 3) : Quat ℝ :=
  Quat.angleAxis a.x (rotationAxisOf axis0) * Quat.angleAxis a.y (rotationAxisOf axis1) *
    Quat.angleAxis a.z (rotationAxisOf axis2)

/-- utility.cpp:154-169 `eulerToQuaternion`. -/
noncomputable def eulerToQuaternion (a : Vec3 ℝ) (axis0 axis1 axis2 : Fin 3) :
    EulerConvention → Quat ℝ
  | .intrinsic => eulerToQuatIntr a axis0 axis1 axis2
  | .extrinsic => eulerToQuatIntr a.reverse axis2 axis1 axis0

/-- utility.cpp:172-179 `eulerToRotationMatrix`. -/
noncomputable def eulerToRotationMatrix (a : Vec3 ℝ) (axis0 axis1 axis2 : Fin 3)
    (c : EulerConvention) : Mat3 ℝ := (eulerToQuaternion a axis0 axis1 axis2 c).toMat

/-- utility.cpp:71-109, intrinsic part of `rotationMatrixToEulerXYZ`; `tol` is `eulerTol<T>()`
(1e-6 for float, 1e-12 for double, utility.cpp:20-26). -/
noncomputable def matToEulerXYZIntr (tol : ℝ) (m : Mat3 ℝ) : Vec3 ℝ :=
  if m.m02 < 1 - tol then
    if m.m02 > -1 + tol then
      ⟨atan2 (-m.m12) m.m22, Real.arcsin m.m02, atan2 (-m.m01) m.m00⟩
    else ⟨0, -Real.pi * (1 / 2), atan2 m.m10 m.m11⟩
  else ⟨0, Real.pi * (1 / 2), atan2 m.m10 m.m11⟩

/-- utility.cpp:112-151, intrinsic part of `rotationMatrixToEulerZYX`. -/
noncomputable def matToEulerZYXIntr (tol : ℝ) (m : Mat3 ℝ) : Vec3 ℝ :=
  if m.m20 < 1 - tol then
    if m.m20 > -1 + tol then
      ⟨atan2 m.m10 m.m00, Real.arcsin (-m.m20), atan2 m.m21 m.m22⟩
    else ⟨0, Real.pi * (1 / 2), atan2 m.m01 m.m02⟩
  else ⟨0, -Real.pi * (1 / 2), atan2 (-m.m01) (-m.m02)⟩

/-- utility.cpp:71-109 `rotationMatrixToEulerXYZ`. -/
noncomputable def rotationMatrixToEulerXYZ (tol : ℝ) (m : Mat3 ℝ) : EulerConvention → Vec3 ℝ
  | .intrinsic => matToEulerXYZIntr tol m
  | .extrinsic => (matToEulerZYXIntr tol m).reverse

/-- utility.cpp:112-151 `rotationMatrixToEulerZYX`. -/
noncomputable def rotationMatrixToEulerZYX (tol : ℝ) (m : Mat3 ℝ) : EulerConvention → Vec3 ℝ
  | .intrinsic => matToEulerZYXIntr tol m
  | .extrinsic => (matToEulerXYZIntr tol m).reverse

/-- utility.cpp:250-259 `quaternionToEuler`. -/
noncomputable def quaternionToEuler (q : Quat ℝ) : Vec3 ℝ :=
  ⟨atan2 (2 * (q.w * q.x + q.y * q.z)) (1 - 2 * (q.x * q.x + q.y * q.y)),
   Real.arcsin (2 * (q.w * q.y - q.z * q.x)),
   atan2 (2 * (q.w * q.z + q.x * q.y)) (1 - 2 * (q.y * q.y + q.z * q.z))⟩

/-- utility.cpp:31-45 `quaternionToRotVec`; `tol` is the literal 1e-7. -/
noncomputable def quaternionToRotVec (tol : ℝ) (q : Quat ℝ) : Vec3 ℝ :=
  let angle0 := 2 * Real.arccos q.w
  let angle := if angle0 < -Real.pi then 2 * Real.pi - angle0
    else if angle0 > Real.pi then -2 * Real.pi + angle0 else angle0
  let ww := q.w * q.w
  if ww > 1 - tol then 0
  else
    let mul := 1 / Real.sqrt (1 - ww)
    ⟨q.x * mul * angle, q.y * mul * angle, q.z * mul * angle⟩

/-- utility.cpp:47-54 `rotVecToQuaternion`; `tol` is the literal 1e-5. -/
noncomputable def rotVecToQuaternion (tol : ℝ) (v : Vec3 ℝ) : Quat ℝ :=
  let angle := Real.sqrt v.sqNorm
  if angle < tol then Quat.one
  else Quat.angleAxis angle ⟨v.x / angle, v.y / angle, v.z / angle⟩

end Momentum
