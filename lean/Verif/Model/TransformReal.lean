import Verif.Model.Transform
import Mathlib.Analysis.SpecialFunctions.Sqrt
import Mathlib.Analysis.Real.Sqrt

/-!
# Conversions from matrices (momentum/math/transform.cpp:49-65), over the reals
-/

namespace Momentum

/-- Eigen's matrix-to-quaternion assignment (`quaternionbase_assign_impl<..., 3, 3>::run`), used by
`result.rotation = scaledR / result.scale` in momentum/math/transform.cpp:63. -/
noncomputable def quatOfMat (m : Mat3 ℝ) : Quat ℝ :=
  let tr := m.m00 + m.m11 + m.m22
  if tr > 0 then
    let t := Real.sqrt (tr + 1)
    let h := (1 / 2) / t
    ⟨(1 / 2) * t, (m.m21 - m.m12) * h, (m.m02 - m.m20) * h, (m.m10 - m.m01) * h⟩
  else
    -- `i = 0; if (m(1,1) > m(0,0)) i = 1; if (m(2,2) > m(i,i)) i = 2`
    if m.m11 > m.m00 then
      if m.m22 > m.m11 then
        let t := Real.sqrt (m.m22 - m.m00 - m.m11 + 1)
        let h := (1 / 2) / t
        ⟨(m.m10 - m.m01) * h, (m.m02 + m.m20) * h, (m.m12 + m.m21) * h, (1 / 2) * t⟩
      else
        let t := Real.sqrt (m.m11 - m.m22 - m.m00 + 1)
        let h := (1 / 2) / t
        ⟨(m.m02 - m.m20) * h, (m.m01 + m.m10) * h, (1 / 2) * t, (m.m21 + m.m12) * h⟩
    else
      if m.m22 > m.m00 then
        let t := Real.sqrt (m.m22 - m.m00 - m.m11 + 1)
        let h := (1 / 2) / t
        ⟨(m.m10 - m.m01) * h, (m.m02 + m.m20) * h, (m.m12 + m.m21) * h, (1 / 2) * t⟩
      else
        let t := Real.sqrt (m.m00 - m.m11 - m.m22 + 1)
        let h := (1 / 2) / t
        ⟨(m.m21 - m.m12) * h, (1 / 2) * t, (m.m10 + m.m01) * h, (m.m20 + m.m02) * h⟩

/-- transform.cpp:54-65 `fromMatrix`: translation is the top right column, scale the norm of the
first column; `none` models the two failing `MT_CHECK`s (lines 61-62).  `eps` is `Eps<T>()`. -/
noncomputable def Transform.fromMatrix (eps : ℝ) (m : Matrix (Fin 4) (Fin 4) ℝ) :
    Option (Transform ℝ) :=
  let scale := Real.sqrt (m 0 0 * m 0 0 + m 1 0 * m 1 0 + m 2 0 * m 2 0)
  if eps ≤ scale ∧ scale < 1 / eps then
    let r : Mat3 ℝ := ⟨m 0 0 / scale, m 0 1 / scale, m 0 2 / scale, m 1 0 / scale, m 1 1 / scale,
      m 1 2 / scale, m 2 0 / scale, m 2 1 / scale, m 2 2 / scale⟩
    some ⟨quatOfMat r, ⟨m 0 3, m 1 3, m 2 3⟩, scale⟩
  else none

end Momentum
