import Verif.Model.Vec
import Mathlib.Analysis.SpecialFunctions.Trigonometric.Basic
import Mathlib.Analysis.Calculus.Deriv.Basic

/-!
# Specification vocabulary: derivatives of vector functions, elementary rotations
-/

namespace Momentum

/-- `f` has derivative `f'` at `t`, component by component. -/
def HasVecDerivAt (f : ℝ → Vec3 ℝ) (f' : Vec3 ℝ) (t : ℝ) : Prop :=
  HasDerivAt (fun u => (f u).x) f'.x t ∧ HasDerivAt (fun u => (f u).y) f'.y t ∧
    HasDerivAt (fun u => (f u).z) f'.z t

/-- Rotation by `a` about the x axis. -/
noncomputable def rotX (a : ℝ) : Mat3 ℝ :=
  ⟨1, 0, 0, 0, Real.cos a, -Real.sin a, 0, Real.sin a, Real.cos a⟩
/-- Rotation by `a` about the y axis. -/
noncomputable def rotY (a : ℝ) : Mat3 ℝ :=
  ⟨Real.cos a, 0, Real.sin a, 0, 1, 0, -Real.sin a, 0, Real.cos a⟩
/-- Rotation by `a` about the z axis. -/
noncomputable def rotZ (a : ℝ) : Mat3 ℝ :=
  ⟨Real.cos a, -Real.sin a, 0, Real.sin a, Real.cos a, 0, 0, 0, 1⟩

end Momentum
