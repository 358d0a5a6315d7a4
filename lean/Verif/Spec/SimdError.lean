import Verif.Model.SimdError

/-!
# Specification: what the SIMD error functions measure

`x` are the numbers of one constraint in the order in which `addConstraint` stores them, the weight last.
-/

namespace Momentum

/-- How far the point `x 0, x 1, x 2` of the joint is from the target `x 3, x 4, x 5`. -/
def positionResidual (x : Fin 7 → ℝ) (T : Transform ℝ) : Fin 3 → ℝ :=
  (T.transformPoint ⟨x 0, x 1, x 2⟩ - ⟨x 3, x 4, x 5⟩).toFn

/-- How far the point `x 0, x 1, x 2` of the joint is from the plane with normal `x 3, x 4, x 5` at distance `x 6`. -/
def planeResidual (x : Fin 8 → ℝ) (T : Transform ℝ) : Fin 1 → ℝ :=
  fun _ => (T.transformPoint ⟨x 0, x 1, x 2⟩).dot ⟨x 3, x 4, x 5⟩ - x 6

/-- How far the target `x 6, x 7, x 8` is from the plane of the joint through its point `x 0, x 1, x 2` with normal
`x 3, x 4, x 5`. -/
def normalResidual (x : Fin 10 → ℝ) (T : Transform ℝ) : Fin 1 → ℝ :=
  fun _ => (T.transformPoint ⟨x 0, x 1, x 2⟩ - ⟨x 6, x 7, x 8⟩).dot (T.rotation.rotate ⟨x 3, x 4, x 5⟩)

/-- The sum of the weighted squares of all constraints, times `1e-4` and the weight of the error function; `C j` are the
constraints of joint `j`, `st` the skeleton state. -/
noncomputable def simdErrorOf {n m : Nat} (weight : ℝ) (N : Nat) (C : Nat → List (Fin (n + 1) → ℝ))
    (r : (Fin (n + 1) → ℝ) → Transform ℝ → Fin m → ℝ) (T : Nat → Transform ℝ) : ℝ :=
  weight * (1 / 10000) * ((List.range N).map fun j => ((C j).map fun x => x (Fin.last n) * ∑ c, r x (T j) c ^ 2).sum).sum

end Momentum
