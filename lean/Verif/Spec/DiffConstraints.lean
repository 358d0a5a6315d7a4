import Mathlib.Analysis.Calculus.Deriv.Basic

/-!
# Specification vocabulary for fully differentiable error functions
-/

namespace Momentum
open Finset

/-- `d` is the derivative, in an input with the value `x`, of the product of the gradient with the fixed vector `v`: for each component
`c` of the input, setting this component to `u` and the others to what they are, and asking for the gradient (of `n` parameters),
works for every `u`, and the product is a function of `u` whose derivative at the present value is component `c` of `d`.
`set` sets the input, `gradient` is what `getGradient` adds to a vector. -/
def IsInputDerivative {α : Type} (set : List ℝ → Option α) (gradient : α → Option (Nat → ℝ)) (n : Nat) (v : Nat → ℝ) (x d : List ℝ) :
    Prop :=
  d.length = x.length ∧ ∀ c < x.length, ∃ F : ℝ → ℝ,
    (∀ u, ∃ E g, set (x.set c u) = some E ∧ gradient E = some g ∧ F u = ∑ k ∈ range n, g k * v k) ∧
    HasDerivAt F (d.getD c 0) (x.getD c 0)

end Momentum

namespace Momentum

/-- The inputs of an error function are its own numbers under names: unknown names are refused, known ones have a value whose length is
the size, values of other lengths are refused, setting the value it has changes nothing, and after setting one input that input has the
new value and the others what they had.  `ok` says which values are kept as they are (quaternions are normalised when they are set). -/
structure InputsConsistent {α : Type} (names : List String) (size : α → String → Option Nat) (get : α → String → Option (List ℝ))
    (set : α → String → List ℝ → Option α) (ok : String → List ℝ → Prop) (E : α) : Prop where
  unknown : ∀ name, name ∉ names → size E name = none ∧ get E name = none ∧ ∀ y, set E name y = none
  known : ∀ name ∈ names, ∃ x, get E name = some x ∧ size E name = some x.length ∧ (ok name x → set E name x = some E)
  wrongSize : ∀ name x y, get E name = some x → y.length ≠ x.length → set E name y = none
  setGet : ∀ name x y, get E name = some x → y.length = x.length → ∃ E', set E name y = some E' ∧ (ok name y → get E' name = some y) ∧
    ∀ other ∈ names, other ≠ name → get E' other = get E other

end Momentum
