import Verif.Model.TensorCheck

/-!
# Sizes that belong together
-/

namespace Momentum.TensorCheck

/-- A size is as expected, for given values of the variables. -/
def Matches (value : Int → Option Nat) (e : Int) (n : Nat) : Prop := (e < 0 → value e = some n) ∧ (0 ≤ e → (n : Int) = e)

/-- A request is right for a size of the batch and values of the variables: its tensor has elements, and the sizes expected, with a batch of that size or, where
allowed, without one. -/
def Request.Right (r : Request) (size : Nat) (value : Int → Nat) : Prop :=
  0 ∉ r.sizes ∧ ∃ ds, List.Forall₂ (Matches fun e => some (value e)) r.expected ds ∧
    (r.sizes = size :: ds ∨ (r.allowUnbatched = true ∧ r.sizes = ds))

end Momentum.TensorCheck
