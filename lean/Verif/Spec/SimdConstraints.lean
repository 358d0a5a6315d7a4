import Verif.Model.SimdConstraints
import Mathlib.Data.List.Perm.Subperm

/-!
# Specification: the constraints a program has stored, joint by joint
-/

namespace Momentum
variable {K : Type} {n : Nat}

/-- The values given in the calls for joint `j`. -/
def callsFor (calls : List (Nat × (Fin (n + 1) → K))) (j : Nat) : List (Fin (n + 1) → K) :=
  (calls.filter fun c => c.1 = j).map (·.2)

/-- The lists of constraints before and after an event.  Concurrent calls append their constraints to the lists of their
joints in some order; of those beyond the 4096th for a joint, some are dropped, and no more than necessary. -/
inductive SimdEvent.Contents : SimdEvent K n → (Nat → List (Fin (n + 1) → K)) → (Nat → List (Fin (n + 1) → K)) → Prop
  | clear (C) : Contents .clear C fun _ => []
  | add {C C'} (calls schedule) (acc : Nat → List (Fin (n + 1) → K)) : (∀ j, C' j = C j ++ acc j) →
      (∀ j, (acc j).Subperm (callsFor calls j)) →
      (∀ j, (acc j).length = min (kMaxConstraints - (C j).length) (callsFor calls j).length) →
      Contents (.add calls schedule) C C'

/-- The lists of constraints after a history. -/
inductive SimdContents : List (SimdEvent K n) → (Nat → List (Fin (n + 1) → K)) → Prop
  | nil : SimdContents [] fun _ => []
  | snoc {h C e C'} : SimdContents h C → e.Contents C C' → SimdContents (h ++ [e]) C'

/-- The store holds these constraints: the counter of a joint is the length of its list, the arrays hold the constraints in
this order, and the weights of the unused entries are zero. -/
structure SimdStore.Holds [Zero K] (S : SimdStore K n) (C : Nat → List (Fin (n + 1) → K)) : Prop where
  count : ∀ j < S.numJoints, S.count j = (C j).length
  room : ∀ j < S.numJoints, (C j).length ≤ kMaxConstraints
  vals : ∀ j < S.numJoints, ∀ i c, (C j)[i]? = some c → ∀ k : Fin (n + 1),
    S.mem (k * (kMaxConstraints * S.numJoints) + (j * kMaxConstraints + i)) = c k
  unused : ∀ j < S.numJoints, ∀ i, (C j).length ≤ i → i < kMaxConstraints →
    S.mem (n * (kMaxConstraints * S.numJoints) + (j * kMaxConstraints + i)) = 0

end Momentum
