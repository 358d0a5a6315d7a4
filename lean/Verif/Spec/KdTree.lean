import Verif.Model.KdTree

/-!
# What a k-d tree query should return, independently of the tree
-/

namespace Momentum

variable {K : Type} [Field K] [LinearOrder K] {n : Nat}

/-- The index of a closest acceptable point strictly within the squared distance `maxSqrDist`, with its squared distance;
or no index and the distance unchanged, if there is no such point. -/
def IsClosestPoint (points : List (Fin n → K)) (ok : Nat → Prop) (q : Fin n → K) (maxSqrDist : K) (r : KdBest K) : Prop :=
  (r.1 = none ∧ r.2 = maxSqrDist ∧ ∀ i p, points[i]? = some p → ok i → maxSqrDist ≤ kdSqDist p q) ∨
  ∃ i p, r.1 = some i ∧ points[i]? = some p ∧ ok i ∧ r.2 = kdSqDist p q ∧ r.2 < maxSqrDist ∧
    ∀ j p', points[j]? = some p' → ok j → r.2 ≤ kdSqDist p' q

end Momentum
