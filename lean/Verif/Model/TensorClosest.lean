import Verif.Model.KdTree

/-!
# Closest points of tensors (tensor_kd_tree.cpp)

A tensor of points is a list of points for each element of the batch, after the checks of the sizes (`Model/TensorCheck.lean`).  The loops over the batch (198) and
over the source points (51) are parallel; each step writes the elements of its own source point, so an execution is the steps in some order.
-/

namespace Momentum.TensorClosest
variable {K : Type} [Field K] [LinearOrder K] {n : Nat}

/-- The tensors of the results, for each element of the batch and each source point: an index, -1 for none, and a point. -/
abbrev Results (K : Type) (n : Nat) := Nat → Nat → Int × (Fin n → K)

/-- tensor_kd_tree.cpp:193-196: tensors of zeros. -/
def zeros : Results K n := fun _ _ => (0, fun _ => 0)

/-- Write an element. -/
def write (res : Results K n) (b k : Nat) (v : Int × (Fin n → K)) : Results K n := fun b' k' => if b' = b ∧ k' = k then v else res b' k'

/-- tensor_kd_tree.cpp:53-67: the step for a source point; `search` is the query of the tree of the target points (`Model/KdTree.lean`). -/
def step (search : List (Fin n → K) → (Fin n → K) → K → KdBest K) (maxSqrDist : K) (source target : List (List (Fin n → K))) (res : Results K n) (b k : Nat) :
    Outcome (Results K n) :=
  match source[b]?, target[b]? with
  | some s, some t =>
    match s[k]? with
    | none => .ub
    | some p =>
      match (search t p maxSqrDist).1 with
      | none => .ok (write res b k (-1, fun _ => 0))
      | some i =>
        match t[i]? with
        | none => .ub
        | some q => .ok (write res b k ((i : Int), q))
  | _, _ => .ub

/-- The steps in some order. -/
def steps (search : List (Fin n → K) → (Fin n → K) → K → KdBest K) (maxSqrDist : K) (source target : List (List (Fin n → K))) :
    List (Nat × Nat) → Results K n → Outcome (Results K n)
  | [], res => .ok res
  | j :: js, res => (step search maxSqrDist source target res j.1 j.2).bind (steps search maxSqrDist source target js)

/-- tensor_kd_tree.cpp:156-222 `findClosestPoints` for points of `n` dimensions, once the sizes are checked; `order` is that of the steps.  For other than two or three
dimensions no steps are taken (199-213). -/
def findClosestPoints (search : List (Fin n → K) → (Fin n → K) → K → KdBest K) (fltMax maxDist : K) (source target : List (List (Fin n → K)))
    (order : List (Nat × Nat)) : Outcome (Results K n) :=
  let maxSqrDist := if maxDist = fltMax then fltMax else maxDist * maxDist
  if n = 2 ∨ n = 3 then steps search maxSqrDist source target order zeros else .ok zeros

/-- tensor_kd_tree.cpp:221: the third result. -/
def valid (res : Results K n) (b k : Nat) : Bool := decide (0 ≤ (res b k).1)

end Momentum.TensorClosest
