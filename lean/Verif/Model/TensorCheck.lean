import Verif.Model.Limits

/-!
# Checking the sizes of tensors (tensor_utility.cpp)
-/

namespace Momentum.TensorCheck

/-- tensor_utility.h:173-175 `TensorChecker`: the size of the batch, none before it is bound (a negative number in the code), and the sizes bound to variables. -/
structure Checker where
  batch : Option Nat
  bound : Int → Option Nat

/-- A new checker. -/
def Checker.new : Checker := ⟨none, fun _ => none⟩

/-- The arguments of a call: the sizes of the tensor, the expected sizes, variables as negative numbers, and whether a tensor without batch or without
elements is allowed. -/
structure Request where
  sizes : List Nat
  expected : List Int
  allowUnbatched : Bool
  allowEmpty : Bool
deriving DecidableEq

/-- The sizes of the result, and what is written to `needsSqueeze_out`; none if it is not written. -/
structure Checked where
  sizes : List Nat
  squeeze : Option Bool
deriving DecidableEq

/-- A variable is bound. -/
def bind (bound : Int → Option Nat) (e : Int) (n : Nat) : Int → Option Nat := fun x => if x = e then some n else bound x

/-- tensor_utility.cpp:207-244: the loop over the other dimensions; there are as many sizes as expected. -/
def dims (bound : Int → Option Nat) : List Int → List Nat → Outcome (Int → Option Nat)
  | [], _ => .ok bound
  | _ :: _, [] => .throws
  | e :: es, n :: ns =>
    if e < 0 then
      match bound e with
      | none => dims (bind bound e n) es ns
      | some b => if n ≠ b then .throws else dims bound es ns
    else if (n : Int) ≠ e then .throws
    else dims bound es ns

/-- tensor_utility.cpp:153-205: the batch: the new size of it, the sizes with it, and whether it was added. -/
def batched (c : Checker) (r : Request) : Outcome (Nat × List Nat × Bool) :=
  if r.sizes.length = r.expected.length then
    if r.allowUnbatched = false then .throws else .ok (c.batch.getD 1, c.batch.getD 1 :: r.sizes, true)
  else if r.sizes.length = r.expected.length + 1 then
    match r.sizes, c.batch with
    | [], _ => .throws
    | n :: ns, none => .ok (n, n :: ns, false)
    | n :: ns, some b => if n ≠ b then .throws else .ok (b, n :: ns, false)
  else .throws

/-- tensor_utility.cpp:125-254 `validateAndFixTensor`: the checker afterwards and the result; names of dimensions, the numbers in the tensor and its device are
not modelled. -/
def check (c : Checker) (r : Request) : Checker × Outcome Checked :=
  if 0 ∈ r.sizes then (c, if r.allowEmpty then .ok ⟨r.sizes, none⟩ else .throws)
  else
    match batched c r with
    | .throws => (c, .throws)
    | .ub => (c, .ub)
    | .ok b =>
      match dims c.bound r.expected b.2.1.tail with
      | .throws => (c, .throws)
      | .ub => (c, .ub)
      | .ok bound => (⟨some b.1, bound⟩, .ok ⟨b.2.1, some b.2.2⟩)

/-- A history of calls, whether they give errors or not. -/
def run (c : Checker) : List Request → Checker × List (Outcome Checked)
  | [] => (c, [])
  | r :: rs =>
    let s := check c r
    let t := run s.1 rs
    (t.1, s.2 :: t.2)

end Momentum.TensorCheck
