import Verif.Model.Limits
import Mathlib.Algebra.Order.Ring.Defs

/-!
# momentum/character/skin_weights.cpp and `CharacterT::remapSkinWeights` (momentum/character/character.cpp)
-/

namespace Momentum

/-- skin_weights.h:17. -/
def kMaxSkinJoints : Nat := 8

/-! ### SkinWeights::set -/

/-- The pair of matrices of `SkinWeights`, row by row. -/
structure SkinWeights (K : Type) where
  index : List (List Nat)
  weight : List (List K)
  deriving DecidableEq

section
variable {K : Type}

/-- Write entry `(i, j)` of a matrix stored by rows; out of range is `ub`. -/
def writeEntry {α : Type} (m : List (List α)) (i j : Nat) (x : α) : Outcome (List (List α)) :=
  match m[i]? with
  | none => .ub
  | some row => if j < row.length then .ok (m.set i (row.set j x)) else .ub

/-- skin_weights.cpp:22-25: body of the inner loop. `narrow_cast<uint32_t>` truncates. -/
def setEntry (ind : List (List Nat)) (wgt : List (List K)) (st : SkinWeights K) (i j : Nat) :
    Outcome (SkinWeights K) :=
  match (ind[i]?).bind (·[j]?), (wgt[i]?).bind (·[j]?) with
  | some a, some w =>
    (writeEntry st.index i j (a % 2 ^ 32)).bind fun index =>
      (writeEntry st.weight i j w).bind fun weight => .ok ⟨index, weight⟩
  | _, _ => .ub

/-- skin_weights.cpp:14-27 `SkinWeights::set`. -/
def SkinWeights.set [Zero K] (ind : List (List Nat)) (wgt : List (List K)) : Outcome (SkinWeights K) :=
  if ind.length = wgt.length then
    let init : SkinWeights K :=
      ⟨List.replicate ind.length (List.replicate kMaxSkinJoints 0),
       List.replicate ind.length (List.replicate kMaxSkinJoints 0)⟩
    (List.range ind.length).foldl (fun acc i =>
      (List.range (min (ind.getD i []).length kMaxSkinJoints)).foldl (fun acc j =>
        acc.bind fun st => setEntry ind wgt st i j) acc) (.ok init)
  else .throws

end

/-! ### remapSkinWeights

One row (vertex) of the tables is a function from the slot number to the pair (joint, weight); only
slots below `n` (`kMaxSkinJoints` in the code) are read or written. -/

/-- The slots of one vertex. -/
abbrev SkinRow (K : Type) := Nat → Nat × K

section
variable {K : Type} [CommRing K] [LinearOrder K]

/-- character.cpp:406-409: body of the joining loop. -/
def mergeStep (row : SkinRow K) (i j : Nat) : SkinRow K :=
  if (row j).1 = (row i).1 then
    Function.update (Function.update row i ((row i).1, (row i).2 + (row j).2)) j ((row j).1, 0)
  else row

/-- character.cpp:416-421: body of the sorting loop. -/
def sortStep (row : SkinRow K) (i j : Nat) : SkinRow K :=
  if (row i).2 < (row j).2 then Function.update (Function.update row i (row j)) j (row i) else row

/-- The loop nest `for i in [0,n) for j in [i+1,n)` of both passes. -/
def pairLoop (n : Nat) (step : SkinRow K → Nat → Nat → SkinRow K) (row : SkinRow K) : SkinRow K :=
  (List.range n).foldl (fun row i =>
    (List.range (n - (i + 1))).foldl (fun row d => step row i (i + 1 + d)) row) row

/-- character.cpp:398-424: one vertex of `remapSkinWeights`.  `jointMap` is a checked lookup here; the
code reads `jointMap[index]` unchecked. -/
def remapSkinRow (n : Nat) (jointMap : Nat → Option Nat) (row : SkinRow K) : Option (SkinRow K) := do
  let idx ← (List.range n).mapM fun i => jointMap (row i).1
  let mapped : SkinRow K := fun i => (idx.getD i (row i).1, (row i).2)
  some (pairLoop n sortStep (pairLoop n mergeStep mapped))

end
end Momentum
