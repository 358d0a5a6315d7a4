import Mathlib.Logic.Function.Basic
import Mathlib.Algebra.Group.Defs
import Mathlib.Data.Fin.Basic

/-!
# Constraint storage of momentum/character_solver/simd_{position,plane,normal}_error_function

`none` stands for a failed check or an access outside the allocated block.  Counters are natural numbers: that there are
fewer than 2^32 calls at a time is not modelled.
-/

namespace Momentum

/-- simd_position_error_function.h:40, simd_plane_error_function.h:41, simd_normal_error_function.h:39. -/
def kMaxConstraints : Nat := 4096

/-- simd_position_error_function.h:41, simd_plane_error_function.h:42, simd_normal_error_function.h:40. -/
def kMaxSimdJoints : Nat := 512

/-- `SimdPositionConstraints`, `SimdPlaneConstraints`, `SimdNormalConstraints` (simd_position_error_function.h:38-59,
simd_plane_error_function.h:39-60, simd_normal_error_function.h:37-60): `n + 1` striped arrays in one block, the last of
them the weights (7, 8 and 10 arrays), and the counters. -/
structure SimdStore (K : Type) (n : Nat) where
  numJoints : Nat
  mem : Nat → K
  count : Nat → Nat

namespace SimdStore
variable {K : Type} {n : Nat}

/-- `dataSize` (simd_position_error_function.cpp:33): the length of one of the arrays. -/
def dataSize (S : SimdStore K n) : Nat := kMaxConstraints * S.numJoints

/-- The address of entry `index` of array `k`, e.g. `offsetX[index]` (simd_position_error_function.cpp:42-48). -/
def addr (S : SimdStore K n) (k index : Nat) : Nat := k * S.dataSize + index

/-- The constructors (simd_position_error_function.cpp:29-52, simd_plane_error_function.cpp:28-53,
simd_normal_error_function.cpp:30-53).  The check `dataSize % kSimdAlignment == 0` always holds, since 4096 is a multiple of
every alignment in use.  The normal constraints do not set their counters, and before C++20 `std::atomic` does not either:
here they start at zero. -/
def construct [Zero K] (numJoints : Nat) : Option (SimdStore K n) :=
  if numJoints ≤ kMaxSimdJoints then some ⟨numJoints, fun _ => 0, fun _ => 0⟩ else none

/-- `clearConstraints` (simd_position_error_function.cpp:89-92, simd_plane_error_function.cpp:91-94,
simd_normal_error_function.cpp:100-105): the weights and the counters of the joints of the skeleton. -/
def clear [Zero K] (S : SimdStore K n) : SimdStore K n :=
  { S with
    mem := fun a => if n * S.dataSize ≤ a ∧ a < n * S.dataSize + S.dataSize then 0 else S.mem a
    count := fun j => if j < S.numJoints then 0 else S.count j }

end SimdStore

/-- Where a call of `addConstraint` is.  `done` remembers the index at which the constraint was stored, if it was; the normal
constraints report to the caller whether it was. -/
inductive AddPc where
  | start
  | swap (index : Nat)
  | storing (index k : Nat)
  | undo
  | done (index : Option Nat)
  deriving DecidableEq

/-- A call of `addConstraint` in progress: `vals` are the numbers to be stored, the weight last. -/
structure ConstraintCall (K : Type) (n : Nat) where
  joint : Nat
  vals : Fin (n + 1) → K
  pc : AddPc

/-- The store and the calls in progress, one per thread. -/
structure AddSystem (K : Type) (n : Nat) where
  store : SimdStore K n
  calls : List (ConstraintCall K n)

namespace AddSystem
variable {K : Type} {n : Nat}

/-- One of the assignments simd_position_error_function.cpp:69-75 (simd_plane_error_function.cpp:71-78,
simd_normal_error_function.cpp:79-88). -/
def storeStep (S : SimdStore K n) (c : ConstraintCall K n) (index k : Nat) : Option (SimdStore K n × AddPc) :=
  if h : k < n + 1 then
    let a := S.addr k (c.joint * kMaxConstraints + index)
    if a < (n + 1) * S.dataSize then
      some ({ S with mem := Function.update S.mem a (c.vals ⟨k, h⟩) },
        if k + 1 < n + 1 then .storing index (k + 1) else .done (some index))
    else none
  else none

/-- simd_position_error_function.cpp:58-79 and simd_plane_error_function.cpp:57-81 `addConstraint`: one atomic operation or
one assignment. -/
def fetchStep (S : SimdStore K n) (c : ConstraintCall K n) (_ : Bool) : Option (SimdStore K n × AddPc) :=
  match c.pc with
  | .start =>
    if c.joint < kMaxSimdJoints then
      let index := S.count c.joint
      some ({ S with count := Function.update S.count c.joint (index + 1) },
        if index < kMaxConstraints then .storing index 0 else .undo)
    else none
  | .storing index k => storeStep S c index k
  | .undo => some ({ S with count := Function.update S.count c.joint (S.count c.joint - 1) }, .done none)
  | pc => some (S, pc)

/-- simd_normal_error_function.cpp:57-90 `addConstraint`: one atomic operation or one assignment.  `spurious` is a
`compare_exchange_weak` that fails although the value is the expected one. -/
def swapStep (S : SimdStore K n) (c : ConstraintCall K n) (spurious : Bool) : Option (SimdStore K n × AddPc) :=
  match c.pc with
  | .start =>
    if c.joint < kMaxSimdJoints then
      let index := S.count c.joint
      some (S, if index = kMaxConstraints then .done none else .swap index)
    else none
  | .swap index =>
    if S.count c.joint = index ∧ spurious = false then
      some ({ S with count := Function.update S.count c.joint (index + 1) }, .storing index 0)
    else some (S, .start)
  | .storing index k => storeStep S c index k
  | pc => some (S, pc)

/-- Thread `t` takes a step. -/
def step (one : SimdStore K n → ConstraintCall K n → Bool → Option (SimdStore K n × AddPc)) (s : AddSystem K n) (e : Nat × Bool) :
    Option (AddSystem K n) :=
  match s.calls[e.1]? with
  | none => some s
  | some c =>
    match one s.store c e.2 with
    | none => none
    | some (S', pc) => some ⟨S', s.calls.set e.1 { c with pc := pc }⟩

/-- An interleaving of the calls. -/
def run (one : SimdStore K n → ConstraintCall K n → Bool → Option (SimdStore K n × AddPc)) (s : AddSystem K n)
    (schedule : List (Nat × Bool)) : Option (AddSystem K n) :=
  schedule.foldlM (step one) s

end AddSystem

/-- What a program does with the store: a number of concurrent calls of `addConstraint`, all of which return before it goes
on, or `clearConstraints`. -/
inductive SimdEvent (K : Type) (n : Nat) where
  | add (calls : List (Nat × (Fin (n + 1) → K))) (schedule : List (Nat × Bool))
  | clear

/-- The effect of an event; `none` also if not all calls have returned. -/
def SimdEvent.run {K : Type} [Zero K] {n : Nat}
    (one : SimdStore K n → ConstraintCall K n → Bool → Option (SimdStore K n × AddPc)) (S : SimdStore K n) :
    SimdEvent K n → Option (SimdStore K n)
  | .clear => some S.clear
  | .add calls schedule =>
    match AddSystem.run one ⟨S, calls.map fun c => ⟨c.1, c.2, .start⟩⟩ schedule with
    | none => none
    | some s => if s.calls.all (fun c => match c.pc with | .done _ => true | _ => false) then some s.store else none

end Momentum
