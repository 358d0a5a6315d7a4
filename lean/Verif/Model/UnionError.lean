import Verif.Model.Solver
import Verif.Model.DiffConstraints

/-!
# Union of error functions

momentum/diff_ik/union_error_function.cpp.  The members are objects of a type `μ`; what can be asked of them is `MemberOps`.  `P` is the
pose at which the functions are called (model parameters; the skeleton state is computed from them).

Simplifications: members are objects of their own (the same shared pointer twice in the list is not modelled); the name of the union is
left out; `inputs_`, an unordered map, is a list of pairs in the order of first insertion.
-/

namespace Momentum

/-- momentum/character_solver/skeleton_error_function.h and momentum/diff_ik/fully_differentiable_skeleton_error_function.h: the virtual
functions the union calls.  `addGradient e p g` is `getGradient`, which adds to the vector `g`; `inputs e` is `none` if the error
function is not fully differentiable (the dynamic cast gives a null pointer).  `none` of the others is an exception or an access out of
bounds. -/
structure MemberOps (μ P : Type) where
  jacobianSize : μ → Nat
  getError : μ → P → ℝ
  addGradient : μ → P → (Nat → ℝ) → Option (ℝ × (Nat → ℝ))
  getJacobian : μ → P → JacobianResult
  inputs : μ → Option (List String)
  getInputSize : μ → String → Option Nat
  getInput : μ → String → Option (List ℝ)
  setInput : μ → String → List ℝ → Option μ
  dGradientDot : μ → String → P → (Nat → ℝ) → Option (List ℝ)

/-- union_error_function.h:20-70: the fields. -/
structure UnionError (μ : Type) where
  weight : ℝ
  errorFunctions : List μ
  index : List (String × List Nat)

/-- union_error_function.cpp:30: `inputs_[input].push_back(i)`. -/
def pushIndex (name : String) (i : Nat) : List (String × List Nat) → List (String × List Nat)
  | [] => [(name, [i])]
  | (n, is) :: r => if n = name then (n, is ++ [i]) :: r else (n, is) :: pushIndex name i r

/-- union_error_function.cpp:28-32: the inputs of one member. -/
def indexMember {μ P : Type} (ops : MemberOps μ P) (m : List (String × List Nat)) (e : μ × Nat) : List (String × List Nat) :=
  ((ops.inputs e.1).getD []).foldl (fun m n => pushIndex n e.2 m) m

namespace UnionError
variable {μ P : Type} (ops : MemberOps μ P)

/-- union_error_function.cpp:14-65: the constructor; `none` is the exception for an empty list. -/
def make (weight : ℝ) (fs : List μ) : Option (UnionError μ) :=
  if fs = [] then none else some ⟨weight, fs, fs.zipIdx.foldl (indexMember ops) []⟩

/-- union_error_function.cpp:67-76 `getError`. -/
def getError (U : UnionError μ) (p : P) : ℝ :=
  U.weight * U.errorFunctions.foldl (fun s e => s + ops.getError e p) 0

/-- union_error_function.cpp:84-86: one member adds its gradient. -/
def gradStep (p : P) (s : ℝ × (Nat → ℝ)) (e : μ) : Option (ℝ × (Nat → ℝ)) :=
  (ops.addGradient e p s.2).map fun r => (s.1 + r.1, r.2)

/-- union_error_function.cpp:78-89 `getGradient`: note that the whole vector is multiplied with the weight. -/
def addGradient (U : UnionError μ) (p : P) (g : Nat → ℝ) : Option (ℝ × (Nat → ℝ)) :=
  (U.errorFunctions.foldlM (gradStep ops p) (0, g)).map fun s => (U.weight * s.1, fun i => s.2 i * U.weight)

/-- union_error_function.cpp:120-127 `getJacobianSize`. -/
def jacobianSize (U : UnionError μ) : Nat := U.errorFunctions.foldl (fun s e => s + ops.jacobianSize e) 0

/-- union_error_function.cpp:100-111: one member writes its block (`StackState` is that of the solver function). -/
def jacobianStep (p : P) (s : StackState) (e : μ) : StackState :=
  let r := ops.getJacobian e p
  { error := s.error + r.error
    position := s.position + ops.jacobianSize e
    e := fun j t => if s.position ≤ t ∧ t < s.position + r.rows then r.e j (t - s.position) else s.e j t
    residual := fun t => if s.position ≤ t ∧ t < s.position + r.rows then r.residual (t - s.position) else s.residual t }

/-- union_error_function.cpp:91-118 `getJacobian`, called as the solver function calls it: with a block of `getJacobianSize` rows that
are zero. -/
noncomputable def getJacobian (U : UnionError μ) (p : P) : JacobianResult :=
  let s := U.errorFunctions.foldl (jacobianStep ops p) ⟨0, 0, fun _ _ => 0, fun _ => 0⟩
  ⟨U.weight * s.error, U.jacobianSize ops, fun j t => s.e j t * Real.sqrt U.weight, fun t => s.residual t * Real.sqrt U.weight⟩

/-- union_error_function.cpp:129-136 `inputs`. -/
def inputs (U : UnionError μ) : List String := U.index.map (·.1)

/-- union_error_function.cpp:138-150 `getInputSize`. -/
def getInputSize (U : UnionError μ) (name : String) : Option Nat :=
  (U.index.lookup name).bind fun is =>
    is.foldlM (fun n i => U.errorFunctions[i]?.bind fun e => (ops.getInputSize e name).map (n + ·)) 0

/-- union_error_function.cpp:152-166 `getInputImp`: the segments one after the other; each has the size the member asks for. -/
def getInput (U : UnionError μ) (name : String) : Option (List ℝ) :=
  (U.index.lookup name).bind fun is =>
    is.foldlM (fun l i => U.errorFunctions[i]?.bind fun e => (ops.getInput e name).map (l ++ ·)) []

/-- union_error_function.cpp:176-181: one member takes its segment of the value. -/
def setStep (name : String) (value : List ℝ) (s : List μ × Nat) (i : Nat) : Option (List μ × Nat) :=
  s.1[i]?.bind fun e => (ops.getInputSize e name).bind fun sz =>
    (ops.setInput e name ((value.drop s.2).take sz)).map fun e' => (s.1.set i e', s.2 + sz)

/-- fully_differentiable_skeleton_error_function.cpp:37-50 `setInput` and union_error_function.cpp:168-182 `setInputImp`. -/
def setInput (U : UnionError μ) (name : String) (value : List ℝ) : Option (UnionError μ) :=
  (U.getInputSize ops name).bind fun n =>
    if value.length = n then
      (U.index.lookup name).bind fun is =>
        (is.foldlM (setStep ops name value) (U.errorFunctions, 0)).map fun s => { U with errorFunctions := s.1 }
    else none

/-- union_error_function.cpp:184-212 `d_gradient_d_input_dot`. -/
def dGradientDot (U : UnionError μ) (name : String) (p : P) (v : Nat → ℝ) : Option (List ℝ) :=
  (U.index.lookup name).bind fun is =>
    (is.foldlM (fun l i => U.errorFunctions[i]?.bind fun e => (ops.dGradientDot e name p v).map (l ++ ·)) []).map
      fun l => l.map (· * U.weight)

end UnionError

/-! ## The solver function with the vector its error functions share -/

/-- An error function as the solver function calls it: the weight, the error, and `getGradient` with the vector it adds to. -/
structure AddingFunction where
  weight : ℝ
  getError : (Nat → ℝ) → ℝ
  addGradient : (Nat → ℝ) → (Nat → ℝ) → Option (ℝ × (Nat → ℝ))

open Classical in
/-- skeleton_solver_function.cpp:48-63 `getError`. -/
noncomputable def sharedError (fs : List AddingFunction) (p : Nat → ℝ) : ℝ :=
  (fs.filter fun f => 0 < f.weight).foldl (fun e f => e + f.getError p) 0

open Classical in
/-- skeleton_solver_function.cpp:65-86 `getGradient`: one vector goes through all error functions. -/
noncomputable def sharedGradient (fs : List AddingFunction) (p : Nat → ℝ) : Option (ℝ × (Nat → ℝ)) :=
  (fs.filter fun f => 0 < f.weight).foldlM (fun s f => (f.addGradient p s.2).map fun r => (s.1 + r.1, r.2)) (0, fun _ => 0)

end Momentum
