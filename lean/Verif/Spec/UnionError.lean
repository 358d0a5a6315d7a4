import Verif.Model.UnionError
import Verif.Spec.DiffConstraints
import Verif.Spec.ErrorFunction

/-!
# Specification vocabulary for unions of error functions
-/

namespace Momentum
variable {μ P : Type}

/-- The member has the input. -/
def MemberOps.Has (ops : MemberOps μ P) (name : String) (e : μ) : Prop := name ∈ (ops.inputs e).getD []

instance (ops : MemberOps μ P) (name : String) (e : μ) : Decidable (ops.Has name e) := by unfold MemberOps.Has; infer_instance

/-- Adding up: a member adds to the vector it is given what it adds to zero. -/
def MemberOps.Adds (ops : MemberOps μ P) (e : μ) (p : P) : Prop :=
  ∀ g, ops.addGradient e p g = (ops.addGradient e p fun _ => 0).map fun r => (r.1, fun i => g i + r.2 i)

/-- A fully differentiable member names each input once, its inputs are consistent, and setting values does not change the names. -/
structure MemberOps.Good (ops : MemberOps μ P) (ok : μ → String → List ℝ → Prop) (e : μ) : Prop where
  nodup : ((ops.inputs e).getD []).Nodup
  consistent : InputsConsistent ((ops.inputs e).getD []) ops.getInputSize ops.getInput ops.setInput (ok e) e
  names : ∀ name y e', ops.setInput e name y = some e' → ops.inputs e' = ops.inputs e

/-- The value `y` is made of one piece for each member that has the input, in order, and the pieces are what `ok` asks for. -/
def MemberOps.PiecesOk (ops : MemberOps μ P) (ok : μ → String → List ℝ → Prop) (name : String) : List μ → List ℝ → Prop
  | [], y => y = []
  | e :: r, y =>
    if ops.Has name e then ∃ a b, y = a ++ b ∧ ops.getInputSize e name = some a.length ∧ ok e name a ∧ ops.PiecesOk ok name r b
    else ops.PiecesOk ok name r y

/-- The derivative of the gradient in an input, for one member: there is a value, the reported derivative is that of the gradient, and
setting the present value works. -/
structure MemberOps.Differentiable (ops : MemberOps μ P) (p : P) (n : Nat) (v : Nat → ℝ) (name : String) (e : μ) (x d : List ℝ) :
    Prop where
  value : ops.getInput e name = some x
  size : ops.getInputSize e name = some x.length
  dot : ops.dGradientDot e name p v = some d
  derivative : IsInputDerivative (ops.setInput e name) (fun e' => (ops.addGradient e' p fun _ => 0).map (·.2)) n v x d
  again : ∃ e' g, ops.setInput e name x = some e' ∧ ops.addGradient e' p (fun _ => 0) = some g

/-- A member as an error function of the solver. -/
def MemberOps.toErrorFunction (ops : MemberOps μ (Nat → ℝ)) (e : μ) : ErrorFunction where
  weight := 1
  jacobianSize := ops.jacobianSize e
  getError := ops.getError e
  getGradient p := (ops.addGradient e p fun _ => 0).getD (0, fun _ => 0)
  getJacobian := ops.getJacobian e

/-- The union as an error function of the solver: the gradient alone, added to a vector of zeros. -/
noncomputable def UnionError.toErrorFunction (ops : MemberOps μ (Nat → ℝ)) (U : UnionError μ) : ErrorFunction where
  weight := U.weight
  jacobianSize := U.jacobianSize ops
  getError := U.getError ops
  getGradient p := (U.addGradient ops p fun _ => 0).getD (0, fun _ => 0)
  getJacobian := U.getJacobian ops

end Momentum
