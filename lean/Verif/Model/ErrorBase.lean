import Verif.Model.SkeletonState
import Verif.Model.ParameterTransform
import Verif.Model.Solver

/-!
# momentum/character_solver/skeleton_error_function.h, and the loops shared by the error functions

Over the reals.  `none` stands for an exception, a failed check or an access outside a vector.
-/

namespace Momentum

/-- skeleton_error_function.h:127-133: the members every error function has.  Of the parameter transform only the matrix
is used. -/
structure ErrorBase where
  skeleton : Skeleton ℝ
  transform : SparseMat ℝ
  weight : ℝ
  activeJointParams : List Bool
  enabledParameters : ParameterSet

/-- One degree of freedom of a joint, e.g. state_error_function.cpp:190-202: `if (activeJointParams_[paramIndex + d])`,
compute a value and scatter it with `emit`. -/
def activeStep {α σ : Type} (active : List Bool) (emit : Nat → α → σ → Option σ) (base : Nat) (s : σ)
    (d : Nat × Option α) : Option σ :=
  match active[base + d.1]? with
  | none => none
  | some false => some s
  | some true =>
    match d.2 with
    | none => none
    | some a => emit (base + d.1) a s

/-- The loop `while (jointIndex != stop)` up the hierarchy (state_error_function.cpp:177-232,322-375,
collision_error_function.cpp:208-249).  `dofs` lists the degrees of freedom of the joint in the order the body looks at
them, with the value computed for each. -/
def chainWalk {α σ : Type} (skel : Skeleton ℝ) (active : List Bool) (st : List JointState)
    (dofs : JointState → List (Nat × Option α)) (emit : Nat → α → σ → Option σ) (stop j : Option Nat) (s : σ) :
    Option σ :=
  if j = stop then some s
  else
    match j with
    | none => none
    | some j =>
      match skel.joints[j]?, st[j]? with
      | some jt, some js =>
        match (dofs js).foldlM (activeStep active emit (j * 7)) s with
        | none => none
        | some s' => chainWalk skel active st dofs emit stop jt.parent s'
      | _, _ => none
partial_fixpoint

/-- state_error_function.cpp:195-200 and similar: `gradient[col] += val * value` for the entries in row `row` of the
parameter transform. -/
def gradScatter (A : SparseMat ℝ) (row : Nat) (val : ℝ) (g : Nat → ℝ) : Option (Nat → ℝ) :=
  (A.entries.filter (·.row == row)).foldlM (init := g) fun g e =>
    if e.col < A.cols then some (Function.update g e.col (g e.col + val * e.val)) else none

/-- state_error_function.cpp:335-341 and similar: `jac.col(col) += jc * value` for the entries in row `row` of the
parameter transform, where `jac` are the `m` rows from `offset` on. -/
def jacScatter {m : Nat} (A : SparseMat ℝ) (offset row : Nat) (jc : Fin m → ℝ) (J : Nat → Nat → ℝ) :
    Option (Nat → Nat → ℝ) :=
  (A.entries.filter (·.row == row)).foldlM (init := J) fun J e =>
    if e.col < A.cols then
      some (Function.update J e.col fun t =>
        if h : offset ≤ t ∧ t < offset + m then J e.col t + jc ⟨t - offset, by omega⟩ * e.val else J e.col t)
    else none

end Momentum
