import Verif.Model.Solver

/-!
# Specification: what the solvers are supposed to do
-/

namespace Momentum
open Finset

/-- What an iteration works on after `k` iterations. -/
def stateAfter {σ : Type} (d : σ → σ × ℝ) (s : σ) (k : Nat) : σ := (fun s => (d s).1)^[k] s

/-- The error that iteration `k` (counted from zero) reports. -/
def errorOf {σ : Type} (d : σ → σ × ℝ) (s : σ) (k : Nat) : ℝ := (d (stateAfter d s k)).2

/-- The error the iteration before `k` reports; before the first one it is the largest double. -/
noncomputable def errorBefore {σ : Type} (d : σ → σ × ℝ) (s : σ) (k : Nat) : ℝ :=
  if k = 0 then dblMax else errorOf d s (k - 1)

/-- `|J d - r|² + λ |d|²`: the linearised error after the step `-d`, and the regularisation. -/
def stepCost (n : Nat) (J : JacobianResult) (regularization : ℝ) (d : Nat → ℝ) : ℝ :=
  ∑ t ∈ range J.rows, (∑ j ∈ range n, J.e j t * d j - J.residual t) ^ 2 + regularization * ∑ j ∈ range n, d j ^ 2

/-- `d` moves only enabled parameters. -/
def OnlyEnabled (n : Nat) (ps : Nat → Bool) (d : Nat → ℝ) : Prop := ∀ j < n, ps j = false → d j = 0

/-- `d` is the one step of the enabled parameters with the smallest cost. -/
def IsGaussNewtonStep (n : Nat) (ps : Nat → Bool) (J : JacobianResult) (regularization : ℝ) (d : Nat → ℝ) : Prop :=
  OnlyEnabled n ps d ∧
  ∀ d', OnlyEnabled n ps d' → stepCost n J regularization d ≤ stepCost n J regularization d' ∧
    (stepCost n J regularization d' ≤ stepCost n J regularization d → ∀ j < n, d' j = d j)

/-- What a line search may end with: the step was halved `j` times, `j ≤ 9`; it passes the test unless it is the
shortest one, and no longer one passes. -/
def LineSearchResult (E : (Nat → ℝ) → ℝ) (accept : ℝ → ℝ → Prop) (orig delta result : Nat → ℝ) : Prop :=
  ∃ j ≤ 9, result = (fun a => orig a - (1 / 2) ^ j * delta a) ∧
    (accept ((1 / 2) ^ j) (E result) ∨ j = 9) ∧
    ∀ l < j, ¬ accept ((1 / 2) ^ l) (E fun a => orig a - (1 / 2) ^ l * delta a)

/-- A call of the public interface of the subset solver. -/
inductive SubsetCall where
  | setEnabled (ps : Nat → Bool)
  | setOptions (o : SolverOptions) (regularization : ℝ) (doLineSearch : Bool)
  | solve (params : Nat → ℝ)

/-- The solver after a call. -/
noncomputable def SubsetSolver.call {S : Type} (f : SolverFunction S) (llt : Llt) (s : SubsetSolver S) :
    SubsetCall → SubsetSolver S
  | .setEnabled ps => s.setEnabledParameters f ps
  | .setOptions o r l => s.setOptions o r l
  | .solve p => (s.solve f llt p).1

/-- The parameters enabled by the last `setEnabledParameters` of a history; all of them if there was none. -/
def enabledAfter (calls : List SubsetCall) : Nat → Bool :=
  calls.foldl (fun e c => match c with | .setEnabled ps => ps | _ => e) fun _ => true

end Momentum
