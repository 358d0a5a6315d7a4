import Verif.Model.HouseholderQr
import Mathlib.Analysis.SpecialFunctions.Log.Basic

/-!
# momentum/math/covariance_matrix.{h,cpp}

Same conventions as Model/HouseholderQr.lean.
-/

namespace Momentum
open Finset

/-- covariance_matrix.h:76-81, the members; `A` is `m × n`. -/
structure Covariance where
  n : Nat
  m : Nat
  A : Nat → Nat → ℝ
  sigma : ℝ
  qr : DenseQr

/-- covariance_matrix.cpp:14-25 `reset`; `none` is a failed check in the solver. -/
noncomputable def Covariance.make (sigma : ℝ) (m n : Nat) (A : Nat → Nat → ℝ) : Option Covariance := do
  let qr ← (DenseQr.start n sigma).add ⟨m, n, fun j t => A t j, false, []⟩ m (fun _ => 0)
  some { n := n, m := m, A := A, sigma := sigma, qr := qr }

/-- `triangularView<Upper>().transpose().solve(b)`: forward substitution; only the upper triangle of `R` is read. -/
noncomputable def forwardSub (n : Nat) (R : Nat → Nat → ℝ) (b : Nat → ℝ) : Nat → ℝ :=
  (List.range n).foldl (fun z i =>
    Function.update z i ((b i - ∑ j ∈ range i, R j i * z j) / R i i)) (fun _ => 0)

/-- covariance_matrix.cpp:43-50 `inverse_times_vec`, for a vector of the right size (otherwise the check fails);
`inverse_times_mat` (:61-69) does this column by column. -/
noncomputable def Covariance.inverseTimesVec (c : Covariance) (rhs : Nat → ℝ) : Nat → ℝ :=
  backSub c.n c.qr.R (forwardSub c.n c.qr.R rhs)

/-- covariance_matrix.cpp:52-58 `times_vec`; `times_mat` (:71-77) does this column by column. -/
def Covariance.timesVec (c : Covariance) (rhs : Nat → ℝ) : Nat → ℝ := fun j =>
  c.sigma * c.sigma * rhs j + ∑ t ∈ range c.m, c.A t j * ∑ k ∈ range c.n, c.A t k * rhs k

open Classical in
/-- covariance_matrix.cpp:84-100 `logDeterminant`; `none` is the failed check of a positive diagonal. -/
noncomputable def Covariance.logDeterminant (c : Covariance) : Option ℝ := do
  let s ← (List.range c.n).foldlM (fun (acc : ℝ) i =>
    if c.qr.R i i > 0 then some (acc + Real.log (c.qr.R i i)) else none) 0
  some (2 * s)

/-- covariance_matrix.cpp:102-105 `inverse_logDeterminant`. -/
noncomputable def Covariance.inverseLogDeterminant (c : Covariance) : Option ℝ :=
  c.logDeterminant.map fun d => -d

end Momentum
