import Mathlib.Analysis.SpecialFunctions.Pow.Deriv
import Mathlib.Analysis.SpecialFunctions.Sqrt
import Mathlib.Analysis.SpecialFunctions.Log.Deriv
import Mathlib.Analysis.SpecialFunctions.ExpDeriv

/-!
# momentum/math/generalized_loss.{h,cpp}

Over the reals.
-/

namespace Momentum

/-- generalized_loss.h:50-56 `LossType`. -/
inductive LossType
  | L1 | L2 | cauchy | welsch | general
  deriving DecidableEq

/-- generalized_loss.h:58-67, the members; generalized_loss.h:59 `kEps` and :33 `kWelsch` are `1e-9` and `-1e-9`. -/
structure GeneralizedLoss where
  alpha : ℝ
  invC2 : ℝ
  lossType : LossType

open Classical in
/-- generalized_loss.cpp:67-78: the choice of the case. -/
noncomputable def lossTypeOf (alpha : ℝ) : LossType :=
  if alpha ≥ 2 - 1 / 10 ^ 9 ∧ alpha ≤ 2 + 1 / 10 ^ 9 then .L2
  else if alpha ≥ 1 - 1 / 10 ^ 9 ∧ alpha ≤ 1 + 1 / 10 ^ 9 then .L1
  else if alpha ≥ 0 - 1 / 10 ^ 9 ∧ alpha ≤ 0 + 1 / 10 ^ 9 then .cauchy
  else if alpha ≤ -1 / 10 ^ 9 then .welsch
  else .general

open Classical in
/-- generalized_loss.cpp:63-79, the constructor; `none` is the failed check. -/
noncomputable def GeneralizedLoss.make (a c : ℝ) : Option GeneralizedLoss :=
  if c > 0 then some { alpha := a, invC2 := 1 / (c * c), lossType := lossTypeOf a } else none

/-- generalized_loss.cpp:19-23 `L2Loss`. -/
def l2Loss (sqrError invC2 : ℝ) : ℝ := sqrError * invC2

/-- generalized_loss.cpp:81-102 `value` with the helpers :19-59. -/
noncomputable def GeneralizedLoss.value (g : GeneralizedLoss) (s : ℝ) : ℝ :=
  match g.lossType with
  | .L2 => l2Loss s g.invC2
  | .L1 => Real.sqrt (l2Loss s g.invC2 + 1) - 1
  | .cauchy => Real.log (1 / 2 * l2Loss s g.invC2 + 1)
  | .welsch => 1 - Real.exp (-(1 / 2) * l2Loss s g.invC2)
  | .general => ((l2Loss s g.invC2 / |g.alpha - 2| + 1) ^ (1 / 2 * g.alpha) - 1) * |g.alpha - 2| / g.alpha

/-- generalized_loss.cpp:104-127 `deriv` with the helpers :19-59. -/
noncomputable def GeneralizedLoss.deriv (g : GeneralizedLoss) (s : ℝ) : ℝ :=
  match g.lossType with
  | .L2 => g.invC2
  | .L1 => 1 / 2 * g.invC2 / Real.sqrt (l2Loss s g.invC2 + 1)
  | .cauchy => g.invC2 / (g.invC2 * s + 2)
  | .welsch => 1 / 2 * g.invC2 * Real.exp (-(1 / 2) * l2Loss s g.invC2)
  | .general => 1 / 2 * g.invC2 * (l2Loss s g.invC2 / |g.alpha - 2| + 1) ^ (1 / 2 * g.alpha - 1)

end Momentum
