import Verif.Model.GeneralizedLoss

/-!
# The loss for packets (momentum/math/simd_generalized_loss.cpp)

A packet is a function on its lanes; operations of packets are those of each lane, and a scalar is the same in all lanes.
-/

namespace Momentum.SimdLoss

/-- A packet with lanes `L`. -/
abbrev Packet (L : Type) : Type := L → ℝ

variable {L : Type}

/-- simd_generalized_loss.cpp:20-24 `L2Loss`. -/
def l2 (sqrError : Packet L) (invC2 : ℝ) : Packet L := fun l => sqrError l * invC2

/-- simd_generalized_loss.cpp:67-92 `value` with the helpers :20-55; the general case divides `fabs(alpha - 2)` by `alpha` first. -/
noncomputable def value (g : GeneralizedLoss) (sqrError : Packet L) : Packet L :=
  match g.lossType with
  | .L2 => l2 sqrError g.invC2
  | .L1 => fun l => Real.sqrt (l2 sqrError g.invC2 l + 1) - 1
  | .cauchy => fun l => Real.log (1 / 2 * l2 sqrError g.invC2 l + 1)
  | .welsch => fun l => 1 - Real.exp (-(1 / 2) * l2 sqrError g.invC2 l)
  | .general => fun l => ((l2 sqrError g.invC2 l / |g.alpha - 2| + 1) ^ (1 / 2 * g.alpha) - 1) * (|g.alpha - 2| / g.alpha)

/-- simd_generalized_loss.cpp:94-117 `deriv` with the helpers :26-60. -/
noncomputable def deriv (g : GeneralizedLoss) (sqrError : Packet L) : Packet L :=
  match g.lossType with
  | .L2 => fun _ => g.invC2
  | .L1 => fun l => 1 / 2 * g.invC2 / Real.sqrt (l2 sqrError g.invC2 l + 1)
  | .cauchy => fun l => g.invC2 / (g.invC2 * sqrError l + 2)
  | .welsch => fun l => (1 / 2 * g.invC2) * Real.exp (-(1 / 2) * l2 sqrError g.invC2 l)
  | .general => fun l => (1 / 2 * g.invC2) * (l2 sqrError g.invC2 l / |g.alpha - 2| + 1) ^ (1 / 2 * g.alpha - 1)

end Momentum.SimdLoss
