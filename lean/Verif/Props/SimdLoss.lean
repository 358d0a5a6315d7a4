import Verif.Model.SimdLoss
import Verif.Props.GeneralizedLoss

/-!
# C102: the loss for packets is the loss of each lane
-/

namespace Momentum.SimdLoss

/-- **C102**: for every loss and every packet, each lane of the value and of the derivative is what the loss for one number gives for that lane. -/
theorem C102_lanes {L : Type} (g : GeneralizedLoss) (p : Packet L) (l : L) : value g p l = g.value (p l) ∧ deriv g p l = g.deriv (p l) := by
  unfold value deriv GeneralizedLoss.value GeneralizedLoss.deriv l2 l2Loss
  cases g.lossType
  · exact ⟨rfl, rfl⟩
  · exact ⟨rfl, rfl⟩
  · exact ⟨rfl, rfl⟩
  · exact ⟨rfl, rfl⟩
  · exact ⟨(mul_div_assoc _ _ _).symm, rfl⟩

/-- **C102**: what is in other lanes does not matter. -/
theorem C102_independent {L : Type} (g : GeneralizedLoss) (p q : Packet L) (l : L) (h : p l = q l) :
    value g p l = value g q l ∧ deriv g p l = deriv g q l := by
  rw [(C102_lanes g p l).1, (C102_lanes g q l).1, (C102_lanes g p l).2, (C102_lanes g q l).2, h]
  exact ⟨rfl, rfl⟩

/-- **C102**: for every positive scale, each lane has value zero at zero, and for errors that are not negative the derivative is the derivative of the
value of the lane, and is positive. -/
theorem C102_deriv {L : Type} [DecidableEq L] (a c : ℝ) (hc : 0 < c) :
    ∃ g, GeneralizedLoss.make a c = some g ∧ ∀ (p : Packet L) (l : L), (p l = 0 → value g p l = 0) ∧
      (0 ≤ p l → HasDerivAt (fun s => value g (Function.update p l s) l) (deriv g p l) (p l) ∧ 0 < deriv g p l) := by
  obtain ⟨g, hg, h0, hd⟩ := C30_deriv a c hc
  refine ⟨g, hg, fun p l => ⟨fun h => ?_, fun h => ?_⟩⟩
  · rw [(C102_lanes g p l).1, h, h0]
  · obtain ⟨h1, h2⟩ := hd _ h
    rw [(C102_lanes g p l).2]
    refine ⟨?_, h2⟩
    have : (fun s => value g (Function.update p l s) l) = g.value := by
      funext s
      rw [(C102_lanes g _ l).1, Function.update_self]
    rw [this]
    exact h1

/-- Not vacuous: a packet of two lanes with the L1 loss. -/
example : ∃ g, GeneralizedLoss.make 1 1 = some g ∧ value g (![3, 8] : Packet (Fin 2)) 0 = 1 ∧ value g (![3, 8] : Packet (Fin 2)) 1 = 2 := by
  refine ⟨⟨1, 1 / (1 * 1), lossTypeOf 1⟩, by unfold GeneralizedLoss.make; rw [if_pos one_pos], ?_, ?_⟩
  · have : lossTypeOf 1 = .L1 := (C30_cases 1).2.1 (by norm_num)
    simp only [value, this, l2]
    norm_num
    rw [show (4 : ℝ) = 2 ^ 2 by norm_num, Real.sqrt_sq (by norm_num)]
    norm_num
  · have : lossTypeOf 1 = .L1 := (C30_cases 1).2.1 (by norm_num)
    simp only [value, this, l2]
    norm_num
    rw [show (9 : ℝ) = 3 ^ 2 by norm_num, Real.sqrt_sq (by norm_num)]
    norm_num

end Momentum.SimdLoss
