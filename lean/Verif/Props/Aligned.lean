import Verif.Model.Aligned
import Mathlib.Tactic.Ring
import Mathlib.Algebra.Order.Ring.Nat

/-!
# C97: aligned memory
-/

namespace Momentum

/-- **C97** (rounding). The smallest multiple of the alignment that is not below the value, unless it would be beyond the range of sizes. -/
theorem C97_round_partial {value alignment : Nat} (ha : 0 < alignment) (hv : value + alignment ≤ 2 ^ 64) : ∃ r, roundUpToAlignment value alignment = .ok r ∧
    alignment ∣ r ∧ value ≤ r ∧ ∀ m, alignment ∣ m → value ≤ m → r ≤ m := by
  have h1 : (value + alignment - 1) % 2 ^ 64 = value + alignment - 1 := Nat.mod_eq_of_lt (by omega)
  have h2 := Nat.div_mul_le_self (value + alignment - 1) alignment
  have h3 := Nat.lt_div_mul_add (a := value + alignment - 1) ha
  refine ⟨(value + alignment - 1) / alignment * alignment, ?_, Dvd.intro_left _ rfl, by omega, ?_⟩
  · unfold roundUpToAlignment
    rw [if_neg (by omega), h1, Nat.mod_eq_of_lt (by omega)]
  · rintro m ⟨k, rfl⟩ hm
    rw [Nat.mul_comm alignment k]
    refine Nat.mul_le_mul_right _ ?_
    rw [← Nat.lt_succ_iff, Nat.div_lt_iff_lt_mul ha, Nat.succ_mul]
    rw [Nat.mul_comm] at hm
    omega

/-- **C97** (blocks). A block for some elements has room for all of them, is a multiple of the alignment and wastes less than one alignment; if the system has
no such block, or it is too large, there is an error.  What is missing: requests of less than one alignment below `2 ^ 64` bytes, see
`C97_wrap_counterexample`. -/
theorem C97_alloc_partial (malloc : Nat → Bool) {size alignment n : Nat} (hs : 0 < size) (ha : 0 < alignment)
    (hv : n * size + alignment ≤ 2 ^ 64 ∨ 2 ^ 64 ≤ n * size) :
    match alignedAlloc malloc size alignment n with
    | .ok bytes => n * size ≤ bytes ∧ alignment ∣ bytes ∧ bytes < n * size + alignment ∧ malloc bytes = true
    | .throws => 2 ^ 64 ≤ n * size ∨ ∃ bytes, n * size ≤ bytes ∧ bytes < n * size + alignment ∧ alignment ∣ bytes ∧ malloc bytes = false
    | .ub => False := by
  unfold alignedAlloc
  by_cases hbig : (2 ^ 64 - 1) / size < n
  · rw [if_pos hbig]
    rw [Nat.div_lt_iff_lt_mul hs] at hbig
    exact Or.inl (by omega)
  · rw [if_neg hbig]
    have hsmall : n * size < 2 ^ 64 := by
      rw [Nat.div_lt_iff_lt_mul hs] at hbig
      omega
    obtain ⟨r, h1, h2, h3, h4⟩ := C97_round_partial (value := n * size) ha (by omega)
    rw [Nat.mod_eq_of_lt hsmall, h1]
    have hw : r < n * size + alignment := by
      by_contra hc
      have := h4 (r - alignment) (Nat.dvd_sub h2 (dvd_refl _)) (by omega)
      omega
    simp only [Outcome.bind]
    by_cases hm : malloc r = true
    · rw [if_pos hm]
      exact ⟨h3, h2, hw, hm⟩
    · rw [if_neg hm]
      exact Or.inr ⟨r, h3, hw, h2, by simpa using hm⟩

/-- **C97** (negated in part): a request of less than one alignment below `2 ^ 64` bytes is given a block of no bytes if the system has one, instead of an
error. -/
theorem C97_wrap_counterexample (malloc : Nat → Bool) (hm : malloc 0 = true) {size alignment n : Nat} (hs : 0 < size) (h2 : n * size < 2 ^ 64)
    (hv : 2 ^ 64 < n * size + alignment) (ha : alignment ≤ 2 ^ 64) : alignedAlloc malloc size alignment n = .ok 0 := by
  have hbig : ¬ (2 ^ 64 - 1) / size < n := by
    rw [Nat.div_lt_iff_lt_mul hs]
    omega
  unfold alignedAlloc
  rw [if_neg hbig, Nat.mod_eq_of_lt h2]
  have h3 : (n * size + alignment - 1) % 2 ^ 64 = n * size + alignment - 1 - 2 ^ 64 := by
    rw [Nat.mod_eq_sub_mod (by omega), Nat.mod_eq_of_lt (by omega)]
  have h4 : (n * size + alignment - 1 - 2 ^ 64) / alignment = 0 := Nat.div_eq_of_lt (by omega)
  unfold roundUpToAlignment
  rw [if_neg (by omega), h3, h4]
  simp [Outcome.bind, hm]

/-- No alignment is an error. -/
theorem C97_zero (malloc : Nat → Bool) (size n : Nat) : alignedAlloc malloc size 0 n = .throws := by
  unfold alignedAlloc roundUpToAlignment
  split <;> simp [Outcome.bind]

/-- Five floats in blocks of 32 bytes; half of all memory plus some more. -/
example : alignedAlloc (fun _ => true) 4 32 5 = .ok 32 ∧ alignedAlloc (fun b => b < 2 ^ 40) 4 32 (2 ^ 61) = .throws ∧
    alignedAlloc (fun b => b < 2 ^ 40) 4 32 (2 ^ 62 - 1) = .ok 0 ∧ alignedAlloc (fun b => b < 2 ^ 40) 4 32 (2 ^ 62) = .throws := by decide +kernel

end Momentum
