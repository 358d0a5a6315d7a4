import Verif.Model.GeneralizedLoss

/-!
# C30
-/

namespace Momentum

theorem lossTypeOf_general {a : ℝ} (h : lossTypeOf a = .general) : 0 < a ∧ a ≠ 2 := by
  unfold lossTypeOf at h
  split at h
  · cases h
  split at h
  · cases h
  split at h
  · cases h
  split at h
  · cases h
  rename_i h1 h2 h3 h4
  constructor
  · by_contra hn
    rw [not_lt] at hn
    rw [not_le] at h4
    exact h3 ⟨by linarith, by linarith⟩
  · rintro rfl
    exact h1 ⟨by norm_num, by norm_num⟩

/-- **C30.**  For positive `c` the loss exists; it is zero at zero, `deriv` is its derivative at every non-negative
squared error, and positive there. -/
theorem C30_deriv (a c : ℝ) (hc : 0 < c) :
    ∃ g, GeneralizedLoss.make a c = some g ∧ g.value 0 = 0 ∧
      ∀ s, 0 ≤ s → HasDerivAt g.value (g.deriv s) s ∧ 0 < g.deriv s := by
  refine ⟨⟨a, 1 / (c * c), lossTypeOf a⟩, by unfold GeneralizedLoss.make; rw [if_pos hc], ?_, ?_⟩
  · unfold GeneralizedLoss.value l2Loss
    cases lossTypeOf a <;> simp
  · intro s hs
    have hk : (0 : ℝ) < 1 / (c * c) := by positivity
    generalize (1 : ℝ) / (c * c) = k at hk
    have hlin : HasDerivAt (fun s => l2Loss s k) k s := by
      unfold l2Loss
      simpa using (hasDerivAt_id s).mul_const k
    have h0 : 0 ≤ l2Loss s k := mul_nonneg hs hk.le
    cases ht : lossTypeOf a with
    | L2 => exact ⟨hlin, hk⟩
    | L1 =>
      have hp : 0 < l2Loss s k + 1 := by linarith
      constructor
      · have := ((hlin.add_const 1).sqrt hp.ne').sub_const 1
        unfold GeneralizedLoss.value GeneralizedLoss.deriv
        refine this.congr_deriv ?_
        have := (Real.sqrt_pos.2 hp).ne'
        field_simp
      · show 0 < 1 / 2 * k / Real.sqrt (l2Loss s k + 1)
        have := Real.sqrt_pos.2 hp
        positivity
    | cauchy =>
      have hp : 0 < 1 / 2 * l2Loss s k + 1 := by linarith
      have hp2 : 0 < k * s + 2 := by unfold l2Loss at h0; nlinarith
      constructor
      · have := ((hlin.const_mul (1 / 2)).add_const 1).log hp.ne'
        unfold GeneralizedLoss.value GeneralizedLoss.deriv
        refine this.congr_deriv ?_
        unfold l2Loss at hp ⊢
        field_simp
      · show 0 < k / (k * s + 2)
        positivity
    | welsch =>
      constructor
      · have := ((hlin.const_mul (-(1 / 2))).exp).const_sub 1
        unfold GeneralizedLoss.value GeneralizedLoss.deriv
        refine this.congr_deriv ?_
        ring
      · show 0 < 1 / 2 * k * Real.exp (-(1 / 2) * l2Loss s k)
        have := Real.exp_pos (-(1 / 2) * l2Loss s k)
        positivity
    | general =>
      obtain ⟨ha, ha2⟩ := lossTypeOf_general ht
      have hb : 0 < |a - 2| := abs_pos.2 (sub_ne_zero.2 ha2)
      have hp : 0 < l2Loss s k / |a - 2| + 1 := by positivity
      constructor
      · have := (((((hlin.div_const |a - 2|).add_const 1).rpow_const (p := 1 / 2 * a) (Or.inl hp.ne')).sub_const 1).mul_const
          |a - 2|).div_const a
        unfold GeneralizedLoss.value GeneralizedLoss.deriv
        refine this.congr_deriv ?_
        field_simp
      · show 0 < 1 / 2 * k * (l2Loss s k / |a - 2| + 1) ^ (1 / 2 * a - 1)
        have := Real.rpow_pos_of_pos hp (1 / 2 * a - 1)
        positivity

/-- **C30.**  The loss is zero only at zero, non-negative, and strictly increasing in the squared error. -/
theorem C30_increasing (a c : ℝ) (hc : 0 < c) :
    ∃ g, GeneralizedLoss.make a c = some g ∧ (∀ s, 0 ≤ s → 0 ≤ g.value s) ∧ (∀ s, 0 < s → 0 < g.value s) ∧
      ∀ s t, 0 ≤ s → s < t → g.value s < g.value t := by
  obtain ⟨g, hg, h0, hd⟩ := C30_deriv a c hc
  have hm : StrictMonoOn g.value (Set.Ici 0) := by
    apply strictMonoOn_of_deriv_pos (convex_Ici 0)
    · exact fun s hs => (hd s hs).1.continuousAt.continuousWithinAt
    · intro s hs
      rw [interior_Ici] at hs
      rw [(hd s (le_of_lt hs)).1.deriv]
      exact (hd s (le_of_lt hs)).2
  have hmono : ∀ s t, 0 ≤ s → s < t → g.value s < g.value t := fun s t hs hst => hm hs (hs.trans hst.le) hst
  refine ⟨g, hg, fun s hs => ?_, fun s hs => ?_, hmono⟩
  · rcases hs.eq_or_lt with h | h
    · rw [← h, h0]
    · exact h0 ▸ (hmono 0 s le_rfl h).le
  · exact h0 ▸ hmono 0 s le_rfl hs

/-- A `c` that is not positive is refused. -/
theorem C30_refused (a c : ℝ) (hc : c ≤ 0) : GeneralizedLoss.make a c = none := by
  unfold GeneralizedLoss.make
  rw [if_neg (not_lt.2 hc)]

/-- Which `alpha` give which loss: the four special values within `1e-9`, every other positive `alpha` the general
formula, and every `alpha` below `-1e-9` the limit for `-∞`. -/
theorem C30_cases (a : ℝ) :
    (|a - 2| ≤ 1 / 10 ^ 9 → lossTypeOf a = .L2) ∧ (|a - 1| ≤ 1 / 10 ^ 9 → lossTypeOf a = .L1) ∧
    (|a| ≤ 1 / 10 ^ 9 → lossTypeOf a = .cauchy) ∧ (a < -1 / 10 ^ 9 → lossTypeOf a = .welsch) ∧
    (0 < a → 1 / 10 ^ 9 < |a - 2| → 1 / 10 ^ 9 < |a - 1| → 1 / 10 ^ 9 < |a| → lossTypeOf a = .general) := by
  refine ⟨fun h => ?_, fun h => ?_, fun h => ?_, fun h => ?_, fun h0 h1 h2 h3 => ?_⟩
  · rw [abs_le] at h
    exact if_pos ⟨by linarith, by linarith⟩
  · rw [abs_le] at h
    unfold lossTypeOf
    rw [if_neg (by rintro ⟨h1, -⟩; norm_num at *; linarith), if_pos ⟨by linarith, by linarith⟩]
  · rw [abs_le] at h
    unfold lossTypeOf
    rw [if_neg (by rintro ⟨h1, -⟩; norm_num at *; linarith), if_neg (by rintro ⟨h1, -⟩; norm_num at *; linarith),
      if_pos ⟨by linarith, by linarith⟩]
  · unfold lossTypeOf
    rw [if_neg (by rintro ⟨h1, -⟩; norm_num at *; linarith), if_neg (by rintro ⟨h1, -⟩; norm_num at *; linarith),
      if_neg (by rintro ⟨h1, -⟩; norm_num at *; linarith), if_pos h.le]
  · unfold lossTypeOf
    rw [if_neg, if_neg, if_neg, if_neg]
    · norm_num; linarith
    · rintro ⟨h, h'⟩; exact absurd (abs_le.2 ⟨by linarith, by linarith⟩) (not_le.2 h3)
    · rintro ⟨h, h'⟩; exact absurd (abs_le.2 ⟨by linarith, by linarith⟩) (not_le.2 h2)
    · rintro ⟨h, h'⟩; exact absurd (abs_le.2 ⟨by linarith, by linarith⟩) (not_le.2 h1)

/-- A finding beside the property: the header refers to the loss of "A General and Adaptive Robust Loss Function", which
for `alpha = -2`, `c = 1` is `2 s / (s + 4)`; the implementation treats every negative `alpha` as `-∞` (`kWelsch` is
`-1e-9`, not `-1e9`) and returns `1 - exp (-s / 2)`. -/
theorem C30_negative_alpha :
    ∃ g, GeneralizedLoss.make (-2) 1 = some g ∧ ∀ s, g.value s = 1 - Real.exp (-(s / 2)) := by
  refine ⟨⟨-2, 1 / (1 * 1), lossTypeOf (-2)⟩, by unfold GeneralizedLoss.make; rw [if_pos one_pos], fun s => ?_⟩
  have : lossTypeOf (-2) = .welsch := (C30_cases (-2)).2.2.2.1 (by norm_num)
  simp only [GeneralizedLoss.value, this, l2Loss]
  congr 2
  ring

/-- A second finding: the loss jumps by a factor of two at `alpha = 2`, where it is `s` instead of `s / 2`; just outside
the tolerance, for instance at `alpha = 4` with `s = 2`, `c = 1`, the formula gives `3 / 2`, and at `alpha = 2` it gives
`2`: the loss is not monotone in `alpha`. -/
theorem C30_jump_at_two :
    ∃ g h, GeneralizedLoss.make 2 1 = some g ∧ GeneralizedLoss.make 4 1 = some h ∧ g.value 2 = 2 ∧ h.value 2 = 3 / 2 := by
  refine ⟨⟨2, 1 / (1 * 1), lossTypeOf 2⟩, ⟨4, 1 / (1 * 1), lossTypeOf 4⟩, by unfold GeneralizedLoss.make; rw [if_pos one_pos],
    by unfold GeneralizedLoss.make; rw [if_pos one_pos], ?_, ?_⟩
  · have : lossTypeOf 2 = .L2 := (C30_cases 2).1 (by norm_num)
    simp [GeneralizedLoss.value, this, l2Loss]
  · have : lossTypeOf 4 = .general := (C30_cases 4).2.2.2.2 (by norm_num) (by norm_num) (by norm_num) (by norm_num)
    simp only [GeneralizedLoss.value, this, l2Loss]
    have e : |(4 : ℝ) - 2| = 2 := by norm_num
    rw [e, show (1 : ℝ) / 2 * 4 = ((2 : ℕ) : ℝ) by norm_num, Real.rpow_natCast]
    norm_num

/-- All five cases occur. -/
example : lossTypeOf 2 = .L2 ∧ lossTypeOf 1 = .L1 ∧ lossTypeOf 0 = .cauchy ∧ lossTypeOf (-5) = .welsch ∧
    lossTypeOf (1 / 2) = .general :=
  ⟨(C30_cases 2).1 (by norm_num), (C30_cases 1).2.1 (by norm_num), (C30_cases 0).2.2.1 (by norm_num),
    (C30_cases (-5)).2.2.2.1 (by norm_num),
    (C30_cases (1 / 2)).2.2.2.2 (by norm_num) (by norm_num) (by norm_num) (by norm_num)⟩

end Momentum
