import Verif.Lemmas.BandedQr
import Verif.Props.HouseholderQr
import Mathlib.Tactic.IntervalCases

/-!
# C28 (banded solver)
-/

namespace Momentum
open Finset

/-- One call: a block of rows on a window of the banded columns and on the common columns, or rows on the common
columns alone. -/
inductive BandCall where
  | block (o : Nat) (Ab Ac : ColMat) (bRows : Nat) (b : Nat → ℝ)
  | common (Ac : ColMat) (bRows : Nat) (b : Nat → ℝ)

/-- Carry out one call. -/
noncomputable def BandQr.call (s : BandQr) : BandCall → Option BandQr
  | .block o Ab Ac bRows b => s.add o Ab Ac bRows b
  | .common Ac bRows b => s.addCommon Ac bRows b

/-- A new solver that is then given the calls in order. -/
noncomputable def bandRun (nBand nCommon bw : Nat) (lambda : ℝ) (calls : List BandCall) : Option BandQr := do
  calls.foldlM BandQr.call (← BandQr.start nBand nCommon bw lambda)

/-- The equations of a call, written out over all the unknowns: first the banded ones, then the common ones. -/
def BandCall.toRows (nBand : Nat) : BandCall → Rows
  | .block o Ab Ac _ b => ⟨Ab.rows, fun t j =>
      if j < nBand then (if o ≤ j ∧ j < o + Ab.cols then Ab.entry t (j - o) else 0) else Ac.entry t (j - nBand), b⟩
  | .common Ac _ b => ⟨Ac.rows, fun t j => if j < nBand then 0 else Ac.entry t (j - nBand), b⟩

/-- The equations of a history. -/
def bandHistory (nBand : Nat) (calls : List BandCall) : List Rows := calls.map (BandCall.toRows nBand)

/-- The first banded column a call touches, and the one after the last. -/
def BandCall.window : BandCall → Nat × Nat
  | .block o Ab _ _ _ => (o, o + Ab.cols)
  | .common .. => (0, 0)

/-- What the calls must meet: matching sizes, a window no wider than the bandwidth, no column selected twice. -/
def BandCall.Fits (nBand nCommon bw : Nat) : BandCall → Prop
  | .block o Ab Ac bRows _ => Ab.rows = bRows ∧ Ac.rows = bRows ∧ Ab.cols ≤ bw ∧ o + Ab.cols ≤ nBand ∧
      Ac.cols = nCommon ∧ Ab.DistinctColumns ∧ Ac.DistinctColumns
  | .common Ac bRows _ => Ac.rows = bRows ∧ Ac.cols = nCommon ∧ Ac.DistinctColumns

/-- Of two calls whose windows share a column, the later one does not end before the earlier one. -/
def BandOrdered (calls : List BandCall) : Prop :=
  calls.Pairwise fun c d => (∃ j, c.window.1 ≤ j ∧ j < c.window.2 ∧ d.window.1 ≤ j ∧ j < d.window.2) →
    c.window.2 ≤ d.window.2

theorem addCommon_inv {s : BandQr} {Ac : ColMat} {bRows : Nat} {b : Nat → ℝ} (h1 : Ac.rows = bRows)
    (h2 : Ac.cols = s.nCommon) (h3 : Ac.DistinctColumns) :
    ∃ s', s.addCommon Ac bRows b = some s' ∧ s'.nBand = s.nBand ∧ s'.nCommon = s.nCommon ∧ s'.bw = s.bw ∧
      s'.lambda = s.lambda ∧
      (∀ r j, r < s.nBand ∨ j < r → s'.rDense r j = s.rDense r j) ∧
      (∀ r, r < s.nBand → s'.y r = s.y r) ∧
      ∃ c, 0 ≤ c ∧ ∀ x, factorResidual (s.nBand + s.nCommon) s'.rDense s'.y x + c =
        factorResidual (s.nBand + s.nCommon) s.rDense s.y x +
          ∑ t ∈ range Ac.rows, (∑ k ∈ range s.nCommon, Ac.entry t k * x (s.nBand + k) - b t) ^ 2 := by
  obtain ⟨w', e, a1, a2, a3⟩ := qrLoop_inv (n := s.nCommon) (m := Ac.rows) (idx := Ac.idx)
    (by rw [← h2]; exact ColMat.idx_inj h3)
    ⟨fun i j => s.Rc (i + s.nBand) j, fun i => s.y (s.nBand + i), Ac.e, b⟩
  refine ⟨_, (if_neg (not_not.2 h2)).trans (if_neg (not_not.2 h1)), rfl, rfl, rfl, rfl, ?_, ?_, ?_⟩
  · intro r j hrj
    unfold BandQr.rDense denseOfBand
    dsimp only
    by_cases hj : j < s.nBand
    · rw [if_pos hj, if_pos hj]
    · rw [if_neg hj, if_neg hj]
      by_cases hr : r < s.nBand
      · rw [if_pos hr]
      · rw [if_neg hr, e, a1 _ _ (by omega)]
        dsimp only
        rw [Nat.sub_add_cancel (by omega)]
  · intro r hr
    simp only [if_pos hr]
  · refine ⟨∑ t ∈ range Ac.rows, w'.b t ^ 2, sum_nonneg fun t _ => sq_nonneg (w'.b t), fun x => ?_⟩
    rw [factorResidual_split, factorResidual_split]
    have t1 : ∀ (Rb Rc : Nat → Nat → ℝ) i j, denseOfBand s.nBand s.bw Rb Rc (s.nBand + i) (s.nBand + j) =
        Rc (s.nBand + i) j := by
      intro Rb Rc i j
      unfold denseOfBand
      rw [if_neg (by omega), Nat.add_sub_cancel_left]
    have t2 : ∀ r ∈ range s.nBand, ∀ j ∈ Ico r (s.nBand + s.nCommon),
        denseOfBand s.nBand s.bw s.Rb (fun r j => if r < s.nBand then s.Rc r j else w'.R (r - s.nBand) j) r j =
        denseOfBand s.nBand s.bw s.Rb s.Rc r j := by
      intro r hr j _
      unfold denseOfBand
      dsimp only
      rw [if_pos (mem_range.1 hr)]
    simp only [BandQr.rDense, e, t1]
    have hsum : ∑ r ∈ range s.nBand, (∑ j ∈ Ico r (s.nBand + s.nCommon),
        denseOfBand s.nBand s.bw s.Rb (fun r j => if r < s.nBand then s.Rc r j else w'.R (r - s.nBand) j) r j * x j -
          (if r < s.nBand then s.y r else w'.y (r - s.nBand))) ^ 2 =
        ∑ r ∈ range s.nBand, (∑ j ∈ Ico r (s.nBand + s.nCommon),
          denseOfBand s.nBand s.bw s.Rb s.Rc r j * x j - s.y r) ^ 2 := by
      apply sum_congr rfl
      intro r hr
      rw [if_pos (mem_range.1 hr), sum_congr rfl fun j hj => by rw [t2 r hr j hj]]
    rw [hsum]
    have h := a3 fun i => x (s.nBand + i)
    simp only [Nat.add_comm _ s.nBand] at h
    simp only [show ∀ i, ¬ (s.nBand + i < s.nBand) from fun i => by omega, if_false, Nat.add_sub_cancel_left]
    simp only [ColMat.entry]
    linarith

theorem band_add_inv {s : BandQr} {o : Nat} {Ab Ac : ColMat} {bRows : Nat} {b : Nat → ℝ}
    (hfit : (BandCall.block o Ab Ac bRows b).Fits s.nBand s.nCommon s.bw)
    (hz : ∀ r, o ≤ r → r < o + Ab.cols → ∀ j, o + Ab.cols ≤ j → j < s.nBand → s.rDense r j = 0) :
    ∃ s', s.add o Ab Ac bRows b = some s' ∧ s'.nBand = s.nBand ∧ s'.nCommon = s.nCommon ∧ s'.bw = s.bw ∧
      s'.lambda = s.lambda ∧
      (∀ r j, j < r → s'.rDense r j = s.rDense r j) ∧
      (∀ r j, j < s.nBand → (o ≤ r → o + Ab.cols ≤ j) → s'.rDense r j = s.rDense r j) ∧
      ∃ c, 0 ≤ c ∧ ∀ x, factorResidual (s.nBand + s.nCommon) s'.rDense s'.y x + c =
        factorResidual (s.nBand + s.nCommon) s.rDense s.y x +
          ((BandCall.block o Ab Ac bRows b).toRows s.nBand).residual (s.nBand + s.nCommon) x := by
  obtain ⟨f1, f2, f3, f4, f5, f6, f7⟩ := hfit
  obtain ⟨w, e, a1, a2, a3⟩ := bandLoop_inv (nBand := s.nBand) (nCommon := s.nCommon) (bw := s.bw) (k := Ab.cols)
    (m := Ab.rows) (o := o) (idxB := Ab.idx) (idxC := Ac.idx) (ColMat.idx_inj f6)
    (by rw [← f5]; exact ColMat.idx_inj f7) f3 f4 ⟨s.Rb, s.Rc, s.y, Ab.e, Ac.e, b⟩ hz
  have hzero : s.zeroBandedPart o Ab Ac bRows b =
      some ({ s with Rb := w.Rb, Rc := w.Rc, y := w.y }, { Ac with e := w.Ac }, w.b) := by
    unfold BandQr.zeroBandedPart
    rw [if_neg (by simp [f1, f2]), if_neg (not_not.2 f3), if_neg (not_not.2 f4), if_neg (not_not.2 f5), e]
    rfl
  obtain ⟨s', e', n1, n2, n3, n4, b1, b2, c, b3, b4⟩ := addCommon_inv (s := { s with Rb := w.Rb, Rc := w.Rc, y := w.y })
    (Ac := { Ac with e := w.Ac }) (bRows := bRows) (b := w.b) f2 f5 f7
  have hD : ∀ r j, ({ s with Rb := w.Rb, Rc := w.Rc, y := w.y } : BandQr).rDense r j =
      denseOfBand s.nBand s.bw w.Rb w.Rc r j := fun _ _ => rfl
  refine ⟨s', ?_, n1, n2, n3, n4, fun r j hj => ?_, fun r j hj h => ?_, c, b3, fun x => ?_⟩
  · unfold BandQr.add
    rw [hzero]
    exact e'
  · rw [b1 r j (Or.inr hj), hD, a1 r j fun _ _ => Or.inl hj]
    rfl
  · by_cases hr : r < s.nBand
    · rw [b1 r j (Or.inl hr), hD, a1 r j fun h1 _ => Or.inr ⟨h h1, hj⟩]
      rfl
    · rw [b1 r j (Or.inr (by omega)), hD, a1 r j fun _ _ => Or.inl (by omega)]
      rfl
  · have h1 := b4 x
    have h2 := a3 x
    have hres : ((BandCall.block o Ab Ac bRows b).toRows s.nBand).residual (s.nBand + s.nCommon) x =
        ∑ t ∈ range Ab.rows, (∑ j ∈ range Ab.cols, Ab.e (Ab.idx j) t * x (o + j) +
            ∑ c ∈ range s.nCommon, Ac.e (Ac.idx c) t * x (s.nBand + c) - b t) ^ 2 := by
      unfold Rows.residual BandCall.toRows
      dsimp only
      apply sum_congr rfl
      intro t _
      congr 2
      rw [sum_range_add]
      congr 1
      · rw [range_eq_Ico, ← sum_subset (s₁ := Ico o (o + Ab.cols)) (s₂ := Ico 0 s.nBand)]
        · rw [sum_Ico_eq_sum_range, Nat.add_sub_cancel_left]
          apply sum_congr rfl
          intro j hj
          have := mem_range.1 hj
          rw [if_pos (by omega), if_pos (by omega), Nat.add_sub_cancel_left]
          rfl
        · intro j; simp only [mem_Ico]; omega
        · intro j hj hn
          rw [mem_Ico] at hj hn
          rw [if_pos hj.2, if_neg (by omega), zero_mul]
      · apply sum_congr rfl
        intro c _
        rw [if_neg (by omega), Nat.add_sub_cancel_left]
        rfl
    have hrows : Ac.rows = Ab.rows := f2.trans f1.symm
    simp only [ColMat.entry, ColMat.idx] at h1 h2 hres
    have e1 : factorResidual (s.nBand + s.nCommon) ({ s with Rb := w.Rb, Rc := w.Rc, y := w.y } : BandQr).rDense w.y x =
      factorResidual (s.nBand + s.nCommon) (denseOfBand s.nBand s.bw w.Rb w.Rc) w.y x := rfl
    have e2 : factorResidual (s.nBand + s.nCommon) s.rDense s.y x =
      factorResidual (s.nBand + s.nCommon) (denseOfBand s.nBand s.bw s.Rb s.Rc) s.y x := rfl
    rw [hres, e2]
    rw [hrows] at h1
    linarith

theorem diag_residual {n : Nat} {lambda : ℝ} {D : Nat → Nat → ℝ} {y : Nat → ℝ} (hy : ∀ r < n, y r = 0)
    (hD : ∀ r < n, ∀ j ∈ Ico r n, D r j = if r = j then lambda else 0) (x : Nat → ℝ) :
    factorResidual n D y x = objective n lambda [] x := by
  unfold factorResidual objective
  simp only [List.map_nil, List.sum_nil, add_zero, mul_sum]
  apply sum_congr rfl
  intro r hr
  have hr := mem_range.1 hr
  have : ∑ j ∈ Ico r n, D r j * x j = lambda * x r := by
    rw [sum_eq_single r]
    · rw [hD r hr r (mem_Ico.2 ⟨le_rfl, hr⟩), if_pos rfl]
    · intro j hj hne
      rw [hD r hr j hj, if_neg (Ne.symm hne), zero_mul]
    · intro h
      exact absurd (mem_Ico.2 ⟨le_rfl, hr⟩) h
  rw [this, hy r hr]; ring

theorem objective_snoc (n : Nat) (lambda : ℝ) (hist : List Rows) (r : Rows) (x : Nat → ℝ) :
    objective n lambda (hist ++ [r]) x = objective n lambda hist x + r.residual n x := by
  simp [objective]; ring

theorem bandRun_snoc {nBand nCommon bw : Nat} {lambda : ℝ} {calls : List BandCall} {a : BandCall} :
    bandRun nBand nCommon bw lambda (calls ++ [a]) = (bandRun nBand nCommon bw lambda calls).bind fun s => s.call a := by
  unfold bandRun
  cases BandQr.start nBand nCommon bw lambda with
  | none => rfl
  | some s =>
    simp only [Option.bind_eq_bind, Option.bind_some, List.foldlM_append]
    congr 1
    funext s
    simp

/-- The invariant of the solver. -/
theorem bandRun_inv {nBand nCommon bw : Nat} (hbw : 0 < bw) {lambda : ℝ} {calls : List BandCall}
    (hfit : ∀ c ∈ calls, c.Fits nBand nCommon bw) (hord : BandOrdered calls) :
    ∃ s, bandRun nBand nCommon bw lambda calls = some s ∧ s.nBand = nBand ∧ s.nCommon = nCommon ∧ s.bw = bw ∧
      s.lambda = lambda ∧
      Represents (nBand + nCommon) lambda (bandHistory nBand calls) s.rDense s.y ∧
      ∀ r j, r < j → j < nBand → s.rDense r j ≠ 0 → ∃ c ∈ calls, c.window.1 ≤ r ∧ j < c.window.2 := by
  induction calls using List.reverseRecOn with
  | nil =>
    refine ⟨_, by simp [bandRun, BandQr.start, hbw]; rfl, rfl, rfl, rfl, rfl, ⟨?_, 0, le_rfl, ?_⟩, ?_⟩
    · intro r j hj _
      simp only [BandQr.rDense, denseOfBand]
      split_ifs <;> first | rfl | omega
    · intro x
      rw [add_zero]
      refine diag_residual (fun _ _ => rfl) ?_ x
      intro r hr j hj
      rw [mem_Ico] at hj
      simp only [BandQr.rDense, denseOfBand]
      split_ifs <;> first | rfl | omega
    · intro r j hrj hj hne
      exfalso
      apply hne
      simp only [BandQr.rDense, denseOfBand]
      split_ifs <;> first | rfl | omega
  | append_singleton calls a ih =>
    obtain ⟨s, e, n1, n2, n3, n4, hrep, hfill⟩ := ih (fun c hc => hfit c (by simp [hc])) (List.pairwise_append.1 hord).1
    obtain ⟨c0, hc0, hobj⟩ := hrep.functional
    have hafit := hfit a (by simp)
    have hhist : bandHistory nBand (calls ++ [a]) = bandHistory nBand calls ++ [a.toRows nBand] := by
      simp [bandHistory]
    rw [bandRun_snoc, e, hhist]
    simp only [Option.bind_some]
    cases a with
    | block o Ab Ac bRows b =>
      obtain ⟨s', e', m1, m2, m3, m4, b1, b2, c, b3, b4⟩ := band_add_inv (s := s) (o := o) (Ab := Ab) (Ac := Ac)
        (bRows := bRows) (b := b) (by rw [n1, n2, n3]; exact hafit) (by
          intro r h1 h2 j h3 h4
          by_contra hne
          obtain ⟨c, hc, hw1, hw2⟩ := hfill r j (by omega) (by omega) hne
          have := (List.pairwise_append.1 hord).2.2 c hc (.block o Ab Ac bRows b) (by simp)
            ⟨r, hw1, by omega, h1, h2⟩
          have hw : (BandCall.block o Ab Ac bRows b).window.2 = o + Ab.cols := rfl
          omega)
      refine ⟨s', e', by rw [m1, n1], by rw [m2, n2], by rw [m3, n3], by rw [m4, n4], ⟨?_, c0 + c, by positivity, ?_⟩, ?_⟩
      · intro r j hj hr
        rw [b1 r j hj, hrep.upper r j hj hr]
      · intro x
        have h1 := b4 x
        have h2 := hobj x
        rw [n1, n2] at h1
        rw [objective_snoc]
        linarith
      · intro r j hrj hj hne
        by_cases hin : o ≤ r → o + Ab.cols ≤ j
        · rw [b2 r j (by omega) hin] at hne
          obtain ⟨c, hc, h⟩ := hfill r j hrj hj hne
          exact ⟨c, by simp [hc], h⟩
        · exact ⟨_, List.mem_append_right _ (List.mem_singleton.2 rfl), by
            simp only [BandCall.window]; omega⟩
    | common Ac bRows b =>
      obtain ⟨f1, f2, f3⟩ := hafit
      obtain ⟨s', e', m1, m2, m3, m4, b1, b2, c, b3, b4⟩ := addCommon_inv (s := s) (Ac := Ac) (bRows := bRows)
        (b := b) f1 (by rw [n2]; exact f2) f3
      refine ⟨s', e', by rw [m1, n1], by rw [m2, n2], by rw [m3, n3], by rw [m4, n4], ⟨?_, c0 + c, by positivity, ?_⟩, ?_⟩
      · intro r j hj hr
        rw [b1 r j (Or.inr hj), hrep.upper r j hj hr]
      · intro x
        have h1 := b4 x
        have h2 := hobj x
        rw [n1, n2] at h1
        rw [objective_snoc]
        have hres : ((BandCall.common Ac bRows b).toRows nBand).residual (nBand + nCommon) x =
            ∑ t ∈ range Ac.rows, (∑ k ∈ range nCommon, Ac.entry t k * x (nBand + k) - b t) ^ 2 := by
          unfold Rows.residual BandCall.toRows
          dsimp only
          apply sum_congr rfl
          intro t _
          congr 2
          rw [sum_range_add, sum_eq_zero, zero_add]
          · apply sum_congr rfl
            intro c _
            rw [if_neg (by omega), Nat.add_sub_cancel_left]
          · intro j hj
            rw [if_pos (mem_range.1 hj), zero_mul]
        rw [hres]
        linarith
      · intro r j hrj hj hne
        rw [b1 r j (Or.inl (by omega))] at hne
        obtain ⟨c, hc, h⟩ := hfill r j hrj hj hne
        exact ⟨c, by simp [hc], h⟩

/-! ### The solution -/

theorem foldlM_sum (f : Nat → Option ℝ) (g r : Nat → ℝ) (k : Nat) :
    ∀ (l : Nat) (d : ℝ), (∀ i, l ≤ i → i < l + k → f i = some (r i)) →
      (List.range' l k).foldlM (fun d jo => do let q ← f jo; some (d + q * g jo)) d =
        some (d + ∑ j ∈ Ico l (l + k), r j * g j) := by
  induction k with
  | zero => intro l d _; simp
  | succ k ih =>
    intro l d h
    rw [List.range'_succ, List.foldlM_cons, h l le_rfl (by omega)]
    have := ih (l + 1) (d + r l * g l) fun i h1 h2 => h i (by omega) (by omega)
    simp only [Option.bind_eq_bind, Option.bind_some] at this ⊢
    rw [this, sum_eq_sum_Ico_succ_bot (by omega : l < l + (k + 1))]
    congr 1
    rw [add_assoc, show l + 1 + k = l + (k + 1) by omega]

theorem bandRowDot_eq {s : BandQr} (hbw : 0 < s.bw) {i : Nat} (hi : i < s.nBand) (x : Nat → ℝ) :
    bandRowDot s.bw s.nBand s.Rb i x = some (∑ j ∈ Ico (i + 1) s.nBand, s.rDense i j * x j) := by
  unfold bandRowDot
  have hmin : 0 < min s.bw (s.nBand - i) := by omega
  rw [foldlM_sum (fun jo => bandGet s.bw s.Rb i (i + jo)) (fun jo => x (i + jo)) (fun jo => s.rDense i (i + jo)) _ 1 0]
  · rw [zero_add, Nat.add_sub_cancel' hmin]
    congr 1
    rw [sum_Ico_add (fun j => s.rDense i j * x j), Nat.add_comm 1 i]
    apply sum_subset
    · intro j; simp only [mem_Ico]; omega
    · intro j hj hn
      rw [mem_Ico] at hj hn
      unfold BandQr.rDense denseOfBand
      rw [if_pos hj.2, if_neg (by omega), zero_mul]
  · intro jo h1 h2
    rw [bandGet_some (by omega)]
    unfold BandQr.rDense denseOfBand
    rw [if_pos (by omega), if_pos (by omega)]

/-- `x_dense` solves the triangular system. -/
theorem xDense_spec {s : BandQr} (hbw : 0 < s.bw)
    (hd : ∀ i < s.nBand + s.nCommon, s.rDense i i ≠ 0) :
    ∃ x, s.xDense = some x ∧
      ∀ i < s.nBand + s.nCommon, ∑ j ∈ Ico i (s.nBand + s.nCommon), s.rDense i j * x j = s.y i := by
  obtain ⟨xc, hxc⟩ : ∃ xc, xc = backSub s.nCommon (fun i j => s.Rc (i + s.nBand) j) (fun i => s.y (s.nBand + i)) :=
    ⟨_, rfl⟩
  have hback := backSub_spec s.nCommon (fun i j => s.Rc (i + s.nBand) j) (fun i => s.y (s.nBand + i)) (by
    intro i hi
    have := hd (i + s.nBand) (by omega)
    unfold BandQr.rDense denseOfBand at this
    rwa [if_neg (by omega), Nat.add_sub_cancel] at this)
  rw [← hxc] at hback
  have key : ∀ k ≤ s.nBand, ∃ x, ((List.range s.nBand).reverse.take k).foldlM (fun (x : Nat → ℝ) i => do
      let d ← bandRowDot s.bw s.nBand s.Rb i x
      let r ← bandGet s.bw s.Rb i i
      some (Function.update x i ((s.y i - (∑ c ∈ range s.nCommon, s.Rc i c * x (s.nBand + c) + d)) / r)))
      (fun j => if s.nBand ≤ j then xc (j - s.nBand) else 0) = some x ∧
      (∀ c, x (s.nBand + c) = xc c) ∧
      ∀ i, s.nBand - k ≤ i → i < s.nBand → ∑ j ∈ Ico i (s.nBand + s.nCommon), s.rDense i j * x j = s.y i := by
    intro k
    induction k with
    | zero =>
      intro _
      exact ⟨_, rfl, fun c => by simp, fun i h1 h2 => by omega⟩
    | succ k ih =>
      intro hk
      obtain ⟨x, e, hc, hx⟩ := ih (by omega)
      have hlen : k < (List.range s.nBand).reverse.length := by simp; omega
      have hget : (List.range s.nBand).reverse[k] = s.nBand - 1 - k := by
        rw [List.getElem_reverse]; simp
      obtain ⟨p, hp⟩ : ∃ p, p = s.nBand - 1 - k := ⟨_, rfl⟩
      have hpn : p < s.nBand := by omega
      rw [← List.take_concat_get' _ k hlen, List.foldlM_append, e, hget, ← hp]
      simp only [Option.bind_eq_bind, Option.bind_some, List.foldlM_cons, List.foldlM_nil, bandRowDot_eq hbw hpn,
        bandGet_some (Rb := s.Rb) (bw := s.bw) (i := p) (j := p) ⟨le_rfl, by omega⟩]
      refine ⟨_, rfl, fun c => ?_, fun i h1 h2 => ?_⟩
      · rw [Function.update_of_ne (by omega), hc c]
      · by_cases hip : i = p
        · subst hip
          have hdp := hd i (by omega)
          have hRp : s.Rb (s.bw + i - i - 1) i = s.rDense i i := by
            unfold BandQr.rDense denseOfBand
            rw [if_pos hpn, if_pos ⟨le_rfl, by omega⟩]
          rw [sum_eq_sum_Ico_succ_bot (by omega), Function.update_self, hRp, mul_div_cancel₀ _ hdp,
            ← sum_Ico_consecutive _ (by omega : i + 1 ≤ s.nBand) (by omega : s.nBand ≤ s.nBand + s.nCommon)]
          have g1 : ∀ (z : ℝ), ∑ j ∈ Ico (i + 1) s.nBand, s.rDense i j * Function.update x i z j =
              ∑ j ∈ Ico (i + 1) s.nBand, s.rDense i j * x j := fun z =>
            sum_congr rfl fun j hj => by rw [Function.update_of_ne (by have := mem_Ico.1 hj; omega)]
          have g2 : ∀ (z : ℝ), ∑ j ∈ Ico s.nBand (s.nBand + s.nCommon), s.rDense i j * Function.update x i z j =
              ∑ c ∈ range s.nCommon, s.Rc i c * x (s.nBand + c) := by
            intro z
            rw [sum_Ico_eq_sum_range, Nat.add_sub_cancel_left]
            apply sum_congr rfl
            intro c _
            rw [Function.update_of_ne (by omega)]
            unfold BandQr.rDense denseOfBand
            rw [if_neg (by omega), Nat.add_sub_cancel_left]
          rw [g1, g2]
          ring
        · rw [← hx i (by omega) h2]
          apply sum_congr rfl
          intro j hj
          rw [Function.update_of_ne (by have := mem_Ico.1 hj; omega)]
  obtain ⟨x, e, hc, hx⟩ := key s.nBand le_rfl
  rw [List.take_of_length_le (by simp)] at e
  refine ⟨x, ?_, fun i hi => ?_⟩
  · unfold BandQr.xDense
    rw [← hxc]
    exact e
  · by_cases hin : i < s.nBand
    · exact hx i (by omega) hin
    · have h := hback (i - s.nBand) (by omega)
      have hi0 : s.nBand + (i - s.nBand) = i := by omega
      rw [hi0] at h
      rw [← h]
      obtain ⟨d, rfl⟩ : ∃ d, i = s.nBand + d := ⟨i - s.nBand, by omega⟩
      rw [Nat.add_sub_cancel_left, Nat.add_comm s.nBand d, Nat.add_comm s.nBand s.nCommon,
        ← sum_Ico_add' (fun j => s.rDense (d + s.nBand) j * x j) d s.nCommon s.nBand]
      apply sum_congr rfl
      intro j _
      rw [Nat.add_comm j, hc]
      unfold BandQr.rDense denseOfBand
      rw [if_neg (by omega), Nat.add_sub_cancel_left]

theorem sum_scatter (f : Nat → Option ℝ) (r : Nat → ℝ) (i : Nat) (y : ℝ) (k : Nat) (h : ∀ jo < k, f jo = some (r jo))
    (res : Nat → ℝ) :
    ∃ res', (List.range k).foldlM (fun (res : Nat → ℝ) jo => do
      let q ← f jo
      some (Function.update res (i + jo) (res (i + jo) + q * y))) res = some res' ∧
      ∀ j, res' j = res j + if i ≤ j ∧ j < i + k then r (j - i) * y else 0 := by
  induction k with
  | zero => exact ⟨res, rfl, fun j => by rw [if_neg (by omega), add_zero]⟩
  | succ k ih =>
    obtain ⟨res', e, hr⟩ := ih fun jo hjo => h jo (by omega)
    rw [List.range_succ, List.foldlM_append, e]
    refine ⟨Function.update res' (i + k) (res' (i + k) + r k * y), by simp [h k (by omega)], fun j => ?_⟩
    by_cases hj : j = i + k
    · subst hj
      rw [Function.update_self, hr, if_neg (by omega), if_pos (by omega), Nat.add_sub_cancel_left, add_zero]
    · rw [Function.update_of_ne hj, hr]
      congr 1
      by_cases hb : i ≤ j ∧ j < i + k
      · rw [if_pos hb, if_pos (by omega)]
      · rw [if_neg hb, if_neg (by omega)]

/-- `At_times_b` is `Rᵀ y`. -/
theorem band_atTimesB {s : BandQr} :
    ∃ v, s.atTimesB = some v ∧ ∀ j < s.nBand + s.nCommon,
      v j = ∑ r ∈ range (s.nBand + s.nCommon), s.rDense r j * s.y r := by
  have key : ∀ k ≤ s.nBand, ∃ res', (List.range k).foldlM (fun (res : Nat → ℝ) i =>
      (List.range (min s.bw (s.nBand - i))).foldlM (fun (res : Nat → ℝ) jo => do
        let r ← bandGet s.bw s.Rb i (i + jo)
        some (Function.update res (i + jo) (res (i + jo) + r * s.y i))) res) (fun _ => 0) = some res' ∧
      ∀ j < s.nBand, res' j = ∑ r ∈ range k, s.rDense r j * s.y r := by
    intro k
    induction k with
    | zero => intro _; exact ⟨_, rfl, fun j _ => by simp⟩
    | succ k ih =>
      intro hk
      obtain ⟨res, e, hr⟩ := ih (by omega)
      obtain ⟨res', e', hr'⟩ := sum_scatter (fun jo => bandGet s.bw s.Rb k (k + jo)) (fun jo => s.rDense k (k + jo)) k
        (s.y k) (min s.bw (s.nBand - k)) (by
          intro jo hjo
          rw [bandGet_some (by omega)]
          unfold BandQr.rDense denseOfBand
          rw [if_pos (by omega), if_pos (by omega)]) res
      refine ⟨res', by
        rw [List.range_succ, List.foldlM_append, e]
        simp only [Option.bind_eq_bind, Option.bind_some, List.foldlM_cons, List.foldlM_nil] at e' ⊢
        rw [e']; rfl, fun j hj => ?_⟩
      rw [hr', hr j hj, sum_range_succ]
      congr 1
      by_cases hb : k ≤ j ∧ j < k + min s.bw (s.nBand - k)
      · rw [if_pos hb, Nat.add_sub_cancel' hb.1]
      · rw [if_neg hb]
        unfold BandQr.rDense denseOfBand
        rw [if_pos hj, if_neg (by omega), zero_mul]
  obtain ⟨res, e, hr⟩ := key s.nBand le_rfl
  refine ⟨fun j => if j < s.nBand then res j
    else ∑ r ∈ range (s.nBand + s.nCommon), s.Rc r (j - s.nBand) * s.y r, ?_, fun j hj => ?_⟩
  · unfold BandQr.atTimesB
    rw [e]
    rfl
  · by_cases hb : j < s.nBand
    · dsimp only
      rw [if_pos hb, hr j hb, sum_range_add, sum_eq_zero (s := range s.nCommon), add_zero]
      intro c _
      unfold BandQr.rDense denseOfBand
      rw [if_pos hb, if_neg (by omega), zero_mul]
    · dsimp only
      rw [if_neg hb]
      apply sum_congr rfl
      intro r _
      unfold BandQr.rDense denseOfBand
      rw [if_neg hb]

/-! ### The property -/

/-- **C28 (banded), partial.**  For calls that fit and come in an order in which later blocks never end before earlier
ones they share columns with, the banded solver accepts the whole history; its factor is upper triangular and has the
normal equations of the history, and `At_times_b` reports the right-hand side.  Missing: any other order, for which the
claim is false (`C28_banded_order_counterexample`). -/
theorem C28_banded_partial (nBand nCommon bw : Nat) (hbw : 0 < bw) (lambda : ℝ) (calls : List BandCall)
    (hfit : ∀ c ∈ calls, c.Fits nBand nCommon bw) (hord : BandOrdered calls) :
    ∃ s, bandRun nBand nCommon bw lambda calls = some s ∧
      (∀ r j, j < r → r < nBand + nCommon → s.rDense r j = 0) ∧
      (∀ j < nBand + nCommon, ∀ k < nBand + nCommon,
        ∑ r ∈ range (nBand + nCommon), s.rDense r j * s.rDense r k =
          normalMatrix lambda (bandHistory nBand calls) j k) ∧
      (∀ j < nBand + nCommon,
        ∑ r ∈ range (nBand + nCommon), s.rDense r j * s.y r = normalRhs (bandHistory nBand calls) j) ∧
      ∃ v, s.atTimesB = some v ∧ ∀ j < nBand + nCommon, v j = normalRhs (bandHistory nBand calls) j := by
  obtain ⟨s, e, n1, n2, n3, n4, hrep, -⟩ := bandRun_inv hbw (lambda := lambda) hfit hord
  refine ⟨s, e, hrep.upper, hrep.normal.1, hrep.normal.2, ?_⟩
  obtain ⟨v, hv, h⟩ := band_atTimesB (s := s)
  refine ⟨v, hv, fun j hj => ?_⟩
  rw [h j (by omega), n1, n2]
  exact hrep.normal.2 j hj

/-- **C28 (banded), partial.**  Under the same proviso, for a problem of full rank `x_dense` is the only minimiser. -/
theorem C28_banded_minimiser_partial (nBand nCommon bw : Nat) (hbw : 0 < bw) (lambda : ℝ) (calls : List BandCall)
    (hfit : ∀ c ∈ calls, c.Fits nBand nCommon bw) (hord : BandOrdered calls)
    (hf : FullRank (nBand + nCommon) lambda (bandHistory nBand calls)) :
    ∃ s x, bandRun nBand nCommon bw lambda calls = some s ∧ s.xDense = some x ∧ ∀ z,
      objective (nBand + nCommon) lambda (bandHistory nBand calls) x ≤
        objective (nBand + nCommon) lambda (bandHistory nBand calls) z ∧
      (objective (nBand + nCommon) lambda (bandHistory nBand calls) z ≤
        objective (nBand + nCommon) lambda (bandHistory nBand calls) x → ∀ j < nBand + nCommon, z j = x j) := by
  obtain ⟨s, e, n1, n2, n3, n4, hrep, -⟩ := bandRun_inv hbw (lambda := lambda) hfit hord
  obtain ⟨x, hx, hs⟩ := xDense_spec (s := s) (by omega) (by rw [n1, n2]; exact hrep.diagonal.2 hf)
  rw [n1, n2] at hs
  exact ⟨s, x, e, hx, hrep.minimiser hf hs⟩

/-- The call of the dense solver for given equations. -/
def denseCall (n : Nat) (r : Rows) : AddCall := ⟨⟨r.m, n, fun j t => r.a t j, false, []⟩, r.m, r.b⟩

theorem history_denseCall (n : Nat) (hist : List Rows) : history (hist.map (denseCall n)) = hist := by
  unfold history
  rw [List.map_map]
  exact (List.map_congr_left fun r _ => rfl).trans (List.map_id _)

/-- The dense solver fed the same equations in any order returns the minimiser of the objective. -/
theorem dense_of_minimiser {n : Nat} {lambda : ℝ} {hist hist' : List Rows} (hp : hist'.Perm hist)
    (hf : FullRank n lambda hist) {x : Nat → ℝ} (hx : ∀ z, objective n lambda hist x ≤ objective n lambda hist z) :
    ∃ d, denseRun n lambda (hist'.map (denseCall n)) = some d ∧ ∀ j < n, x j = d.result j := by
  have hobj : ∀ x, objective n lambda hist' x = objective n lambda hist x := by
    intro x
    unfold objective
    rw [(hp.map fun r => r.residual n x).sum_eq]
  have hd : ∀ c ∈ hist'.map (denseCall n), c.A.DistinctColumns := by
    intro c hc
    obtain ⟨r, -, rfl⟩ := List.mem_map.1 hc
    simp [denseCall, ColMat.DistinctColumns]
  have hf' : FullRank n lambda (history (hist'.map (denseCall n))) := by
    rw [history_denseCall]
    exact fun x h1 h2 => hf x h1 fun r hr => h2 r (hp.mem_iff.2 hr)
  obtain ⟨d, hrun⟩ := (C26_defined n lambda (hist'.map (denseCall n)) hd).2 (by
    intro c hc
    obtain ⟨r, -, rfl⟩ := List.mem_map.1 hc
    simp [denseCall, ColMat.cols])
  refine ⟨d, hrun, (C27_minimiser n lambda _ hd d hrun hf' x).2 ?_⟩
  rw [history_denseCall, hobj, hobj]
  exact hx d.result

/-- **C28 (banded), partial.**  The banded solver gives what the dense solver gives when fed the same equations,
written out over all the unknowns, in any order. -/
theorem C28_banded_dense_partial (nBand nCommon bw : Nat) (hbw : 0 < bw) (lambda : ℝ) (calls : List BandCall)
    (hfit : ∀ c ∈ calls, c.Fits nBand nCommon bw) (hord : BandOrdered calls)
    (hf : FullRank (nBand + nCommon) lambda (bandHistory nBand calls)) (hist : List Rows)
    (hp : hist.Perm (bandHistory nBand calls)) :
    ∃ s x d, bandRun nBand nCommon bw lambda calls = some s ∧ s.xDense = some x ∧
      denseRun (nBand + nCommon) lambda (hist.map (denseCall (nBand + nCommon))) = some d ∧
      ∀ j < nBand + nCommon, x j = d.result j := by
  obtain ⟨s, x, e, hx, hmin⟩ := C28_banded_minimiser_partial nBand nCommon bw hbw lambda calls hfit hord hf
  obtain ⟨d, hrun, hd⟩ := dense_of_minimiser hp hf fun z => (hmin z).1
  exact ⟨s, x, d, e, hx, hrun, hd⟩

/-! ### The order matters -/

/-- Two equations `4 x₀ + x₁ = 5`, `x₁ = 1` on both columns, then `3 x₀ = 3` on the first column alone. -/
def exBandWide : BandCall :=
  .block 0 ⟨2, 2, fun j t => if j = 0 then (if t = 0 then 4 else 0) else 1, false, []⟩ ⟨2, 0, fun _ _ => 0, false, []⟩ 2
    (fun t => if t = 0 then 5 else 1)

/-- The second block of the counterexample. -/
def exBandNarrow : BandCall :=
  .block 0 ⟨1, 1, fun _ _ => 3, false, []⟩ ⟨1, 0, fun _ _ => 0, false, []⟩ 1 (fun _ => 3)

theorem exBand_fits : exBandWide.Fits 2 0 2 ∧ exBandNarrow.Fits 2 0 2 := by
  simp [exBandWide, exBandNarrow, BandCall.Fits, ColMat.cols, ColMat.DistinctColumns]

theorem objective_exBand (x : Nat → ℝ) : objective 2 0 (bandHistory 2 [exBandWide, exBandNarrow]) x =
    (4 * x 0 + x 1 - 5) ^ 2 + (x 1 - 1) ^ 2 + (3 * x 0 - 3) ^ 2 := by
  simp [objective, bandHistory, exBandWide, exBandNarrow, BandCall.toRows, Rows.residual, sum_range_succ,
    ColMat.entry, ColMat.idx, ColMat.cols]

theorem objective_exBandWide (x : Nat → ℝ) : objective 2 0 (bandHistory 2 [exBandWide]) x =
    (4 * x 0 + x 1 - 5) ^ 2 + (x 1 - 1) ^ 2 := by
  simp [objective, bandHistory, exBandWide, BandCall.toRows, Rows.residual, sum_range_succ,
    ColMat.entry, ColMat.idx, ColMat.cols]

/-- **C28 (banded) fails for other orders.**  A wide block followed by a narrower one on the same first column: the
three equations have the solution `(1, 1)`, and the banded solver returns something else, because the second call does
not touch the entry of `R` to the right of its block. -/
theorem C28_banded_order_counterexample :
    (∀ c ∈ [exBandWide, exBandNarrow], c.Fits 2 0 2) ∧ FullRank 2 0 (bandHistory 2 [exBandWide, exBandNarrow]) ∧
    ∃ s x, bandRun 2 0 2 0 [exBandWide, exBandNarrow] = some s ∧ s.xDense = some x ∧
      objective 2 0 (bandHistory 2 [exBandWide, exBandNarrow]) (fun _ => 1) = 0 ∧
      0 < objective 2 0 (bandHistory 2 [exBandWide, exBandNarrow]) x := by
  refine ⟨by simpa using exBand_fits, ?_, ?_⟩
  · intro x _ h2 j hj
    have h1 := h2 (exBandWide.toRows 2) (by simp [bandHistory]) 1 (by simp [exBandWide, BandCall.toRows])
    have h3 := h2 (exBandNarrow.toRows 2) (by simp [bandHistory]) 0 (by simp [exBandNarrow, BandCall.toRows])
    simp [exBandWide, exBandNarrow, BandCall.toRows, sum_range_succ, ColMat.entry, ColMat.idx, ColMat.cols] at h1 h3
    interval_cases j <;> assumption
  · -- after the first block
    obtain ⟨s, e, n1, n2, n3, n4, hrep, -⟩ := bandRun_inv (nBand := 2) (nCommon := 0) (bw := 2) (by norm_num) (lambda := 0)
      (calls := [exBandWide]) (by simpa using exBand_fits.1) (by simp [BandOrdered])
    have hfull : FullRank 2 0 (bandHistory 2 [exBandWide]) := by
      intro x _ h2 j hj
      have h1 := h2 (exBandWide.toRows 2) (by simp [bandHistory]) 1 (by simp [exBandWide, BandCall.toRows])
      have h3 := h2 (exBandWide.toRows 2) (by simp [bandHistory]) 0 (by simp [exBandWide, BandCall.toRows])
      simp [exBandWide, BandCall.toRows, sum_range_succ, ColMat.entry, ColMat.idx, ColMat.cols] at h1 h3
      interval_cases j
      · linarith
      · exact h1
    have hdiag := hrep.diagonal.2 hfull
    have hn := hrep.normal.1
    have h01 := hn 0 (by norm_num) 1 (by norm_num)
    simp [normalMatrix, bandHistory, exBandWide, BandCall.toRows, sum_range_succ, ColMat.entry, ColMat.idx, ColMat.cols] at h01
    have hlow := hrep.upper 1 0 (by norm_num) (by norm_num)
    obtain ⟨c, hc, hfun⟩ := hrep.functional
    have hone := hfun fun _ => 1
    rw [objective_exBandWide] at hone
    have hF0 : factorResidual 2 s.rDense s.y (fun _ => 1) = 0 := by
      have : 0 ≤ factorResidual 2 s.rDense s.y (fun _ => 1) := sum_nonneg fun r _ => sq_nonneg _
      norm_num at hone
      linarith
    have hy := sumsq_eq_zero hF0
    have hy0 := hy 0 (by simp)
    have hy1 := hy 1 (by simp)
    simp [sum_Ico_eq_sum_range, sum_range_succ] at hy0 hy1
    rw [hlow, zero_mul, add_zero] at h01
    have hR00 : s.Rb 1 0 = s.rDense 0 0 := by
      unfold BandQr.rDense denseOfBand; rw [n1, n3]; simp
    -- the second block
    obtain ⟨beta, mu, v, hv⟩ : ∃ beta mu v, householderVec 1 (s.Rb 1 0) (fun _ => (3 : ℝ)) = (beta, mu, v) := ⟨_, _, _, rfl⟩
    obtain ⟨h1, h2, h3, h4, h5, h6⟩ := householderVec_spec (by simp) hv
    obtain ⟨Rb1, e1, f1, f2⟩ := bandSet_spec (bw := 2) (Rb := s.Rb) (i := 0) (j := 0) (by norm_num) mu
    have hget : bandGet 2 s.Rb 0 0 = some (s.Rb 1 0) := bandGet_some (by norm_num)
    obtain ⟨s', hs', m1, m2, m3, hRb, hy'⟩ : ∃ s', s.call exBandNarrow = some s' ∧ s'.nBand = 2 ∧ s'.nCommon = 0 ∧ s'.bw = 2 ∧
        s'.Rb = Rb1 ∧ ∀ r < 2, s'.y r = Function.update s.y 0 (s.y 0 - hdot 1 v (s.y 0) (fun _ => 3) * beta) r := by
      have hv' : householderVec 1 (s.Rb 1 0) ((fun _ _ => (3 : ℝ)) 0) = (beta, mu, v) := hv
      have hz : s.zeroBandedPart 0 ⟨1, 1, fun _ _ => 3, false, []⟩ ⟨1, 0, fun _ _ => 0, false, []⟩ 1 (fun _ => 3) =
          some ({ s with
                  Rb := Rb1
                  Rc := Function.update s.Rc 0 (s.Rc 0)
                  y := Function.update s.y 0 (s.y 0 - hdot 1 v (s.y 0) (fun _ => 3) * beta) },
            ⟨1, 0, fun _ _ => 0, false, []⟩, fun t => 3 - hdot 1 v (s.y 0) (fun _ => 3) * beta * v t) := by
        unfold BandQr.zeroBandedPart
        simp [ColMat.cols, n1, n2, n3, bandPivot, hget, ColMat.idx, hv, h1, e1, bandReflect, reflectCols,
          applyHouseholder_eq]
      have hadd : ∀ (s1 : BandQr) (b : Nat → ℝ), s1.nCommon = 0 →
          s1.addCommon ⟨1, 0, fun _ _ => 0, false, []⟩ 1 b = some { s1 with
            Rc := fun r j => if r < s1.nBand then s1.Rc r j else s1.Rc (r - s1.nBand + s1.nBand) j
            y := fun r => if r < s1.nBand then s1.y r else s1.y (s1.nBand + (r - s1.nBand)) } := by
        intro s1 b h
        unfold BandQr.addCommon
        simp [ColMat.cols, h]
      have hcall : s.call exBandNarrow = (s.zeroBandedPart 0 ⟨1, 1, fun _ _ => 3, false, []⟩
          ⟨1, 0, fun _ _ => 0, false, []⟩ 1 (fun _ => 3)).bind fun p => p.1.addCommon p.2.1 1 p.2.2 := rfl
      rw [hz, Option.bind_some] at hcall
      rw [hcall]
      dsimp only
      rw [hadd _ _ (by exact n2)]
      refine ⟨_, rfl, n1, n2, n3, rfl, fun r hr => ?_⟩
      simp only [n1, if_pos hr]
    have hD : ∀ r j, j < 2 → r ≤ j → s'.rDense r j = Rb1 (2 + r - j - 1) j := by
      intro r j hj hrj
      unfold BandQr.rDense denseOfBand
      rw [m1, m3, if_pos hj, if_pos ⟨hrj, by omega⟩, hRb]
    have hD0 : ∀ r j, j < 2 → r ≤ j → s.rDense r j = s.Rb (2 + r - j - 1) j := by
      intro r j hj hrj
      unfold BandQr.rDense denseOfBand
      rw [n1, n3, if_pos hj, if_pos ⟨hrj, by omega⟩]
    have g00 : s'.rDense 0 0 = mu := by rw [hD 0 0 (by norm_num) le_rfl, f1]
    have g01 : s'.rDense 0 1 = s.rDense 0 1 := by
      rw [hD 0 1 (by norm_num) (by norm_num), f2 0 1 (by norm_num) (by norm_num), ← hD0 0 1 (by norm_num) (by norm_num)]
    have g11 : s'.rDense 1 1 = s.rDense 1 1 := by
      rw [hD 1 1 (by norm_num) le_rfl, f2 1 1 (by norm_num) (by norm_num), ← hD0 1 1 (by norm_num) le_rfl]
    have hrun : bandRun 2 0 2 0 [exBandWide, exBandNarrow] = some s' := by
      rw [show [exBandWide, exBandNarrow] = [exBandWide] ++ [exBandNarrow] from rfl, bandRun_snoc, e]
      exact hs'
    obtain ⟨x, hx, hsol⟩ := xDense_spec (s := s') (by omega) (by
      rw [m1, m2]
      intro i hi
      interval_cases i
      · rw [g00]; exact h3.ne'
      · rw [g11]; exact hdiag 1 (by norm_num))
    rw [m1, m2] at hsol
    have q0 := hsol 0 (by norm_num)
    have q1 := hsol 1 (by norm_num)
    simp [sum_Ico_eq_sum_range, sum_range_succ] at q0 q1
    rw [g00, g01, hy' 0 (by norm_num), Function.update_self] at q0
    rw [g11, hy' 1 (by norm_num), Function.update_of_ne (by norm_num)] at q1
    refine ⟨s', x, hrun, hx, by rw [objective_exBand]; norm_num, ?_⟩
    have hx1 : x 1 = 1 := by
      have hd1 := hdiag 1 (by norm_num)
      have : s.rDense 1 1 * (x 1 - 1) = 0 := by linarith
      have := (mul_eq_zero.1 this).resolve_left hd1
      linarith
    have hx0 : x 0 ≠ 1 := by
      intro h0
      rw [h0, hx1] at q0
      rw [hR00] at h5
      unfold hdot at q0 h5
      simp only [range_one, sum_singleton] at q0 h5
      have hy0' : s.y 0 = s.rDense 0 0 + s.rDense 0 1 := by linarith
      rw [hy0'] at q0
      have : s.rDense 0 1 * beta = 0 := by linarith
      rcases mul_eq_zero.1 this with h | h
      · rw [h, mul_zero] at h01; norm_num at h01
      · exact h1 h
    rw [objective_exBand]
    have : 0 < (3 * x 0 - 3) ^ 2 := by
      apply sq_pos_of_ne_zero
      intro h
      exact hx0 (by linarith)
    nlinarith [sq_nonneg (4 * x 0 + x 1 - 5), sq_nonneg (x 1 - 1)]

/-! ### A concrete history -/

/-- Three unknowns in a band of width two and one common unknown: windows `[0,2)` and `[1,3)`, then an equation on the
common unknown alone. -/
def exBandCalls : List BandCall :=
  [.block 0 ⟨1, 2, fun j _ => j + 1, false, []⟩ ⟨1, 1, fun _ _ => 1, false, []⟩ 1 (fun _ => 2),
   .block 1 ⟨2, 2, fun j t => j + t, false, []⟩ ⟨2, 3, fun j _ => j, true, [2]⟩ 2 (fun t => t),
   .common ⟨1, 1, fun _ _ => 7, false, []⟩ 1 (fun _ => 1)]

example : (∀ c ∈ exBandCalls, c.Fits 3 1 2) ∧ BandOrdered exBandCalls ∧
    FullRank (3 + 1) (1 / 2) (bandHistory 3 exBandCalls) := by
  refine ⟨?_, ?_, C27_regularised _ _ (by norm_num) _⟩
  · simp [exBandCalls, BandCall.Fits, ColMat.cols, ColMat.DistinctColumns]
  · simp [exBandCalls, BandOrdered, BandCall.window, ColMat.cols]

end Momentum
