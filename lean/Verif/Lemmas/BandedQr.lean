import Verif.Model.BandedQr
import Verif.Lemmas.QrPivot

/-!
# Lemmas about the banded solver
-/

namespace Momentum
open Finset

theorem bandGet_some {bw : Nat} {Rb : Nat → Nat → ℝ} {i j : Nat} (h : i ≤ j ∧ j - i < bw) :
    bandGet bw Rb i j = some (Rb (bw + i - j - 1) j) := if_pos h

/-- Writing an entry of the band changes just that entry of the matrix. -/
theorem bandSet_spec {bw : Nat} {Rb : Nat → Nat → ℝ} {i j : Nat} (h : i ≤ j ∧ j - i < bw) (x : ℝ) :
    ∃ Rb', bandSet bw Rb i j x = some Rb' ∧ Rb' (bw + i - j - 1) j = x ∧
      ∀ r c, r ≤ c ∧ c - r < bw → ¬ (r = i ∧ c = j) → Rb' (bw + r - c - 1) c = Rb (bw + r - c - 1) c := by
  refine ⟨_, if_pos h, by simp, fun r c hrc hne => ?_⟩
  by_cases hc : c = j
  · subst hc
    have : r ≠ i := fun hr => hne ⟨hr, rfl⟩
    rw [Function.update_of_ne (by omega)]
  · by_cases hrow : bw + r - c - 1 = bw + i - j - 1
    · rw [hrow, Function.update_self, Function.update_of_ne hc]
    · rw [Function.update_of_ne hrow]

theorem bandReflect_spec (m : Nat) (beta : ℝ) (v : Nat → ℝ) (idx : Nat → Nat) (bw iG o : Nat) (js : List Nat)
    (hnd : js.Nodup) (hidx : ∀ j ∈ js, ∀ k ∈ js, idx j = idx k → j = k)
    (hin : ∀ j ∈ js, iG ≤ j + o ∧ j + o - iG < bw) (Rb A : Nat → Nat → ℝ) :
    ∃ Rb' A', bandReflect m beta v idx bw iG o js Rb A = some (Rb', A') ∧
      (∀ j ∈ js, Rb' (bw + iG - (j + o) - 1) (j + o) = Rb (bw + iG - (j + o) - 1) (j + o) -
          hdot m v (Rb (bw + iG - (j + o) - 1) (j + o)) (A (idx j)) * beta ∧
        ∀ t, A' (idx j) t = A (idx j) t -
          hdot m v (Rb (bw + iG - (j + o) - 1) (j + o)) (A (idx j)) * beta * v t) ∧
      (∀ r c, r ≤ c ∧ c - r < bw → ¬ (r = iG ∧ ∃ j ∈ js, c = j + o) →
        Rb' (bw + r - c - 1) c = Rb (bw + r - c - 1) c) ∧
      ∀ c, (∀ j ∈ js, idx j ≠ c) → A' c = A c := by
  induction js generalizing Rb A with
  | nil => exact ⟨Rb, A, rfl, fun j hj => absurd hj (by simp), fun _ _ _ _ => rfl, fun _ _ => rfl⟩
  | cons k js ih =>
    have hk : k ∉ js := (List.nodup_cons.1 hnd).1
    have hne : ∀ j ∈ js, idx j ≠ idx k := fun j hj h =>
      hk (hidx j (List.mem_cons_of_mem _ hj) k List.mem_cons_self h ▸ hj)
    have hkin := hin k List.mem_cons_self
    obtain ⟨Rb1, e1, f1, f2⟩ := bandSet_spec (Rb := Rb) hkin
      (applyHouseholder m beta v (Rb (bw + iG - (k + o) - 1) (k + o)) (A (idx k))).1
    obtain ⟨Rb', A', e2, i1, i2, i3⟩ := ih (List.nodup_cons.1 hnd).2
      (fun j hj l hl => hidx j (List.mem_cons_of_mem _ hj) l (List.mem_cons_of_mem _ hl))
      (fun j hj => hin j (List.mem_cons_of_mem _ hj)) Rb1
      (Function.update A (idx k) (applyHouseholder m beta v (Rb (bw + iG - (k + o) - 1) (k + o)) (A (idx k))).2)
    refine ⟨Rb', A', ?_, ?_, ?_, ?_⟩
    · unfold bandReflect at e2 ⊢
      rw [List.foldlM_cons, bandGet_some hkin]
      simp only [Option.bind_eq_bind, Option.bind_some, e1]
      exact e2
    · intro j hj
      rcases List.mem_cons.1 hj with rfl | hj
      · constructor
        · rw [i2 _ _ hkin, f1, applyHouseholder_eq]
          rintro ⟨-, l, hl, hlo⟩
          exact hk ((by omega : j = l) ▸ hl)
        · intro t
          rw [i3 _ hne, Function.update_self, applyHouseholder_eq]
      · have hjk : j ≠ k := fun h => hk (h ▸ hj)
        have := i1 j hj
        rw [f2 _ _ (hin j (List.mem_cons_of_mem _ hj)) (by omega), Function.update_of_ne (hne j hj)] at this
        exact this
    · intro r c hrc hn
      rw [i2 r c hrc fun h => hn ⟨h.1, h.2.imp fun l hl => ⟨List.mem_cons_of_mem _ hl.1, hl.2⟩⟩,
        f2 r c hrc fun h => hn ⟨h.1, k, List.mem_cons_self, h.2⟩]
    · intro c hc
      rw [i3 c fun j hj => hc j (List.mem_cons_of_mem _ hj),
        Function.update_of_ne fun h => hc k List.mem_cons_self h.symm]

/-- The columns of the block that are still to be dealt with, as columns of the dense matrix. -/
def openCols (nBand nCommon k o i : Nat) : Finset Nat := Ico (i + o) (o + k) ∪ Ico nBand (nBand + nCommon)

/-- Column `j` of the dense matrix, restricted to the block. -/
def workCol (nBand o : Nat) (idxB idxC : Nat → Nat) (w : BandWork) (j : Nat) : Nat → ℝ :=
  if j < nBand then w.Ab (idxB (j - o)) else w.Ac (idxC (j - nBand))

theorem openCols_succ {nBand nCommon k o i : Nat} (hob : o + k ≤ nBand) (hi : i < k) :
    openCols nBand nCommon k o (i + 1) = (openCols nBand nCommon k o i).erase (i + o) := by
  ext j
  simp only [openCols, mem_union, mem_Ico, mem_erase]
  omega

theorem bandPivot_inv {nBand nCommon bw k m o i : Nat} {idxB idxC : Nat → Nat}
    (hB : ∀ j < k, ∀ l < k, idxB j = idxB l → j = l) (hC : ∀ j < nCommon, ∀ l < nCommon, idxC j = idxC l → j = l)
    (hk : k ≤ bw) (hob : o + k ≤ nBand) (hi : i < k) (w : BandWork)
    (hz : ∀ r, o ≤ r → r < o + k → ∀ j, o + k ≤ j → j < nBand → denseOfBand nBand bw w.Rb w.Rc r j = 0) :
    ∃ w', bandPivot bw nCommon k m o idxB idxC w i = some w' ∧
      (∀ r j, (r = i + o → j < i + o ∨ o + k ≤ j ∧ j < nBand) →
        denseOfBand nBand bw w'.Rb w'.Rc r j = denseOfBand nBand bw w.Rb w.Rc r j) ∧
      (∀ r, r ≠ i + o → w'.y r = w.y r) ∧
      ∀ x, factorResidual (nBand + nCommon) (denseOfBand nBand bw w'.Rb w'.Rc) w'.y x +
          ∑ t ∈ range m, (∑ j ∈ openCols nBand nCommon k o (i + 1), workCol nBand o idxB idxC w' j t * x j -
            w'.b t) ^ 2 =
        factorResidual (nBand + nCommon) (denseOfBand nBand bw w.Rb w.Rc) w.y x +
          ∑ t ∈ range m, (∑ j ∈ openCols nBand nCommon k o i, workCol nBand o idxB idxC w j t * x j - w.b t) ^ 2 := by
  have hgS : i + o ∈ openCols nBand nCommon k o i := by simp only [openCols, mem_union, mem_Ico]; omega
  have hdiag : i + o ≤ i + o ∧ i + o - (i + o) < bw := by omega
  have hget := bandGet_some (Rb := w.Rb) hdiag
  have hDg : denseOfBand nBand bw w.Rb w.Rc (i + o) (i + o) = w.Rb (bw + (i + o) - (i + o) - 1) (i + o) := by
    unfold denseOfBand; rw [if_pos (by omega), if_pos hdiag]
  have hWg : workCol nBand o idxB idxC w (i + o) = w.Ab (idxB i) := by
    unfold workCol; rw [if_pos (by omega), Nat.add_sub_cancel]
  have hother : ∀ j ∈ Ico (i + 1) k, idxB j ≠ idxB i := by
    intro j hj h
    have hj := mem_Ico.1 hj
    have := hB j hj.2 i hi h
    omega
  by_cases hs : ∑ t ∈ range m, w.Ab (idxB i) t * w.Ab (idxB i) t = 0
  · refine ⟨{ w with Ab := Function.update w.Ab (idxB i) (w.Ab (idxB i)) }, ?_, ?_⟩
    · unfold bandPivot
      simp only [hget, Option.bind_eq_bind, Option.bind_some, householderVec_zero hs, if_true]
    · rw [Function.update_eq_self]
      refine ⟨fun _ _ _ => rfl, fun _ _ => rfl, fun x => ?_⟩
      congr 1
      rw [openCols_succ hob hi]
      exact skip_functional _ hgS (fun t ht => by rw [hWg]; exact sumsq_zero hs t ht) x
  · obtain ⟨beta, mu, v, hv⟩ : ∃ beta mu v,
        householderVec m (w.Rb (bw + (i + o) - (i + o) - 1) (i + o)) (w.Ab (idxB i)) = (beta, mu, v) := ⟨_, _, _, rfl⟩
    obtain ⟨h1, h2, h3, h4, h5, h6⟩ := householderVec_spec hs hv
    have hmem : ∀ j, j ∈ List.range' (i + 1) (k - (i + 1)) ↔ j ∈ Ico (i + 1) k := by
      intro j; rw [List.mem_range'_1, mem_Ico]; omega
    obtain ⟨Rb1, e1, f1, f2⟩ := bandSet_spec (Rb := w.Rb) hdiag mu
    obtain ⟨Rb', A', e2, r1, r2, r3⟩ := bandReflect_spec m beta v idxB bw (i + o) o
      (List.range' (i + 1) (k - (i + 1))) List.nodup_range'
      (fun j hj l hl => hB j (mem_Ico.1 ((hmem j).1 hj)).2 l (mem_Ico.1 ((hmem l).1 hl)).2)
      (fun j hj => by have := mem_Ico.1 ((hmem j).1 hj); omega) Rb1 (Function.update w.Ab (idxB i) v)
    obtain ⟨c1, c2, c3⟩ := reflectCols_spec m beta v idxC (List.range nCommon) List.nodup_range
      (fun j hj l hl => hC j (List.mem_range.1 hj) l (List.mem_range.1 hl)) (w.Rc (i + o)) w.Ac
    generalize hq : reflectCols m beta v idxC (List.range nCommon) (w.Rc (i + o)) w.Ac = q at c1 c2 c3
    refine ⟨{ Rb := Rb', Rc := Function.update w.Rc (i + o) q.1
              y := Function.update w.y (i + o) (w.y (i + o) - hdot m v (w.y (i + o)) w.b * beta)
              Ab := A', Ac := q.2, b := fun t => w.b t - hdot m v (w.y (i + o)) w.b * beta * v t }, ?_, ?_, ?_, ?_⟩
    · unfold bandPivot
      simp only [hget, Option.bind_eq_bind, Option.bind_some, hv, if_neg h1, e1, Function.update_self, e2, hq,
        applyHouseholder_eq]
    · -- entries that do not change
      intro r j hrj
      unfold denseOfBand
      simp only
      by_cases hj : j < nBand
      · rw [if_pos hj, if_pos hj]
        by_cases hb : r ≤ j ∧ j - r < bw
        · rw [if_pos hb, if_pos hb, r2 r j hb, f2 r j hb]
          · rintro ⟨hr, hj'⟩; have := hrj hr; omega
          · rintro ⟨hr, l, hl, hlo⟩
            have := mem_Ico.1 ((hmem l).1 hl)
            have := hrj hr; omega
        · rw [if_neg hb, if_neg hb]
      · rw [if_neg hj, if_neg hj]
        by_cases hr : r = i + o
        · have := hrj hr; omega
        · rw [Function.update_of_ne hr]
    · intro r hr
      simp only [Function.update_of_ne hr]
    · intro x
      have hrowB : ∀ j, i + o < j → j < o + k → Rb' (bw + (i + o) - j - 1) j =
          w.Rb (bw + (i + o) - j - 1) j - hdot m v (w.Rb (bw + (i + o) - j - 1) j) (w.Ab (idxB (j - o))) * beta := by
        intro j hj1 hj2
        have hj : j - o ∈ Ico (i + 1) k := by rw [mem_Ico]; omega
        have hjo : j - o + o = j := by omega
        have := (r1 (j - o) ((hmem _).2 hj)).1
        rw [hjo, f2 _ _ (by omega) (by omega), Function.update_of_ne (hother _ hj)] at this
        exact this
      have hcolB : ∀ j, i + o < j → j < o + k → ∀ t, A' (idxB (j - o)) t =
          w.Ab (idxB (j - o)) t -
            hdot m v (w.Rb (bw + (i + o) - j - 1) j) (w.Ab (idxB (j - o))) * beta * v t := by
        intro j hj1 hj2 t
        have hj : j - o ∈ Ico (i + 1) k := by rw [mem_Ico]; omega
        have hjo : j - o + o = j := by omega
        have := (r1 (j - o) ((hmem _).2 hj)).2 t
        rw [hjo, f2 _ _ (by omega) (by omega), Function.update_of_ne (hother _ hj)] at this
        exact this
      rw [openCols_succ hob hi]
      have hdense : ∀ (Rb Rc : Nat → Nat → ℝ) j, i + o ≤ j → j < o + k →
          denseOfBand nBand bw Rb Rc (i + o) j = Rb (bw + (i + o) - j - 1) j := by
        intro Rb Rc j hj1 hj2
        unfold denseOfBand; rw [if_pos (by omega), if_pos (by omega)]
      have hdenseC : ∀ (Rb Rc : Nat → Nat → ℝ) r j, nBand ≤ j → denseOfBand nBand bw Rb Rc r j = Rc r (j - nBand) := by
        intro Rb Rc r j hj
        unfold denseOfBand; rw [if_neg (by omega)]
      refine pivot_functional (g := i + o) (v := v) (beta := beta) _ hgS (by omega) ?_ h2 ?_ ?_ ?_ ?_ ?_ ?_ ?_ ?_ ?_ x
      · intro j hj
        simp only [openCols, mem_union, mem_Ico] at hj ⊢
        omega
      · intro t
        rw [hDg, hWg]
        exact h6 t
      · intro j hj hn
        simp only [openCols, mem_union, mem_Ico] at hj hn
        exact hz _ (by omega) (by omega) j (by omega) (by omega)
      · intro j hj hn
        simp only [openCols, mem_union, mem_Ico] at hj hn
        have hz0 := hz (i + o) (by omega) (by omega) j (by omega) (by omega)
        unfold denseOfBand at hz0 ⊢
        dsimp only
        rw [if_pos (by omega)] at hz0 ⊢
        by_cases hb : i + o ≤ j ∧ j - (i + o) < bw
        · rw [if_pos hb] at hz0 ⊢
          rw [r2 _ _ hb, f2 _ _ hb, hz0]
          · omega
          · rintro ⟨-, l, hl, hlo⟩
            have := mem_Ico.1 ((hmem l).1 hl); omega
        · rw [if_neg hb]
      · intro j hj
        simp only [openCols, mem_union, mem_Ico] at hj
        rcases hj with hj | hj
        · rw [hdense _ _ j hj.1 hj.2, hdense _ _ j hj.1 hj.2]
          have hW : workCol nBand o idxB idxC w j = w.Ab (idxB (j - o)) := by
            unfold workCol; rw [if_pos (by omega)]
          rw [hW]
          dsimp only
          by_cases hji : j = i + o
          · subst hji
            rw [r2 _ _ hdiag, f1, Nat.add_sub_cancel i o]
            · exact h5.symm
            · rintro ⟨-, l, hl, hlo⟩
              have := mem_Ico.1 ((hmem l).1 hl); omega
          · exact hrowB j (by omega) hj.2
        · rw [hdenseC _ _ _ j hj.1, hdenseC _ _ _ j hj.1]
          dsimp only
          rw [Function.update_self]
          have hW : workCol nBand o idxB idxC w j = w.Ac (idxC (j - nBand)) := by
            unfold workCol; rw [if_neg (by omega)]
          rw [hW, (c1 (j - nBand) (List.mem_range.2 (by omega))).1]
      · intro r hr hne j hj
        unfold denseOfBand
        simp only
        by_cases hjn : j < nBand
        · rw [if_pos hjn, if_pos hjn]
          by_cases hb : r ≤ j ∧ j - r < bw
          · rw [if_pos hb, if_pos hb, r2 r j hb fun h => hne h.1, f2 r j hb fun h => hne h.1]
          · rw [if_neg hb, if_neg hb]
        · rw [if_neg hjn, if_neg hjn, Function.update_of_ne hne]
      · simp only [Function.update_self]
      · intro r _ hne
        simp only [Function.update_of_ne hne]
      · intro j hj hne t
        simp only [openCols, mem_union, mem_Ico] at hj
        rcases hj with hj | hj
        · rw [hdense _ _ j hj.1 hj.2]
          unfold workCol
          rw [if_pos (by omega), if_pos (by omega)]
          exact hcolB j (by omega) hj.2 t
        · rw [hdenseC _ _ _ j hj.1]
          unfold workCol
          rw [if_neg (by omega), if_neg (by omega)]
          exact (c1 (j - nBand) (List.mem_range.2 (by omega))).2 t
      · intro t; rfl

/-- The column loop of `zeroBandedPart`. -/
theorem bandLoop_inv {nBand nCommon bw k m o : Nat} {idxB idxC : Nat → Nat}
    (hB : ∀ j < k, ∀ l < k, idxB j = idxB l → j = l) (hC : ∀ j < nCommon, ∀ l < nCommon, idxC j = idxC l → j = l)
    (hk : k ≤ bw) (hob : o + k ≤ nBand) (w : BandWork)
    (hz : ∀ r, o ≤ r → r < o + k → ∀ j, o + k ≤ j → j < nBand → denseOfBand nBand bw w.Rb w.Rc r j = 0) :
    ∃ w', (List.range k).foldlM (bandPivot bw nCommon k m o idxB idxC) w = some w' ∧
      (∀ r j, (o ≤ r → r < o + k → j < r ∨ o + k ≤ j ∧ j < nBand) →
        denseOfBand nBand bw w'.Rb w'.Rc r j = denseOfBand nBand bw w.Rb w.Rc r j) ∧
      (∀ r, (o ≤ r → o + k ≤ r) → w'.y r = w.y r) ∧
      ∀ x, factorResidual (nBand + nCommon) (denseOfBand nBand bw w'.Rb w'.Rc) w'.y x +
          ∑ t ∈ range m, (∑ c ∈ range nCommon, w'.Ac (idxC c) t * x (nBand + c) - w'.b t) ^ 2 =
        factorResidual (nBand + nCommon) (denseOfBand nBand bw w.Rb w.Rc) w.y x +
          ∑ t ∈ range m, (∑ j ∈ range k, w.Ab (idxB j) t * x (o + j) +
            ∑ c ∈ range nCommon, w.Ac (idxC c) t * x (nBand + c) - w.b t) ^ 2 := by
  have key : ∀ i ≤ k, ∃ w', (List.range i).foldlM (bandPivot bw nCommon k m o idxB idxC) w = some w' ∧
      (∀ r j, (o ≤ r → r < o + k → j < r ∨ o + k ≤ j ∧ j < nBand) →
        denseOfBand nBand bw w'.Rb w'.Rc r j = denseOfBand nBand bw w.Rb w.Rc r j) ∧
      (∀ r, (o ≤ r → o + k ≤ r) → w'.y r = w.y r) ∧
      ∀ x, factorResidual (nBand + nCommon) (denseOfBand nBand bw w'.Rb w'.Rc) w'.y x +
          ∑ t ∈ range m, (∑ j ∈ openCols nBand nCommon k o i, workCol nBand o idxB idxC w' j t * x j - w'.b t) ^ 2 =
        factorResidual (nBand + nCommon) (denseOfBand nBand bw w.Rb w.Rc) w.y x +
          ∑ t ∈ range m, (∑ j ∈ openCols nBand nCommon k o 0, workCol nBand o idxB idxC w j t * x j - w.b t) ^ 2 := by
    intro i
    induction i with
    | zero => intro _; exact ⟨w, rfl, fun _ _ _ => rfl, fun _ _ => rfl, fun _ => rfl⟩
    | succ i ih =>
      intro hi
      obtain ⟨w1, e1, a1, a2, a3⟩ := ih (by omega)
      obtain ⟨w2, e2, b1, b2, b3⟩ := bandPivot_inv (m := m) hB hC hk hob (i := i) (by omega) w1
        (fun r h1 h2 j h3 h4 => by rw [a1 r j fun _ _ => Or.inr ⟨h3, h4⟩]; exact hz r h1 h2 j h3 h4)
      refine ⟨w2, ?_, fun r j h => ?_, fun r h => ?_, fun x => by rw [b3 x, a3 x]⟩
      · rw [List.range_succ, List.foldlM_append, e1]
        simp [e2]
      · rw [b1 r j fun hr => ?_, a1 r j h]
        have := h (by omega) (by omega)
        omega
      · rw [b2 r (by omega), a2 r h]
  have hcommon : ∀ (f : Nat → ℝ), ∑ j ∈ Ico nBand (nBand + nCommon), f j = ∑ c ∈ range nCommon, f (nBand + c) := by
    intro f
    rw [sum_Ico_eq_sum_range, Nat.add_sub_cancel_left]
  obtain ⟨w', e, a1, a2, a3⟩ := key k le_rfl
  refine ⟨w', e, a1, a2, fun x => ?_⟩
  have := a3 x
  have hdisj : Disjoint (Ico (0 + o) (o + k)) (Ico nBand (nBand + nCommon)) := by
    rw [disjoint_left]; intro j; simp only [mem_Ico]; omega
  have l : ∀ t, ∑ j ∈ openCols nBand nCommon k o k, workCol nBand o idxB idxC w' j t * x j =
      ∑ c ∈ range nCommon, w'.Ac (idxC c) t * x (nBand + c) := by
    intro t
    unfold openCols
    rw [Nat.add_comm k o, Ico_self, empty_union, hcommon]
    apply sum_congr rfl
    intro c _
    unfold workCol
    rw [if_neg (by omega), Nat.add_sub_cancel_left]
  have r : ∀ t, ∑ j ∈ openCols nBand nCommon k o 0, workCol nBand o idxB idxC w j t * x j =
      ∑ j ∈ range k, w.Ab (idxB j) t * x (o + j) + ∑ c ∈ range nCommon, w.Ac (idxC c) t * x (nBand + c) := by
    intro t
    unfold openCols
    rw [sum_union hdisj, hcommon, Nat.zero_add, sum_Ico_eq_sum_range, Nat.add_sub_cancel_left]
    congr 1
    · apply sum_congr rfl
      intro j hj
      have := mem_range.1 hj
      unfold workCol
      rw [if_pos (by omega), Nat.add_sub_cancel_left]
    · apply sum_congr rfl
      intro c _
      unfold workCol
      rw [if_neg (by omega), Nat.add_sub_cancel_left]
  simp only [l, r] at this
  exact this

end Momentum
