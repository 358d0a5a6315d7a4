import Verif.Model.BlockQr
import Verif.Lemmas.QrPivot

/-!
# Lemmas about the block solver
-/

namespace Momentum
open Finset

/-- `|R_ii x + R_in z - y|²`, reading the upper triangle of `R_ii` only. -/
def blockResidual (k nCommon : Nat) (Rii Rin : Nat → Nat → ℝ) (y x z : Nat → ℝ) : ℝ :=
  ∑ r ∈ range k, (∑ j ∈ Ico r k, Rii r j * x j + ∑ c ∈ range nCommon, Rin r c * z c - y r) ^ 2

/-- The block's rows as a triangular system with zero rows for the common unknowns. -/
def blockLocal (k : Nat) (Rii Rin : Nat → Nat → ℝ) (r c : Nat) : ℝ :=
  if r < k then (if c < k then Rii r c else Rin r (c - k)) else 0

/-- The unknowns of the block followed by the common ones. -/
def joinVec (k : Nat) (x z : Nat → ℝ) (j : Nat) : ℝ := if j < k then x j else z (j - k)

theorem sum_joinVec {i k n : Nat} (hi : i ≤ k) (f x z : Nat → ℝ) :
    ∑ j ∈ Ico i (k + n), f j * joinVec k x z j =
      ∑ j ∈ Ico i k, f j * x j + ∑ c ∈ range n, f (k + c) * z c := by
  rw [← sum_Ico_consecutive _ hi (by omega : k ≤ k + n), sum_Ico_eq_sum_range _ k (k + n), Nat.add_sub_cancel_left]
  congr 1
  · exact sum_congr rfl fun j hj => by unfold joinVec; rw [if_pos (mem_Ico.1 hj).2]
  · exact sum_congr rfl fun c _ => by unfold joinVec; rw [if_neg (by omega), Nat.add_sub_cancel_left]

theorem blockLocal_residual (k n : Nat) (Rii Rin : Nat → Nat → ℝ) (y x z : Nat → ℝ) :
    factorResidual (k + n) (blockLocal k Rii Rin) (fun r => if r < k then y r else 0) (joinVec k x z) =
      blockResidual k n Rii Rin y x z := by
  rw [factorResidual_split]
  have h0 : factorResidual n (fun i j => blockLocal k Rii Rin (k + i) (k + j)) (fun i => if k + i < k then y (k + i) else 0)
      (fun i => joinVec k x z (k + i)) = 0 := by
    apply sum_eq_zero
    intro r _
    dsimp only
    rw [if_neg (by omega), sum_eq_zero]
    · ring
    · intro j _
      unfold blockLocal
      rw [if_neg (by omega), zero_mul]
  rw [h0, add_zero]
  apply sum_congr rfl
  intro r hr
  have hr := mem_range.1 hr
  rw [if_pos hr, sum_joinVec hr.le]
  congr 2
  congr 1
  · exact sum_congr rfl fun j hj => by
      have := mem_Ico.1 hj
      unfold blockLocal; rw [if_pos hr, if_pos this.2]
  · exact sum_congr rfl fun c _ => by
      unfold blockLocal; rw [if_pos hr, if_neg (by omega), Nat.add_sub_cancel_left]

/-- Column `j` of the rows being absorbed. -/
def blockCol (k : Nat) (idxI idxC : Nat → Nat) (w : BlockWork) (j : Nat) : Nat → ℝ :=
  if j < k then w.Ai (idxI j) else w.An (idxC (j - k))

theorem blockPivot_inv {tol : ℝ} {nCommon k m i : Nat} {idxI idxC : Nat → Nat}
    (hI : ∀ j < k, ∀ l < k, idxI j = idxI l → j = l) (hC : ∀ j < nCommon, ∀ l < nCommon, idxC j = idxC l → j = l)
    (hi : i < k) (w : BlockWork)
    (htol : (∀ t < m, |w.Ai (idxI i) t| ≤ tol) → ∀ t < m, w.Ai (idxI i) t = 0) :
    ∃ w', blockPivot tol nCommon k m idxI idxC w i = w' ∧
      (∀ r j, j < r → w'.Rii r j = w.Rii r j) ∧
      ∀ x, factorResidual (k + nCommon) (blockLocal k w'.Rii w'.Rin) (fun r => if r < k then w'.y r else 0) x +
          ∑ t ∈ range m, (∑ j ∈ Ico (i + 1) (k + nCommon), blockCol k idxI idxC w' j t * x j - w'.b t) ^ 2 =
        factorResidual (k + nCommon) (blockLocal k w.Rii w.Rin) (fun r => if r < k then w.y r else 0) x +
          ∑ t ∈ range m, (∑ j ∈ Ico i (k + nCommon), blockCol k idxI idxC w j t * x j - w.b t) ^ 2 := by
  have hsucc : Ico (i + 1) (k + nCommon) = (Ico i (k + nCommon)).erase i := by
    ext j; simp only [mem_Ico, mem_erase]; omega
  have hgS : i ∈ Ico i (k + nCommon) := mem_Ico.2 ⟨le_rfl, by omega⟩
  have hWg : blockCol k idxI idxC w i = w.Ai (idxI i) := if_pos hi
  have hskip : (∀ t < m, w.Ai (idxI i) t = 0) → ∀ x : Nat → ℝ,
      ∑ t ∈ range m, (∑ j ∈ Ico (i + 1) (k + nCommon), blockCol k idxI idxC w j t * x j - w.b t) ^ 2 =
      ∑ t ∈ range m, (∑ j ∈ Ico i (k + nCommon), blockCol k idxI idxC w j t * x j - w.b t) ^ 2 := by
    intro h0 x
    rw [hsucc]
    exact skip_functional _ hgS (by rw [hWg]; exact h0) x
  by_cases ht : ∀ t < m, |w.Ai (idxI i) t| ≤ tol
  · refine ⟨w, if_pos ht, fun _ _ _ => rfl, fun x => ?_⟩
    rw [hskip (htol ht) x]
  have hother : ∀ j ∈ Ico (i + 1) k, idxI j ≠ idxI i := by
    intro j hj h
    have hj := mem_Ico.1 hj
    have := hI j hj.2 i hi h
    omega
  by_cases hs : ∑ t ∈ range m, w.Ai (idxI i) t * w.Ai (idxI i) t = 0
  · refine ⟨{ w with Ai := Function.update w.Ai (idxI i) (w.Ai (idxI i)) }, ?_, ?_⟩
    · unfold blockPivot
      rw [if_neg ht]
      simp only [householderVec_zero hs, if_true]
    · rw [Function.update_eq_self]
      exact ⟨fun _ _ _ => rfl, fun x => by rw [hskip (sumsq_zero hs) x]⟩
  · obtain ⟨beta, mu, v, hv⟩ : ∃ beta mu v,
        householderVec m (w.Rii i i) (w.Ai (idxI i)) = (beta, mu, v) := ⟨_, _, _, rfl⟩
    obtain ⟨h1, h2, h3, h4, h5, h6⟩ := householderVec_spec hs hv
    have hmem : ∀ j, j ∈ List.range' (i + 1) (k - (i + 1)) ↔ j ∈ Ico (i + 1) k := by
      intro j; rw [List.mem_range'_1, mem_Ico]; omega
    obtain ⟨r1, r2, r3⟩ := reflectCols_spec m beta v idxI (List.range' (i + 1) (k - (i + 1))) List.nodup_range'
      (fun j hj l hl => hI j (mem_Ico.1 ((hmem j).1 hj)).2 l (mem_Ico.1 ((hmem l).1 hl)).2)
      (Function.update (w.Rii i) i mu) (Function.update w.Ai (idxI i) v)
    generalize hp : reflectCols m beta v idxI (List.range' (i + 1) (k - (i + 1)))
      (Function.update (w.Rii i) i mu) (Function.update w.Ai (idxI i) v) = p at r1 r2 r3
    obtain ⟨c1, c2, c3⟩ := reflectCols_spec m beta v idxC (List.range nCommon) List.nodup_range
      (fun j hj l hl => hC j (List.mem_range.1 hj) l (List.mem_range.1 hl)) (w.Rin i) w.An
    generalize hq : reflectCols m beta v idxC (List.range nCommon) (w.Rin i) w.An = q at c1 c2 c3
    refine ⟨{ Rii := Function.update w.Rii i p.1, Rin := Function.update w.Rin i q.1
              y := Function.update w.y i (w.y i - hdot m v (w.y i) w.b * beta)
              Ai := p.2, An := q.2, b := fun t => w.b t - hdot m v (w.y i) w.b * beta * v t }, ?_, ?_, ?_⟩
    · unfold blockPivot
      rw [if_neg ht]
      simp only [hv, if_neg h1, Function.update_self, hp, hq, applyHouseholder_eq]
    · intro r j hjr
      dsimp only
      by_cases hr : r = i
      · subst hr
        rw [Function.update_self, r2 j (by rw [hmem, mem_Ico]; omega), Function.update_of_ne (by omega)]
      · rw [Function.update_of_ne hr]
    · intro x
      rw [hsucc]
      refine pivot_functional (g := i) (v := v) (beta := beta) _ hgS (by omega) (fun j hj => hj) h2 ?_
        (fun j hj hn => absurd hj hn) (fun j hj hn => absurd hj hn) ?_ ?_ ?_ ?_ ?_ (fun _ => ?_) x
      · intro t
        have : blockLocal k w.Rii w.Rin i i = w.Rii i i := by unfold blockLocal; rw [if_pos hi, if_pos hi]
        rw [this, hWg]
        exact h6 t
      · intro j hj
        rw [mem_Ico] at hj
        unfold blockLocal blockCol
        dsimp only
        rw [if_pos hi, if_pos hi, Function.update_self, Function.update_self]
        by_cases hjk : j < k
        · simp only [if_pos hjk]
          by_cases hji : j = i
          · subst hji
            rw [r2 _ (by rw [hmem, mem_Ico]; omega), Function.update_self, h5]
          · have hj' : j ∈ Ico (i + 1) k := by rw [mem_Ico]; omega
            rw [(r1 j ((hmem j).2 hj')).1, Function.update_of_ne hji, Function.update_of_ne (hother j hj')]
        · simp only [if_neg hjk]
          exact (c1 (j - k) (List.mem_range.2 (by omega))).1
      · intro r _ hne j _
        unfold blockLocal
        dsimp only
        rw [Function.update_of_ne hne, Function.update_of_ne hne]
      · dsimp only
        rw [if_pos hi, if_pos hi, Function.update_self]
      · intro r _ hne
        dsimp only
        rw [Function.update_of_ne hne]
      · intro j hj hne t
        rw [mem_Ico] at hj
        unfold blockLocal blockCol
        dsimp only
        rw [if_pos hi]
        by_cases hjk : j < k
        · simp only [if_pos hjk]
          have hj' : j ∈ Ico (i + 1) k := by rw [mem_Ico]; omega
          rw [(r1 j ((hmem j).2 hj')).2, Function.update_of_ne hne, Function.update_of_ne (hother j hj')]
        · simp only [if_neg hjk]
          exact (c1 (j - k) (List.mem_range.2 (by omega))).2 t
      · dsimp only
        rw [if_pos hi]

/-- The column loop over the block's own columns, when the zero test is exact. -/
theorem blockLoop_inv {nCommon k m : Nat} {idxI idxC : Nat → Nat}
    (hI : ∀ j < k, ∀ l < k, idxI j = idxI l → j = l) (hC : ∀ j < nCommon, ∀ l < nCommon, idxC j = idxC l → j = l)
    (w : BlockWork) :
    ∃ w', (List.range k).foldl (blockPivot 0 nCommon k m idxI idxC) w = w' ∧
      (∀ r j, j < r → w'.Rii r j = w.Rii r j) ∧
      ∀ x z, blockResidual k nCommon w'.Rii w'.Rin w'.y x z +
          ∑ t ∈ range m, (∑ c ∈ range nCommon, w'.An (idxC c) t * z c - w'.b t) ^ 2 =
        blockResidual k nCommon w.Rii w.Rin w.y x z +
          ∑ t ∈ range m, (∑ j ∈ range k, w.Ai (idxI j) t * x j +
            ∑ c ∈ range nCommon, w.An (idxC c) t * z c - w.b t) ^ 2 := by
  have key : ∀ i ≤ k, ∃ w', (List.range i).foldl (blockPivot 0 nCommon k m idxI idxC) w = w' ∧
      (∀ r j, j < r → w'.Rii r j = w.Rii r j) ∧
      ∀ x, factorResidual (k + nCommon) (blockLocal k w'.Rii w'.Rin) (fun r => if r < k then w'.y r else 0) x +
          ∑ t ∈ range m, (∑ j ∈ Ico i (k + nCommon), blockCol k idxI idxC w' j t * x j - w'.b t) ^ 2 =
        factorResidual (k + nCommon) (blockLocal k w.Rii w.Rin) (fun r => if r < k then w.y r else 0) x +
          ∑ t ∈ range m, (∑ j ∈ Ico 0 (k + nCommon), blockCol k idxI idxC w j t * x j - w.b t) ^ 2 := by
    intro i
    induction i with
    | zero => intro _; exact ⟨w, rfl, fun _ _ _ => rfl, fun _ => rfl⟩
    | succ i ih =>
      intro hi
      obtain ⟨w1, e1, a1, a2⟩ := ih (by omega)
      obtain ⟨w2, e2, b1, b2⟩ := blockPivot_inv (tol := 0) (m := m) hI hC (i := i) (by omega) w1
        (fun h t ht => abs_eq_zero.1 (le_antisymm (h t ht) (abs_nonneg _)))
      refine ⟨w2, ?_, fun r j h => by rw [b1 r j h, a1 r j h], fun x => by rw [b2 x, a2 x]⟩
      rw [List.range_succ, List.foldl_append, e1]
      exact e2
  obtain ⟨w', e, a1, a2⟩ := key k le_rfl
  refine ⟨w', e, a1, fun x z => ?_⟩
  have := a2 (joinVec k x z)
  rw [blockLocal_residual, blockLocal_residual] at this
  have hsum : ∀ (v : BlockWork) (i : Nat), i ≤ k → ∀ t,
      ∑ j ∈ Ico i (k + nCommon), blockCol k idxI idxC v j t * joinVec k x z j =
      ∑ j ∈ Ico i k, v.Ai (idxI j) t * x j + ∑ c ∈ range nCommon, v.An (idxC c) t * z c := by
    intro v i hi t
    rw [sum_joinVec hi (fun j => blockCol k idxI idxC v j t)]
    congr 1
    · exact sum_congr rfl fun j hj => by unfold blockCol; rw [if_pos (mem_Ico.1 hj).2]
    · exact sum_congr rfl fun c _ => by unfold blockCol; rw [if_neg (by omega), Nat.add_sub_cancel_left]
  simp only [hsum w' k le_rfl, hsum w 0 (by omega), Ico_self, sum_empty, zero_add] at this
  rw [range_eq_Ico k]
  exact this

end Momentum
