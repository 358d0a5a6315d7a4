import Verif.Spec.BodyIk
import Verif.Props.SkeletonFunction
import Mathlib.LinearAlgebra.Matrix.DotProduct

/-!
# Lemmas on the singular value decomposition and on subsets of parameters
-/

namespace Momentum
open Finset Matrix

variable {m n : Nat} {J : Matrix (Fin m) (Fin n) ℝ} {S : ThinSvd n}

theorem svd_gram (h : IsThinSvd J S) : Jᵀ * J = S.v * diagonal (fun i => S.singular i ^ 2) * S.vᵀ := by
  obtain ⟨U, hU, hJ⟩ := h.product
  have e : Jᵀ = S.v * diagonal S.singular * Uᵀ := by
    rw [hJ, transpose_mul, transpose_mul, transpose_transpose, diagonal_transpose, Matrix.mul_assoc]
  rw [e]
  refine (congrArg _ hJ).trans ?_
  have : S.v * diagonal S.singular * Uᵀ * (U * diagonal S.singular * S.vᵀ) =
      S.v * (diagonal S.singular * (Uᵀ * U) * diagonal S.singular) * S.vᵀ := by
    simp only [Matrix.mul_assoc]
  rw [this, hU, Matrix.mul_one, diagonal_mul_diagonal]
  congr 2
  refine congrArg diagonal (funext fun i => (sq _).symm)

theorem svd_gram_v (h : IsThinSvd J S) (x : Fin n → ℝ) (i : Fin S.count) :
    (S.vᵀ *ᵥ (Jᵀ * J) *ᵥ x) i = S.singular i ^ 2 * (S.vᵀ *ᵥ x) i := by
  rw [svd_gram h, mulVec_mulVec, Matrix.mul_assoc, ← Matrix.mul_assoc, h.orthonormal, Matrix.one_mul, ← mulVec_mulVec, mulVec_diagonal]

/-- The product of the result with an eigenvector. -/
theorem hessianInverse_eigen (h : IsThinSvd J S) (v x : Fin n → ℝ) (l : ℝ) (hx : (Jᵀ * J) *ᵥ x = l • x) :
    x ⬝ᵥ hessianInverseTimes S v = if l < 1 / 100000 then 0 else x ⬝ᵥ v / (2 * l) := by
  have h1 : ∀ i, S.singular i ^ 2 * (S.vᵀ *ᵥ x) i = l * (S.vᵀ *ᵥ x) i := by
    intro i
    rw [← svd_gram_v h, hx, mulVec_smul]
    rfl
  have h2 : x ⬝ᵥ hessianInverseTimes S v =
      1 / 2 * ∑ i, (S.vᵀ *ᵥ x) i * invertSingular (S.singular i) ((S.vᵀ *ᵥ v) i) := by
    unfold hessianInverseTimes
    rw [dotProduct_smul, dotProduct_mulVec, smul_eq_mul, ← mulVec_transpose]
    rfl
  have h3 : ∀ i, (S.vᵀ *ᵥ x) i * invertSingular (S.singular i) ((S.vᵀ *ᵥ v) i) =
      (S.vᵀ *ᵥ x) i * if l < 1 / 100000 then 0 else (S.vᵀ *ᵥ v) i / l := by
    intro i
    by_cases h0 : (S.vᵀ *ᵥ x) i = 0
    · rw [h0, zero_mul, zero_mul]
    · have := mul_right_cancel₀ h0 (h1 i)
      unfold invertSingular
      rw [this]
  rw [h2, Finset.sum_congr rfl fun i _ => h3 i]
  split_ifs with hl
  · simp
  · have hl0 : l ≠ 0 := by
      rintro rfl
      norm_num at hl
    have h4 : S.v *ᵥ S.vᵀ *ᵥ x = x := by
      have e : x = l⁻¹ • (Jᵀ * J) *ᵥ x := by rw [hx, smul_smul, inv_mul_cancel₀ hl0, one_smul]
      rw [e, svd_gram h, mulVec_smul, mulVec_smul, mulVec_mulVec, mulVec_mulVec]
      congr 2
      have : S.v * S.vᵀ * (S.v * (diagonal fun i => S.singular i ^ 2) * S.vᵀ) =
          S.v * (S.vᵀ * S.v) * (diagonal fun i => S.singular i ^ 2) * S.vᵀ := by simp only [Matrix.mul_assoc]
      rw [this, h.orthonormal, Matrix.mul_one]
    have h5 : ∑ i, (S.vᵀ *ᵥ x) i * (S.vᵀ *ᵥ v) i = x ⬝ᵥ v := by
      have : (S.vᵀ *ᵥ x) ⬝ᵥ (S.vᵀ *ᵥ v) = x ⬝ᵥ v := by
        rw [dotProduct_mulVec, ← mulVec_transpose, transpose_transpose, h4]
      exact this
    rw [← h5]
    simp only [← mul_div_assoc, ← Finset.sum_div]
    field_simp

/-- A vector that is orthogonal to all eigenvectors of `JᵀJ` is zero. -/
theorem zero_of_eigen (h : IsThinSvd J S) (d : Fin n → ℝ)
    (hd : ∀ (x : Fin n → ℝ) (l : ℝ), (Jᵀ * J) *ᵥ x = l • x → x ⬝ᵥ d = 0) : d = 0 := by
  have h1 : S.vᵀ *ᵥ d = 0 := by
    funext i
    have := hd (fun r => S.v r i) (S.singular i ^ 2) (by
      have e : (fun r => S.v r i) = S.v *ᵥ Pi.single i 1 := by rw [mulVec_single_one]; rfl
      rw [e, svd_gram h, mulVec_mulVec, Matrix.mul_assoc, h.orthonormal, Matrix.mul_one, ← mulVec_mulVec]
      have : (diagonal fun i => S.singular i ^ 2) *ᵥ Pi.single i (1 : ℝ) = S.singular i ^ 2 • Pi.single i (1 : ℝ) := by
        funext k
        rw [mulVec_diagonal]
        by_cases hk : k = i
        · subst hk; simp
        · simp [Pi.single_eq_of_ne hk]
      rw [this, mulVec_smul])
    exact this
  have h2 : (Jᵀ * J) *ᵥ d = (0 : ℝ) • d := by
    rw [svd_gram h, ← mulVec_mulVec, h1, mulVec_zero, zero_smul]
  have h3 := hd d 0 h2
  exact dotProduct_self_eq_zero.1 h3

/-- The result solves the equation if no singular value is cut off. -/
theorem hessianInverse_solves (h : IsThinSvd J S) (hJ : ∀ x, 1 / 100000 * (x ⬝ᵥ x) ≤ (J *ᵥ x) ⬝ᵥ (J *ᵥ x)) (v : Fin n → ℝ) :
    (2 : ℝ) • (Jᵀ * J) *ᵥ hessianInverseTimes S v = v := by
  have key : (2 : ℝ) • (Jᵀ * J) *ᵥ hessianInverseTimes S v - v = 0 := by
    refine zero_of_eigen h _ fun x l hx => ?_
    by_cases h0 : x = 0
    · rw [h0, zero_dotProduct]
    have hsym : x ⬝ᵥ (Jᵀ * J) *ᵥ hessianInverseTimes S v = l * (x ⬝ᵥ hessianInverseTimes S v) := by
      rw [dotProduct_mulVec, ← mulVec_transpose, transpose_mul, transpose_transpose, hx, smul_dotProduct, smul_eq_mul]
    have hpos : 0 < x ⬝ᵥ x := by
      refine lt_of_le_of_ne (Finset.sum_nonneg fun i _ => mul_self_nonneg _) fun e => h0 (dotProduct_self_eq_zero.1 e.symm)
    have hl : 1 / 100000 ≤ l := by
      have h1 := hJ x
      have h2 : (J *ᵥ x) ⬝ᵥ (J *ᵥ x) = l * (x ⬝ᵥ x) := by
        rw [dotProduct_mulVec, ← mulVec_transpose, mulVec_mulVec, hx, smul_dotProduct, smul_eq_mul]
      rw [h2] at h1
      exact le_of_mul_le_mul_right h1 hpos
    rw [dotProduct_sub, dotProduct_smul, hsym, hessianInverse_eigen h v x l hx, if_neg (not_lt.2 hl), smul_eq_mul]
    have : l ≠ 0 := by
      rintro rfl
      norm_num at hl
    field_simp
    ring
  exact sub_eq_zero.1 key

/-! ## Subsets of parameters -/

theorem subset_fold (active : ParameterSet) (l : List Nat) (hl : ∀ i ∈ l, i < kMaxModelParams) (acc : List Nat) :
    l.foldlM (subsetStep active) acc = some (acc ++ l.filter fun i => active.test i = some true) := by
  induction l generalizing acc with
  | nil => simp
  | cons a l ih =>
    have ha : a < kMaxModelParams := hl a (by simp)
    have : subsetStep active acc a = some (if active.test a = some true then acc ++ [a] else acc) := by
      unfold subsetStep ParameterSet.test
      rw [dif_pos ha]
      simp
    rw [List.foldlM_cons, this, Option.bind_eq_bind, Option.bind_some, ih fun i hi => hl i (by simp [hi])]
    by_cases h : active.test a = some true
    · simp [h]
    · simp [h]

theorem subset_indices (n : Nat) (active : ParameterSet) (hn : n ≤ kMaxModelParams) :
    computeSubsetParameterIndices n active = some ((List.range n).filter fun i => active.test i = some true) := by
  unfold computeSubsetParameterIndices
  rw [subset_fold active _ (fun i hi => lt_of_lt_of_le (List.mem_range.1 hi) hn)]
  rfl

theorem mem_subset {n : Nat} {active : ParameterSet} {i : Nat} :
    i ∈ (List.range n).filter (fun i => active.test i = some true) ↔ IsActive n active i := by
  simp [IsActive]

open Classical in
theorem subset_sum (n : Nat) (active : ParameterSet) (f : Nat → ℝ) (hf : ∀ i, ¬ IsActive n active i → f i = 0) :
    ∑ k : Fin ((List.range n).filter fun i => active.test i = some true).length,
      f (((List.range n).filter fun i => active.test i = some true)[k]) = ∑ i ∈ range n, f i := by
  have h1 : ∀ l : List Nat, ∑ k : Fin l.length, f (l[k]) = (l.map f).sum := by
    intro l
    rw [← List.sum_ofFn]
    congr 1
    apply List.ext_getElem <;> simp
  rw [h1]
  have h2 : ∀ m ≤ n, (((List.range m).filter fun i => active.test i = some true).map f).sum = ∑ i ∈ range m, f i := by
    intro m hm
    induction m with
    | zero => simp
    | succ m ih =>
      rw [List.range_succ, List.filter_append, List.map_append, List.sum_append, ih (by omega), sum_range_succ]
      congr 1
      by_cases h : active.test m = some true
      · simp [h]
      · rw [hf m fun h' => h h'.2]
        simp [h]
  exact h2 n le_rfl

theorem mapM_getElem (full : List ℝ) (ids : List Nat) (h : ∀ i ∈ ids, i < full.length) :
    ids.mapM (fun i => full[i]?) = some (ids.map fun i => full.getD i 0) := by
  induction ids with
  | nil => rfl
  | cons a r ih =>
    rw [List.mapM_cons, ih fun i hi => h i (by simp [hi])]
    have := h a (by simp)
    simp [this]

/-- The full vector: the components of the subset in their places, and zero elsewhere. -/
theorem full_vec (sub : List ℝ) (ids : List Nat) (n : Nat) (hs : sub.length = ids.length) (hnd : ids.Nodup) (hi : ∀ i ∈ ids, i < n) :
    (subsetVecToFullVec sub ids n).length = n ∧
    (∀ k (h : k < ids.length), (subsetVecToFullVec sub ids n).getD ids[k] 0 = sub.getD k 0) ∧
    ∀ i, i ∉ ids → (subsetVecToFullVec sub ids n).getD i 0 = 0 := by
  have key : ∀ (ids : List Nat) (sub : List ℝ) (l : List ℝ), sub.length = ids.length → ids.Nodup → (∀ i ∈ ids, i < l.length) →
      ((ids.zip sub).foldl (fun l e => l.set e.1 e.2) l).length = l.length ∧
      (∀ k (h : k < ids.length), ((ids.zip sub).foldl (fun l e => l.set e.1 e.2) l).getD ids[k] 0 = sub.getD k 0) ∧
      ∀ i, i ∉ ids → ((ids.zip sub).foldl (fun l e => l.set e.1 e.2) l).getD i 0 = l.getD i 0 := by
    intro ids
    induction ids with
    | nil => intro sub l _ _ _; simp
    | cons a r ih =>
      intro sub l hs hnd hi
      match sub, hs with
      | b :: s, hs =>
        have hnd' := List.nodup_cons.1 hnd
        obtain ⟨i1, i2, i3⟩ := ih s (l.set a b) (by simpa using hs) hnd'.2 (fun i h => by
          rw [List.length_set]; exact hi i (by simp [h]))
        rw [List.zip_cons_cons, List.foldl_cons]
        refine ⟨by rw [i1, List.length_set], fun k hk => ?_, fun i h => ?_⟩
        · match k with
          | 0 =>
            have := i3 a hnd'.1
            simp only [List.getElem_cons_zero, List.getD_cons_zero]
            rw [this]
            have ha := hi a (by simp)
            simp [List.getD_eq_getElem?_getD, ha]
          | k + 1 =>
            have := i2 k (by simpa using hk)
            simpa using this
        · have hne : i ≠ a := fun e => h (by simp [e])
          rw [i3 i fun h' => h (by simp [h'])]
          simp [List.getD_eq_getElem?_getD, List.getElem?_set, hne.symm]
  obtain ⟨h1, h2, h3⟩ := key ids sub (List.replicate n 0) hs hnd (by simpa using hi)
  refine ⟨h1.trans (List.length_replicate ..), h2, fun i h => (h3 i h).trans ?_⟩
  simp [List.getD_eq_getElem?_getD, List.getElem?_replicate]
  split_ifs <;> rfl

end Momentum
