import Verif.Spec.Solver
import Mathlib.Tactic.Linarith
import Mathlib.Tactic.Ring

/-!
# Lemmas about the solvers
-/

namespace Momentum
open Finset

theorem enabledFold_eq (ps : Nat → Bool) (l acc : List Nat) :
    l.foldl (fun l i => if ps i then l ++ [i] else l) acc = acc ++ l.filter ps := by
  induction l generalizing acc with
  | nil => simp
  | cons a l ih =>
    rw [List.foldl_cons, ih, List.filter_cons]
    by_cases h : ps a <;> simp [h]

theorem enabledList_eq (n : Nat) (ps : Nat → Bool) : enabledList n ps = (List.range n).filter ps := by
  unfold enabledList; rw [enabledFold_eq]; rfl

theorem enabledList_nodup (n : Nat) (ps : Nat → Bool) : (enabledList n ps).Nodup := by
  rw [enabledList_eq]; exact List.nodup_range.filter _

theorem mem_enabledList {n : Nat} {ps : Nat → Bool} {i : Nat} : i ∈ enabledList n ps ↔ i < n ∧ ps i = true := by
  rw [enabledList_eq, List.mem_filter, List.mem_range]

theorem enabledList_sorted (n : Nat) (ps : Nat → Bool) : (enabledList n ps).Pairwise (· < ·) := by
  rw [enabledList_eq]; exact List.pairwise_lt_range.filter _

theorem getD_mem {l : List Nat} {i : Nat} (h : i < l.length) : l.getD i 0 ∈ l := by
  rw [List.getD_eq_getElem?_getD, List.getElem?_eq_getElem h, Option.getD_some]; exact List.getElem_mem h

theorem getD_inj {l : List Nat} (hl : l.Nodup) {i j : Nat} (hi : i < l.length) (hj : j < l.length)
    (h : l.getD i 0 = l.getD j 0) : i = j := by
  rw [List.getD_eq_getElem?_getD, List.getD_eq_getElem?_getD, List.getElem?_eq_getElem hi,
    List.getElem?_eq_getElem hj, Option.getD_some, Option.getD_some] at h
  exact (List.Nodup.getElem_inj_iff hl).1 h

/-- In an increasing list of indices, entry `i` is at least `i`. -/
theorem le_getD {l : List Nat} (hl : l.Pairwise (· < ·)) {i : Nat} (hi : i < l.length) : i ≤ l.getD i 0 := by
  induction i with
  | zero => exact Nat.zero_le _
  | succ i ih =>
    have := ih (by omega)
    have h2 : l.getD i 0 < l.getD (i + 1) 0 := by
      rw [List.getD_eq_getElem?_getD, List.getD_eq_getElem?_getD, List.getElem?_eq_getElem hi,
        List.getElem?_eq_getElem (by omega : i < l.length), Option.getD_some, Option.getD_some]
      exact List.pairwise_iff_getElem.1 hl i (i + 1) (by omega) hi (by omega)
    omega

theorem getD_strictMono {l : List Nat} (hl : l.Pairwise (· < ·)) {i j : Nat} (hij : i < j) (hj : j < l.length) :
    l.getD i 0 < l.getD j 0 := by
  rw [List.getD_eq_getElem?_getD, List.getD_eq_getElem?_getD, List.getElem?_eq_getElem hj,
    List.getElem?_eq_getElem (by omega : i < l.length), Option.getD_some, Option.getD_some]
  exact List.pairwise_iff_getElem.1 hl i j (by omega) hj hij

/-- The in-place move gathers the right columns. -/
theorem moveColumns_spec {l : List Nat} (hl : l.Pairwise (· < ·)) (jac : Nat → Nat → ℝ) {i : Nat} (hi : i < l.length) :
    moveColumns l jac i = jac (l.getD i 0) := by
  have key : ∀ k ≤ l.length,
      (∀ i < k, (List.range k).foldl (fun jac i =>
        if l.getD i 0 > i then Function.update jac i (jac (l.getD i 0)) else jac) jac i = jac (l.getD i 0)) ∧
      (∀ i, k ≤ i → (List.range k).foldl (fun jac i =>
        if l.getD i 0 > i then Function.update jac i (jac (l.getD i 0)) else jac) jac i = jac i) := by
    intro k
    induction k with
    | zero => intro _; exact ⟨fun i h => absurd h (by omega), fun i _ => rfl⟩
    | succ k ih =>
      intro hk
      obtain ⟨h1, h2⟩ := ih (by omega)
      rw [List.range_succ, List.foldl_append, List.foldl_cons, List.foldl_nil]
      have hle := le_getD hl (i := k) (by omega)
      by_cases hg : l.getD k 0 > k
      · rw [if_pos hg]
        refine ⟨fun i hi => ?_, fun i hi => ?_⟩
        · by_cases hik : i = k
          · subst hik; rw [Function.update_self, h2 _ hle]
          · rw [Function.update_of_ne hik, h1 i (by omega)]
        · rw [Function.update_of_ne (by omega), h2 i (by omega)]
      · rw [if_neg hg]
        refine ⟨fun i hi => ?_, fun i hi => h2 i (by omega)⟩
        by_cases hik : i = k
        · subst hik
          rw [h2 _ le_rfl, show l.getD i 0 = i by omega]
        · exact h1 i (by omega)
  exact (key _ le_rfl).1 i hi

theorem scatter_spec {l : List Nat} (hl : l.Nodup) (sub full : Nat → ℝ) :
    (∀ i < l.length, scatter l sub full (l.getD i 0) = sub i) ∧ ∀ j, j ∉ l → scatter l sub full j = full j := by
  have key : ∀ k ≤ l.length,
      (∀ i < k, (List.range k).foldl (fun d i => Function.update d (l.getD i 0) (sub i)) full (l.getD i 0) = sub i) ∧
      ∀ j, j ∉ l → (List.range k).foldl (fun d i => Function.update d (l.getD i 0) (sub i)) full j = full j := by
    intro k
    induction k with
    | zero => intro _; exact ⟨fun i h => absurd h (by omega), fun j _ => rfl⟩
    | succ k ih =>
      intro hk
      obtain ⟨h1, h2⟩ := ih (by omega)
      rw [List.range_succ, List.foldl_append, List.foldl_cons, List.foldl_nil]
      refine ⟨fun i hi => ?_, fun j hj => ?_⟩
      · by_cases hik : i = k
        · subst hik; rw [Function.update_self]
        · rw [Function.update_of_ne fun h => hik (getD_inj hl (by omega) (by omega) h), h1 i (by omega)]
      · rw [Function.update_of_ne (fun h : j = l.getD k 0 => hj (by rw [h]; exact getD_mem (by omega))), h2 j hj]
  exact key _ le_rfl

theorem sum_getD (l : List Nat) (g : Nat → ℝ) : ∑ i ∈ range l.length, g (l.getD i 0) = (l.map g).sum := by
  induction l with
  | nil => rfl
  | cons a l ih =>
    rw [List.length_cons, sum_range_succ', List.map_cons, List.sum_cons, ← ih, add_comm]
    rfl

theorem sum_filter_list (n : Nat) (ps : Nat → Bool) (g : Nat → ℝ) (hg : ∀ j < n, ps j = false → g j = 0) :
    (((List.range n).filter ps).map g).sum = ∑ j ∈ range n, g j := by
  induction n with
  | zero => rfl
  | succ n ih =>
    rw [List.range_succ, List.filter_append, List.map_append, List.sum_append, sum_range_succ,
      ih fun j hj h => hg j (by omega) h]
    by_cases h : ps n = true
    · simp [h]
    · simp [h, hg n (by omega) (by simpa using h)]

/-- A sum over all parameters of something that vanishes for disabled ones is the sum over the enabled ones. -/
theorem sum_enabled (n : Nat) (ps : Nat → Bool) (g : Nat → ℝ) (hg : ∀ j < n, ps j = false → g j = 0) :
    ∑ j ∈ range n, g j = ∑ i ∈ range (enabledList n ps).length, g ((enabledList n ps).getD i 0) := by
  rw [sum_getD, enabledList_eq, sum_filter_list n ps g hg]

/-- The cost as a function of `m` unknowns, the columns of `A`, and `b`. -/
def lsCost (m rows : Nat) (A : Nat → Nat → ℝ) (b : Nat → ℝ) (reg : ℝ) (x : Nat → ℝ) : ℝ :=
  ∑ t ∈ range rows, (∑ j ∈ range m, A j t * x j - b t) ^ 2 + reg * ∑ j ∈ range m, x j ^ 2

theorem hess_apply (m rows : Nat) (A : Nat → Nat → ℝ) (reg : ℝ) (x : Nat → ℝ) {i : Nat} (hi : i < m) :
    ∑ j ∈ range m, hessOf A rows reg i j * x j =
      ∑ t ∈ range rows, A i t * (∑ j ∈ range m, A j t * x j) + reg * x i := by
  unfold hessOf
  simp only [add_mul, sum_add_distrib, sum_mul, mul_sum]
  congr 1
  · rw [sum_comm]
    exact sum_congr rfl fun t _ => sum_congr rfl fun j _ => by ring
  · rw [sum_eq_single i]
    · simp
    · intro j _ hj; rw [if_neg (Ne.symm hj), zero_mul]
    · intro h; exact absurd (mem_range.2 hi) h

theorem lsCost_expand (m rows : Nat) (A : Nat → Nat → ℝ) (b : Nat → ℝ) (reg : ℝ) (x x' : Nat → ℝ)
    (hx : ∀ i < m, ∑ j ∈ range m, hessOf A rows reg i j * x j = gradOf A b rows i) :
    lsCost m rows A b reg x' = lsCost m rows A b reg x +
      (∑ t ∈ range rows, (∑ j ∈ range m, A j t * (x' j - x j)) ^ 2 + reg * ∑ j ∈ range m, (x' j - x j) ^ 2) := by
  have hn : ∀ i < m, ∑ t ∈ range rows, A i t * (∑ j ∈ range m, A j t * x j - b t) + reg * x i = 0 := by
    intro i hi
    have := hx i hi
    rw [hess_apply m rows A reg x hi] at this
    unfold gradOf at this
    simp only [mul_sub, sum_sub_distrib]
    have e : ∑ t ∈ range rows, A i t * b t = ∑ t ∈ range rows, b t * A i t := sum_congr rfl fun t _ => mul_comm _ _
    rw [e]; linarith
  have hcross : ∑ t ∈ range rows, (∑ j ∈ range m, A j t * (x' j - x j)) * (∑ j ∈ range m, A j t * x j - b t) +
      reg * ∑ j ∈ range m, (x' j - x j) * x j = 0 := by
    have e1 : ∑ t ∈ range rows, (∑ j ∈ range m, A j t * (x' j - x j)) * (∑ j ∈ range m, A j t * x j - b t) =
        ∑ i ∈ range m, (x' i - x i) * ∑ t ∈ range rows, A i t * (∑ j ∈ range m, A j t * x j - b t) := by
      simp only [sum_mul, mul_sum]
      rw [sum_comm]
      exact sum_congr rfl fun j _ => sum_congr rfl fun t _ => by ring
    rw [e1, mul_sum, ← sum_add_distrib]
    apply sum_eq_zero
    intro i hi
    have := hn i (mem_range.1 hi)
    have : (x' i - x i) * (∑ t ∈ range rows, A i t * (∑ j ∈ range m, A j t * x j - b t) + reg * x i) = 0 := by
      rw [this, mul_zero]
    linarith
  unfold lsCost
  have e2 : ∀ t, ∑ j ∈ range m, A j t * x' j - b t =
      (∑ j ∈ range m, A j t * x j - b t) + ∑ j ∈ range m, A j t * (x' j - x j) := by
    intro t
    simp only [mul_sub, sum_sub_distrib]; ring
  have e3 : ∑ j ∈ range m, x' j ^ 2 = ∑ j ∈ range m, x j ^ 2 + 2 * ∑ j ∈ range m, (x' j - x j) * x j +
      ∑ j ∈ range m, (x' j - x j) ^ 2 := by
    rw [mul_sum, ← sum_add_distrib, ← sum_add_distrib]
    exact sum_congr rfl fun j _ => by ring
  have e4 : ∑ t ∈ range rows, (∑ j ∈ range m, A j t * x' j - b t) ^ 2 =
      ∑ t ∈ range rows, (∑ j ∈ range m, A j t * x j - b t) ^ 2 +
      2 * ∑ t ∈ range rows, (∑ j ∈ range m, A j t * (x' j - x j)) * (∑ j ∈ range m, A j t * x j - b t) +
      ∑ t ∈ range rows, (∑ j ∈ range m, A j t * (x' j - x j)) ^ 2 := by
    rw [mul_sum, ← sum_add_distrib, ← sum_add_distrib]
    exact sum_congr rfl fun t _ => by rw [e2]; ring
  rw [e3, e4]
  linarith [hcross]

/-- A solution of the normal equations is the minimiser. -/
theorem normal_minimises {m rows : Nat} {A : Nat → Nat → ℝ} {b : Nat → ℝ} {reg : ℝ} (hr : 0 < reg) {x : Nat → ℝ}
    (hx : ∀ i < m, ∑ j ∈ range m, hessOf A rows reg i j * x j = gradOf A b rows i) (x' : Nat → ℝ) :
    lsCost m rows A b reg x ≤ lsCost m rows A b reg x' ∧
      (lsCost m rows A b reg x' ≤ lsCost m rows A b reg x → ∀ j < m, x' j = x j) := by
  have h := lsCost_expand m rows A b reg x x' hx
  have h1 : 0 ≤ ∑ t ∈ range rows, (∑ j ∈ range m, A j t * (x' j - x j)) ^ 2 := sum_nonneg fun t _ => sq_nonneg _
  have h2 : 0 ≤ ∑ j ∈ range m, (x' j - x j) ^ 2 := sum_nonneg fun t _ => sq_nonneg _
  have h3 := mul_nonneg hr.le h2
  refine ⟨by linarith, fun hle j hj => ?_⟩
  have h4 : reg * ∑ j ∈ range m, (x' j - x j) ^ 2 = 0 := by linarith
  have h5 := (mul_eq_zero.1 h4).resolve_left hr.ne'
  have h6 := (sum_eq_zero_iff_of_nonneg fun i _ => sq_nonneg _).1 h5 j (mem_range.2 hj)
  have := pow_eq_zero_iff (two_ne_zero) |>.1 h6
  linarith

theorem hess_spd (m rows : Nat) (A : Nat → Nat → ℝ) {reg : ℝ} (hr : 0 < reg) : IsSpd m (hessOf A rows reg) := by
  refine ⟨fun i _ j _ => ?_, fun x ⟨i, hi, hxi⟩ => ?_⟩
  · unfold hessOf
    congr 1
    · exact sum_congr rfl fun t _ => mul_comm _ _
    · by_cases h : i = j
      · subst h; rfl
      · rw [if_neg h, if_neg (Ne.symm h)]
  · have e : ∑ i ∈ range m, ∑ j ∈ range m, x i * hessOf A rows reg i j * x j =
        ∑ t ∈ range rows, (∑ j ∈ range m, A j t * x j) ^ 2 + reg * ∑ j ∈ range m, x j ^ 2 := by
      have e1 : ∀ i ∈ range m, ∑ j ∈ range m, x i * hessOf A rows reg i j * x j =
          ∑ t ∈ range rows, x i * (A i t * (∑ j ∈ range m, A j t * x j)) + reg * x i ^ 2 := by
        intro i hi
        have := hess_apply m rows A reg x (mem_range.1 hi)
        rw [← mul_sum]
        have e0 : ∑ j ∈ range m, x i * hessOf A rows reg i j * x j = x i * ∑ j ∈ range m, hessOf A rows reg i j * x j := by
          rw [mul_sum]; exact sum_congr rfl fun j _ => by ring
        rw [e0, this]; ring
      rw [sum_congr rfl e1, sum_add_distrib, ← mul_sum, sum_comm]
      congr 1
      apply sum_congr rfl
      intro t _
      rw [sq, sum_mul]
      exact sum_congr rfl fun i _ => by ring
    rw [e]
    have h1 : 0 ≤ ∑ t ∈ range rows, (∑ j ∈ range m, A j t * x j) ^ 2 := sum_nonneg fun t _ => sq_nonneg _
    have h2 : 0 < ∑ j ∈ range m, x j ^ 2 :=
      sum_pos' (fun j _ => sq_nonneg _) ⟨i, mem_range.2 hi, by positivity⟩
    have := mul_pos hr h2
    linarith

end Momentum
