import Verif.Model.HouseholderQr
import Verif.Spec.LeastSquares
import Mathlib.Tactic.Ring
import Mathlib.Algebra.BigOperators.Field
import Mathlib.Tactic.Linarith
import Mathlib.Tactic.FieldSimp
import Mathlib.Algebra.Order.BigOperators.Ring.Finset

/-!
# Lemmas about Householder reflections
-/

namespace Momentum
open Finset

/-- The number `vᵀ y` with the implicit leading one. -/
def hdot (m : Nat) (v : Nat → ℝ) (y1 : ℝ) (y : Nat → ℝ) : ℝ := y1 + ∑ t ∈ range m, v t * y t

theorem applyHouseholder_eq (m : Nat) (beta : ℝ) (v : Nat → ℝ) (y1 : ℝ) (y : Nat → ℝ) :
    applyHouseholder m beta v y1 y =
      (y1 - hdot m v y1 y * beta, fun t => y t - hdot m v y1 y * beta * v t) := rfl

theorem sumsq_zero {m : Nat} {a : Nat → ℝ} (h : ∑ t ∈ range m, a t * a t = 0) : ∀ t < m, a t = 0 := by
  intro t ht
  have := (sum_eq_zero_iff_of_nonneg (fun t _ => mul_self_nonneg (a t))).1 h t (mem_range.2 ht)
  exact mul_self_eq_zero.1 this

/-- A column that is already zero is left alone. -/
theorem householderVec_zero {m : Nat} {x1 : ℝ} {a : Nat → ℝ} (h : ∑ t ∈ range m, a t * a t = 0) :
    householderVec m x1 a = (0, x1, a) := by
  simp [householderVec, h]

/-- The reflection sends the column to `(mu, 0)`, with `mu > 0`, and is orthogonal. -/
theorem householderVec_spec {m : Nat} {x1 : ℝ} {a : Nat → ℝ} (h : ∑ t ∈ range m, a t * a t ≠ 0)
    {beta mu : ℝ} {v : Nat → ℝ} (he : householderVec m x1 a = (beta, mu, v)) :
    beta ≠ 0 ∧ beta * (1 + ∑ t ∈ range m, v t * v t) = 2 ∧ 0 < mu ∧
      mu ^ 2 = x1 ^ 2 + ∑ t ∈ range m, a t * a t ∧
      x1 - hdot m v x1 a * beta = mu ∧ ∀ t, a t - hdot m v x1 a * beta * v t = 0 := by
  unfold householderVec at he
  simp only [if_neg h] at he
  generalize hs : ∑ t ∈ range m, a t * a t = s at he h
  have hs0 : 0 < s := lt_of_le_of_ne (hs ▸ sum_nonneg fun t _ => mul_self_nonneg (a t)) (Ne.symm h)
  have hpos : 0 < x1 * x1 + s := by nlinarith [mul_self_nonneg x1]
  have hmu : 0 < Real.sqrt (x1 * x1 + s) := Real.sqrt_pos.2 hpos
  have hmu2 : Real.sqrt (x1 * x1 + s) * Real.sqrt (x1 * x1 + s) = x1 * x1 + s := Real.mul_self_sqrt hpos.le
  generalize Real.sqrt (x1 * x1 + s) = u at he hmu hmu2
  have hux : 0 < u - x1 := by
    by_contra hc
    nlinarith
  have hv1 : (if x1 ≤ 0 then x1 - u else -s / (x1 + u)) = x1 - u := by
    split_ifs with hx
    · rfl
    · have : x1 + u ≠ 0 := by have := not_le.1 hx; positivity
      rw [div_eq_iff this]; linarith
  rw [hv1] at he
  have hne : x1 - u ≠ 0 := by linarith
  have hden : s + (x1 - u) * (x1 - u) = 2 * u * (u - x1) := by linarith
  have hden0 : s + (x1 - u) * (x1 - u) ≠ 0 := by rw [hden]; positivity
  obtain ⟨rfl, rfl, rfl⟩ := by simpa only [Prod.mk.injEq] using he
  have hsum : ∑ t ∈ range m, a t / (x1 - u) * (a t / (x1 - u)) = s / ((x1 - u) * (x1 - u)) := by
    rw [← hs, sum_div]
    exact sum_congr rfl fun t _ => by rw [div_mul_div_comm]
  have hd : hdot m (fun t => a t / (x1 - u)) x1 a = x1 + s / (x1 - u) := by
    unfold hdot
    rw [← hs, sum_div]
    congr 1
    exact sum_congr rfl fun t _ => by rw [div_mul_eq_mul_div]
  have hdb : hdot m (fun t => a t / (x1 - u)) x1 a * (2 * ((x1 - u) * (x1 - u)) / (s + (x1 - u) * (x1 - u))) =
      x1 - u := by
    rw [hd, hden]
    have hu0 := hmu.ne'
    have hux0 := hux.ne'
    field_simp
    have : s = (u - x1) * (u + x1) := by linarith
    rw [this]
    ring
  refine ⟨div_ne_zero (by positivity) hden0, ?_, hmu, by nlinarith, ?_, ?_⟩
  · rw [hsum]; field_simp; ring
  · rw [hdb]; ring
  · intro t
    rw [hdb, mul_div_cancel₀ _ hne, sub_self]

/-- What the column loop does. -/
theorem reflectCols_spec (m : Nat) (beta : ℝ) (v : Nat → ℝ) (idx : Nat → Nat) (js : List Nat)
    (hnd : js.Nodup) (hidx : ∀ j ∈ js, ∀ k ∈ js, idx j = idx k → j = k) (row : Nat → ℝ) (A : Nat → Nat → ℝ) :
    (∀ j ∈ js, (reflectCols m beta v idx js row A).1 j = row j - hdot m v (row j) (A (idx j)) * beta ∧
      ∀ t, (reflectCols m beta v idx js row A).2 (idx j) t =
        A (idx j) t - hdot m v (row j) (A (idx j)) * beta * v t) ∧
    (∀ j, j ∉ js → (reflectCols m beta v idx js row A).1 j = row j) ∧
    ∀ c, (∀ j ∈ js, idx j ≠ c) → (reflectCols m beta v idx js row A).2 c = A c := by
  induction js generalizing row A with
  | nil => exact ⟨fun j hj => absurd hj (by simp), fun _ _ => rfl, fun _ _ => rfl⟩
  | cons k js ih =>
    have hk : k ∉ js := (List.nodup_cons.1 hnd).1
    have hne : ∀ j ∈ js, idx j ≠ idx k := fun j hj h =>
      hk (hidx j (List.mem_cons_of_mem _ hj) k List.mem_cons_self h ▸ hj)
    obtain ⟨i1, i2, i3⟩ := ih (List.nodup_cons.1 hnd).2
      (fun j hj l hl => hidx j (List.mem_cons_of_mem _ hj) l (List.mem_cons_of_mem _ hl))
      (Function.update row k (applyHouseholder m beta v (row k) (A (idx k))).1)
      (Function.update A (idx k) (applyHouseholder m beta v (row k) (A (idx k))).2)
    have hunf : reflectCols m beta v idx (k :: js) row A = reflectCols m beta v idx js
      (Function.update row k (applyHouseholder m beta v (row k) (A (idx k))).1)
      (Function.update A (idx k) (applyHouseholder m beta v (row k) (A (idx k))).2) := rfl
    rw [hunf]
    refine ⟨?_, ?_, ?_⟩
    · intro j hj
      rcases List.mem_cons.1 hj with rfl | hj
      · constructor
        · rw [i2 j hk, Function.update_self, applyHouseholder_eq]
        · intro t
          rw [i3 _ hne, Function.update_self, applyHouseholder_eq]
      · have hjk : j ≠ k := fun h => hk (h ▸ hj)
        have := i1 j hj
        rw [Function.update_of_ne hjk, Function.update_of_ne (hne j hj)] at this
        exact this
    · intro j hj
      rw [i2 j fun h => hj (List.mem_cons_of_mem _ h), Function.update_of_ne fun h => hj (by simp [h])]
    · intro c hc
      rw [i3 c fun j hj => hc j (List.mem_cons_of_mem _ hj),
        Function.update_of_ne fun h => hc k List.mem_cons_self h.symm]

/-- A reflection does not change the length of a stacked residual vector. -/
theorem reflect_norm {m : Nat} {beta : ℝ} {v : Nat → ℝ} (h : beta * (1 + ∑ t ∈ range m, v t * v t) = 2)
    (p : ℝ) (u : Nat → ℝ) :
    (p - hdot m v p u * beta) ^ 2 + ∑ t ∈ range m, (u t - hdot m v p u * beta * v t) ^ 2 =
      p ^ 2 + ∑ t ∈ range m, u t ^ 2 := by
  generalize hd : hdot m v p u = d
  have e1 : ∑ t ∈ range m, (u t - d * beta * v t) ^ 2 =
      ∑ t ∈ range m, u t ^ 2 - 2 * d * beta * (∑ t ∈ range m, v t * u t) +
        (d * beta) ^ 2 * ∑ t ∈ range m, v t * v t := by
    rw [mul_sum, mul_sum, ← sum_sub_distrib, ← sum_add_distrib]
    exact sum_congr rfl fun t _ => by ring
  have e2 : ∑ t ∈ range m, v t * u t = d - p := by rw [← hd]; unfold hdot; ring
  rw [e1, e2]
  have e3 : beta ^ 2 * ∑ t ∈ range m, v t * v t = 2 * beta - beta ^ 2 := by
    have : beta * (beta * (1 + ∑ t ∈ range m, v t * v t)) = beta * 2 := by rw [h]
    linarith
  have : (d * beta) ^ 2 * ∑ t ∈ range m, v t * v t = d ^ 2 * (2 * beta - beta ^ 2) := by
    rw [← e3]; ring
  rw [this]
  ring

/-- The same for the residual of a linear system: reflecting every column and the right-hand side reflects the
residual. -/
theorem reflect_residual {ι : Type*} {m : Nat} {beta : ℝ} {v : Nat → ℝ}
    (h : beta * (1 + ∑ t ∈ range m, v t * v t) = 2) (S : Finset ι) (row x : ι → ℝ) (A : ι → Nat → ℝ)
    (y : ℝ) (b : Nat → ℝ) :
    (∑ j ∈ S, (row j - hdot m v (row j) (A j) * beta) * x j - (y - hdot m v y b * beta)) ^ 2 +
      ∑ t ∈ range m, (∑ j ∈ S, (A j t - hdot m v (row j) (A j) * beta * v t) * x j -
        (b t - hdot m v y b * beta * v t)) ^ 2 =
    (∑ j ∈ S, row j * x j - y) ^ 2 + ∑ t ∈ range m, (∑ j ∈ S, A j t * x j - b t) ^ 2 := by
  rw [← reflect_norm h (∑ j ∈ S, row j * x j - y) (fun t => ∑ j ∈ S, A j t * x j - b t)]
  have hd : hdot m v (∑ j ∈ S, row j * x j - y) (fun t => ∑ j ∈ S, A j t * x j - b t) =
      ∑ j ∈ S, hdot m v (row j) (A j) * x j - hdot m v y b := by
    unfold hdot
    simp only [add_mul, sum_add_distrib, mul_sub, sum_sub_distrib, mul_sum, sum_mul]
    rw [sum_comm]
    have : ∀ t j, v t * (A j t * x j) = v t * A j t * x j := fun t j => by ring
    simp only [this]
    ring
  rw [hd]
  congr 2
  · simp only [sub_mul, sum_sub_distrib]
    have : ∑ j ∈ S, hdot m v (row j) (A j) * beta * x j = (∑ j ∈ S, hdot m v (row j) (A j) * x j) * beta := by
      rw [sum_mul]; exact sum_congr rfl fun j _ => by ring
    rw [this]; ring
  · funext t
    congr 1
    simp only [sub_mul, sum_sub_distrib]
    have : ∑ j ∈ S, hdot m v (row j) (A j) * beta * v t * x j =
        (∑ j ∈ S, hdot m v (row j) (A j) * x j) * beta * v t := by
      rw [sum_mul, sum_mul]; exact sum_congr rfl fun j _ => by ring
    rw [this]; ring

/-! ### Back substitution -/

theorem backSub_spec (n : Nat) (R : Nat → Nat → ℝ) (y : Nat → ℝ) (hd : ∀ i < n, R i i ≠ 0) :
    ∀ i < n, ∑ j ∈ Ico i n, R i j * backSub n R y j = y i := by
  have key : ∀ k ≤ n, ∀ i, n - k ≤ i → i < n →
      ∑ j ∈ Ico i n, R i j * ((List.range n).reverse.take k).foldl (fun (x : Nat → ℝ) i =>
        Function.update x i ((y i - ∑ j ∈ Ico (i + 1) n, R i j * x j) / R i i)) (fun _ => 0) j = y i := by
    intro k
    induction k with
    | zero => intro _ i h1 h2; omega
    | succ k ih =>
      intro hk i h1 h2
      have hlen : k < (List.range n).reverse.length := by simp; omega
      have hget : (List.range n).reverse[k] = n - 1 - k := by
        rw [List.getElem_reverse]; simp
      rw [← List.take_concat_get' _ k hlen, List.foldl_append, hget]
      simp only [List.foldl_cons, List.foldl_nil]
      generalize hx : ((List.range n).reverse.take k).foldl (fun (x : Nat → ℝ) i =>
        Function.update x i ((y i - ∑ j ∈ Ico (i + 1) n, R i j * x j) / R i i)) (fun _ => 0) = x at ih ⊢
      by_cases hi : i = n - 1 - k
      · subst hi
        rw [sum_eq_sum_Ico_succ_bot h2, Function.update_self, mul_div_cancel₀ _ (hd _ h2)]
        have : ∀ j ∈ Ico (n - 1 - k + 1) n, R (n - 1 - k) j * Function.update x (n - 1 - k)
            ((y (n - 1 - k) - ∑ j ∈ Ico (n - 1 - k + 1) n, R (n - 1 - k) j * x j) / R (n - 1 - k) (n - 1 - k)) j =
            R (n - 1 - k) j * x j := by
          intro j hj
          rw [Function.update_of_ne (by have := mem_Ico.1 hj; omega)]
        rw [sum_congr rfl this]
        ring
      · rw [← ih (by omega) i (by omega) h2]
        apply sum_congr rfl
        intro j hj
        rw [Function.update_of_ne (by have := mem_Ico.1 hj; omega)]
  have := key n le_rfl
  rw [List.take_of_length_le (by simp)] at this
  intro i hi
  exact this i (by omega) hi

/-- Back substitution is the only solution. -/
theorem upper_unique {n : Nat} {R : Nat → Nat → ℝ} (hd : ∀ i < n, R i i ≠ 0) {x z : Nat → ℝ}
    (h : ∀ i < n, ∑ j ∈ Ico i n, R i j * x j = ∑ j ∈ Ico i n, R i j * z j) : ∀ i < n, x i = z i := by
  have key : ∀ k ≤ n, ∀ i, n - k ≤ i → i < n → x i = z i := by
    intro k
    induction k with
    | zero => intro _ i h1 h2; omega
    | succ k ih =>
      intro hk i h1 h2
      by_cases hi : i = n - 1 - k
      · have e := h i h2
        rw [sum_eq_sum_Ico_succ_bot h2, sum_eq_sum_Ico_succ_bot h2] at e
        have : ∑ j ∈ Ico (i + 1) n, R i j * x j = ∑ j ∈ Ico (i + 1) n, R i j * z j :=
          sum_congr rfl fun j hj => by
            have := mem_Ico.1 hj
            rw [ih (by omega) j (by omega) (by omega)]
        rw [this] at e
        exact mul_left_cancel₀ (hd i h2) (add_right_cancel e)
      · exact ih (by omega) i (by omega) h2
  intro i hi
  exact key n le_rfl i (by omega) hi

end Momentum
