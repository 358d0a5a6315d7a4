import Verif.Spec.Solver

/-!
# C32, C33, C34: the solver loop, disabled parameters and line search
-/

namespace Momentum
open Finset

/-! ## C32 -/

theorem stateAfter_succ {σ : Type} (d : σ → σ × ℝ) (s : σ) (k : Nat) :
    stateAfter d s (k + 1) = (d (stateAfter d s k)).1 := by
  unfold stateAfter; rw [Function.iterate_succ_apply']

theorem errorBefore_succ {σ : Type} (d : σ → σ × ℝ) (s : σ) (k : Nat) : errorBefore d s (k + 1) = errorOf d s k := by
  simp [errorBefore]

theorem solveLoop_spec {σ : Type} (o : SolverOptions) (d : σ → σ × ℝ) (s0 : σ) (rem : Nat) :
    ∀ (i : Nat) (s : LoopState σ), s.inner = stateAfter d s0 i → s.error = errorBefore d s0 i →
      s.lastError = errorBefore d s0 i → s.iteration = i →
      s.trace = (List.range i).map (fun j => (stateAfter d s0 (j + 1), errorOf d s0 j)) →
      ∃ k, i ≤ k ∧ k ≤ i + rem ∧ (solveLoop o d rem s).inner = stateAfter d s0 k ∧
        (solveLoop o d rem s).error = errorBefore d s0 k ∧
        (solveLoop o d rem s).trace = (List.range k).map (fun j => (stateAfter d s0 (j + 1), errorOf d s0 j)) ∧
        (∀ j, i ≤ j → j + 1 < k → o.minIterations ≤ j → ¬ Converged o (errorBefore d s0 j) (errorOf d s0 j)) ∧
        (((solveLoop o d rem s).iteration = k ∧ k = i + rem ∧
            (i < k → o.minIterations ≤ k - 1 → ¬ Converged o (errorBefore d s0 (k - 1)) (errorOf d s0 (k - 1)))) ∨
          ((solveLoop o d rem s).iteration + 1 = k ∧ i < k ∧ o.minIterations ≤ k - 1 ∧
            Converged o (errorBefore d s0 (k - 1)) (errorOf d s0 (k - 1)))) := by
  induction rem with
  | zero =>
    intro i s h1 h2 h3 h4 h5
    exact ⟨i, le_rfl, le_rfl, h1, h2, h5, fun j h h' => absurd h (by omega), Or.inl ⟨h4, rfl, fun h => absurd h (by omega)⟩⟩
  | succ rem ih =>
    intro i s h1 h2 h3 h4 h5
    have htr : s.trace ++ [d s.inner] =
        (List.range (i + 1)).map (fun j => (stateAfter d s0 (j + 1), errorOf d s0 j)) := by
      rw [h5, List.range_succ, List.map_append, h1]
      simp [stateAfter_succ, errorOf]
    by_cases hc : o.minIterations ≤ s.iteration ∧ Converged o s.lastError (d s.inner).2
    · have he : solveLoop o d (rem + 1) s =
          ⟨(d s.inner).1, (d s.inner).2, s.lastError, s.iteration, s.trace ++ [d s.inner]⟩ := by
        rw [solveLoop]; exact if_pos hc
      rw [he]
      refine ⟨i + 1, by omega, by omega, ?_, ?_, htr, fun j h h' => absurd h (by omega), Or.inr ⟨?_, by omega, ?_, ?_⟩⟩
      · simp only [h1, stateAfter_succ]
      · simp only [h1, errorBefore_succ, errorOf]
      · simp only [h4]
      · rw [h4] at hc; simpa using hc.1
      · have := hc.2
        rw [h3, h1] at this
        simpa [errorOf] using this
    · have he : solveLoop o d (rem + 1) s =
          solveLoop o d rem ⟨(d s.inner).1, (d s.inner).2, (d s.inner).2, s.iteration + 1, s.trace ++ [d s.inner]⟩ := by
        rw [solveLoop]; exact if_neg hc
      have hn : o.minIterations ≤ i → ¬ Converged o (errorBefore d s0 i) (errorOf d s0 i) := by
        intro hm hcv
        apply hc
        rw [h4, h3, h1]
        exact ⟨hm, hcv⟩
      rw [he]
      obtain ⟨k, k1, k2, k3, k4, k5, k6, k7⟩ := ih (i + 1)
        ⟨(d s.inner).1, (d s.inner).2, (d s.inner).2, s.iteration + 1, s.trace ++ [d s.inner]⟩
        (by simp only [h1, stateAfter_succ])
        (by simp only [h1, errorBefore_succ, errorOf]) (by simp only [h1, errorBefore_succ, errorOf])
        (by simp only [h4]) htr
      refine ⟨k, by omega, by omega, k3, k4, k5, ?_, ?_⟩
      · intro j hj hjk hm
        by_cases hji : j = i
        · subst hji; exact hn hm
        · exact k6 j (by omega) hjk hm
      · rcases k7 with ⟨a1, a2, a3⟩ | ⟨a1, a2, a3, a4⟩
        · refine Or.inl ⟨a1, by omega, fun _ hm => ?_⟩
          by_cases hki : k = i + 1
          · subst hki; simpa using hn (by simpa using hm)
          · exact a3 (by omega) hm
        · exact Or.inr ⟨a1, by omega, a3, a4⟩

/-- **C32.**  `solve` makes `k` iterations, at least `min(minIterations, maxIterations)` and at most `maxIterations`.
It hands back the state after these, returns the error the last one reported, and stops before `maxIterations` only
at the first iteration past `minIterations` that meets the convergence test. -/
theorem C32_iterations {σ : Type} (o : SolverOptions) (d : σ → σ × ℝ) (s : σ) :
    ∃ k, min o.minIterations o.maxIterations ≤ k ∧ k ≤ o.maxIterations ∧
      (solve o d s).inner = stateAfter d s k ∧ (solve o d s).error = errorBefore d s k ∧
      (k < o.maxIterations → o.minIterations < k ∧ Converged o (errorBefore d s (k - 1)) (errorOf d s (k - 1))) ∧
      ∀ j, o.minIterations ≤ j → j + 1 < k → ¬ Converged o (errorBefore d s j) (errorOf d s j) := by
  obtain ⟨k, -, k2, k3, k4, -, k6, k7⟩ := solveLoop_spec o d s o.maxIterations 0 ⟨s, dblMax, dblMax, 0, []⟩
    rfl (by simp [errorBefore]) (by simp [errorBefore]) rfl rfl
  refine ⟨k, ?_, by omega, k3, k4, ?_, fun j hm hj => k6 j (by omega) hj hm⟩
  · rcases k7 with ⟨-, a, -⟩ | ⟨-, a1, a2, -⟩ <;> omega
  · intro hk
    rcases k7 with ⟨-, a, -⟩ | ⟨-, a1, a2, a3⟩
    · omega
    · exact ⟨by omega, a3⟩

/-- **C32** the history has one column per iteration made: the state and the error of each. -/
theorem C32_history {σ : Type} (o : SolverOptions) (d : σ → σ × ℝ) (s : σ) :
    ∃ k, (solve o d s).inner = stateAfter d s k ∧ k ≤ o.maxIterations ∧
      (solve o d s).trace = (List.range k).map (fun j => (stateAfter d s (j + 1), errorOf d s j)) := by
  obtain ⟨k, -, k2, k3, -, k5, -⟩ := solveLoop_spec o d s o.maxIterations 0 ⟨s, dblMax, dblMax, 0, []⟩
    rfl (by simp [errorBefore]) (by simp [errorBefore]) rfl rfl
  exact ⟨k, k3, by omega, k5⟩

/-- The iteration count in the history is the number of iterations made when the loop runs to its end, and one less
than that when the convergence test stops it. -/
theorem C32_reported_count {σ : Type} (o : SolverOptions) (d : σ → σ × ℝ) (s : σ) :
    ((solve o d s).iteration = (solve o d s).trace.length ∧ (solve o d s).trace.length = o.maxIterations) ∨
    ((solve o d s).iteration + 1 = (solve o d s).trace.length ∧ ∃ last, (solve o d s).trace.getLast? = some last ∧
      Converged o (errorBefore d s ((solve o d s).trace.length - 1)) last.2) := by
  obtain ⟨k, -, -, -, -, k5, -, k7⟩ := solveLoop_spec o d s o.maxIterations 0 ⟨s, dblMax, dblMax, 0, []⟩
    rfl (by simp [errorBefore]) (by simp [errorBefore]) rfl rfl
  have hl : (solve o d s).trace.length = k := by
    have := congrArg List.length k5
    simpa [solve] using this
  rw [hl]
  rcases k7 with ⟨a1, a2, -⟩ | ⟨a1, a2, a3, a4⟩
  · exact Or.inl ⟨a1, by omega⟩
  · refine Or.inr ⟨a1, (stateAfter d s k, errorOf d s (k - 1)), ?_, a4⟩
    obtain ⟨k, rfl⟩ : ∃ j, k = j + 1 := ⟨k - 1, by omega⟩
    show (solveLoop o d o.maxIterations ⟨s, dblMax, dblMax, 0, []⟩).trace.getLast? = _
    rw [k5, List.range_succ]
    simp

/-- A one-dimensional problem: the error is the square of the parameter. -/
def exSquare : SolverFunction Unit where
  getError _ p := (p 0 ^ 2, ())
  getGradient _ p := (p 0 ^ 2, fun i => if i = 0 then 2 * p 0 else 0, ())
  getJacobian _ p := (⟨p 0 ^ 2, 1, fun j _ => if j = 0 then 1 else 0, fun _ => p 0⟩, ())
  afterUpdate _ _ := ()
  setEnabled _ _ := ()
  actualParameters _ := 1

/-- The value `solve` returns is the error before its last step, not the error of the parameters it hands back. -/
theorem C32_returned_error_counterexample :
    ∃ (o : SolverOptions) (p : Nat → ℝ),
      let r := solve o (gradientDescentIteration exSquare (1 / 2)) (p, ())
      r.error ≠ (exSquare.getError () r.inner.1).1 := by
  refine ⟨⟨1, 1, 1⟩, fun _ => 3, ?_⟩
  have : solve ⟨1, 1, 1⟩ (gradientDescentIteration exSquare (1 / 2)) ((fun _ => 3 : Nat → ℝ), ()) =
      ⟨((fun i => 3 - (if i = 0 then 2 * 3 else 0) * (1 / 2)), ()), 9, 9, 1,
        [((fun i => 3 - (if i = 0 then 2 * 3 else 0) * (1 / 2), ()), 9)]⟩ := by
    unfold solve
    rw [solveLoop]
    simp only [nonpos_iff_eq_zero, one_ne_zero, false_and, if_false]
    rw [solveLoop]
    norm_num [gradientDescentIteration, exSquare, SolverFunction.updateParameters]
  rw [this]
  norm_num [exSquare]

/-! ## C34 -/

theorem lineSearchLoop_spec {S : Type} (f : SolverFunction S) (E : (Nat → ℝ) → ℝ)
    (hE : ∀ s p, (f.getError s p).1 = E p) (accept : ℝ → ℝ → Prop) (orig delta : Nat → ℝ) (k : Nat) :
    ∀ (i : Nat) (cur : Nat → ℝ) (s : S),
      ∃ j, i ≤ j ∧ j ≤ i + k ∧
        (lineSearchLoop f accept orig delta (k + 1) ((1 / 2) ^ i) cur s).1 =
          (fun a => orig a - (1 / 2) ^ j * delta a) ∧
        (j < i + k → accept ((1 / 2) ^ j) (E fun a => orig a - (1 / 2) ^ j * delta a)) ∧
        ∀ l, i ≤ l → l < j → ¬ accept ((1 / 2) ^ l) (E fun a => orig a - (1 / 2) ^ l * delta a) := by
  induction k with
  | zero =>
    intro i cur s
    refine ⟨i, le_rfl, le_rfl, ?_, fun h => absurd h (by omega), fun l h h' => absurd h (by omega)⟩
    rw [lineSearchLoop]
    split
    · rfl
    · rw [lineSearchLoop]; rfl
  | succ k ih =>
    intro i cur s
    rw [lineSearchLoop]
    rw [hE]
    by_cases h : accept ((1 / 2) ^ i) (E (f.updateParameters s orig fun a => (1 / 2) ^ i * delta a).1)
    · rw [if_pos h]
      exact ⟨i, le_rfl, by omega, rfl, fun _ => h, fun l h h' => absurd h (by omega)⟩
    · rw [if_neg h, ← pow_succ]
      obtain ⟨j, j1, j2, j3, j4, j5⟩ := ih (i + 1) (f.updateParameters s orig fun a => (1 / 2) ^ i * delta a).1
        (f.getError (f.updateParameters s orig fun a => (1 / 2) ^ i * delta a).2
          (f.updateParameters s orig fun a => (1 / 2) ^ i * delta a).1).2
      refine ⟨j, by omega, by omega, j3, fun hj => j4 (by omega), fun l hl hlj => ?_⟩
      by_cases hli : l = i
      · subst hli; exact h
      · exact j5 l (by omega) hlj

theorem lineSearch_spec {S : Type} (f : SolverFunction S) (E : (Nat → ℝ) → ℝ)
    (hE : ∀ s p, (f.getError s p).1 = E p) (accept : ℝ → ℝ → Prop) (orig delta : Nat → ℝ) (s : S) :
    LineSearchResult E accept orig delta (lineSearch f accept orig delta s).1 := by
  obtain ⟨j, -, j2, j3, j4, j5⟩ := lineSearchLoop_spec f E hE accept orig delta 9 0 orig s
  rw [pow_zero] at j3
  refine ⟨j, by omega, j3, ?_, fun l hl => j5 l (by omega) hl⟩
  by_cases hj : j = 9
  · exact Or.inr hj
  · have := j4 (by omega)
    unfold lineSearch
    rw [j3]
    exact Or.inl this

/-- **C34** for the Gauss-Newton solver.  Against the step taken without line search, the step is halved at most nine
times; sufficient decrease means a decrease by a thousandth of the error, scaled by the step length. -/
theorem C34_gauss_newton {S : Type} (f : SolverFunction S) (llt : Llt) (E : (Nat → ℝ) → ℝ)
    (hE : ∀ s p, (f.getError s p).1 = E p) (hJ : ∀ s p, (f.getJacobian s p).1.error = E p)
    (s : GaussNewton S) (hl : s.doLineSearch = true) :
    LineSearchResult E (fun alpha e => alpha * (1 / 1000 * E s.parameters) ≤ E s.parameters - e) s.parameters
      (fun a => s.parameters a - (GaussNewton.doIteration f llt { s with doLineSearch := false }).1.parameters a)
      (s.doIteration f llt).1.parameters := by
  unfold GaussNewton.doIteration
  simp only [hl, if_true, Bool.false_eq_true, if_false, SolverFunction.updateParameters, sub_sub_cancel, hJ]
  exact lineSearch_spec f E hE _ _ _ _

end Momentum
