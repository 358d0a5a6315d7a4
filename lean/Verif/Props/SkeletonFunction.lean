import Verif.Props.GaussNewton
import Mathlib.LinearAlgebra.Matrix.NonsingularInverse
import Mathlib.LinearAlgebra.Matrix.ToLinearEquiv

/-!
# C54, C55: solver functions made of error functions, and Gauss-Newton with the QR solver
-/

namespace Momentum
open Finset

/-- Every error function reports at most as many rows as it announced. -/
def RowsFit (fs : List ErrorFunction) : Prop := ∀ f ∈ fs, ∀ p, (f.getJacobian p).rows ≤ f.jacobianSize

/-- The stacked matrix, row by row: whatever is summed over its rows is summed over the rows of all the blocks. -/
theorem stack_spec (l : List ErrorFunction) (p : Nat → ℝ) (hl : RowsFit l) :
    (l.foldl (stackStep p) ⟨0, 0, fun _ _ => 0, fun _ => 0⟩).position = (l.map ErrorFunction.jacobianSize).sum ∧
    (l.foldl (stackStep p) ⟨0, 0, fun _ _ => 0, fun _ => 0⟩).error = (l.map fun f => (f.getJacobian p).error).sum ∧
    (∀ t, (l.map ErrorFunction.jacobianSize).sum ≤ t →
      (∀ j, (l.foldl (stackStep p) ⟨0, 0, fun _ _ => 0, fun _ => 0⟩).e j t = 0) ∧
      (l.foldl (stackStep p) ⟨0, 0, fun _ _ => 0, fun _ => 0⟩).residual t = 0) ∧
    ∀ G : (Nat → ℝ) → ℝ → ℝ, G (fun _ => 0) 0 = 0 →
      ∑ t ∈ range (l.map ErrorFunction.jacobianSize).sum,
        G (fun j => (l.foldl (stackStep p) ⟨0, 0, fun _ _ => 0, fun _ => 0⟩).e j t)
          ((l.foldl (stackStep p) ⟨0, 0, fun _ _ => 0, fun _ => 0⟩).residual t) =
      (l.map fun f => ∑ t ∈ range (f.getJacobian p).rows,
        G (fun j => (f.getJacobian p).e j t) ((f.getJacobian p).residual t)).sum := by
  induction l using List.reverseRecOn with
  | nil => exact ⟨rfl, rfl, fun t _ => ⟨fun _ => rfl, rfl⟩, fun G _ => rfl⟩
  | append_singleton l f ih =>
    obtain ⟨i1, i2, i3, i4⟩ := ih fun g hg => hl g (by simp [hg])
    have hr := hl f (by simp) p
    rw [List.foldl_append, List.foldl_cons, List.foldl_nil]
    generalize l.foldl (stackStep p) ⟨0, 0, fun _ _ => 0, fun _ => 0⟩ = s at *
    simp only [List.map_append, List.map_cons, List.map_nil, List.sum_append, List.sum_cons, List.sum_nil, add_zero]
    generalize (l.map ErrorFunction.jacobianSize).sum = m at *
    unfold stackStep
    simp only [i1]
    refine ⟨trivial, by rw [i2], fun t ht => ⟨fun j => ?_, ?_⟩, fun G hG => ?_⟩
    · rw [if_neg (by omega), (i3 t (by omega)).1]
    · rw [if_neg (by omega), (i3 t (by omega)).2]
    · rw [← i4 G hG, sum_range_add]
      congr 1
      · apply sum_congr rfl
        intro t ht
        have := mem_range.1 ht
        simp only [if_neg (show ¬ (m ≤ t ∧ t < m + (f.getJacobian p).rows) by omega)]
      · rw [← sum_subset (range_subset_range.2 hr)]
        · apply sum_congr rfl
          intro t ht
          have := mem_range.1 ht
          simp only [if_pos (show m ≤ m + t ∧ m + t < m + (f.getJacobian p).rows by omega),
            Nat.add_sub_cancel_left]
        · intro t ht ht'
          have : ¬ t < (f.getJacobian p).rows := fun h => ht' (mem_range.2 h)
          simp only [if_neg (show ¬ (m ≤ m + t ∧ m + t < m + (f.getJacobian p).rows) by omega),
            (i3 (m + t) (by omega)).1, (i3 (m + t) (by omega)).2]
          exact hG

theorem rowsFit_weighted {fs : List ErrorFunction} (h : RowsFit fs) : RowsFit (weighted fs) :=
  fun f hf => h f (List.mem_filter.1 hf).1

/-- **C55** the rows of the stacked Jacobian and residual are the rows of the blocks of the error functions with positive
weight, and rows of zeros: any sum over rows that ignores zero rows comes out the same. -/
theorem C55_stack (fs : List ErrorFunction) (hf : RowsFit fs) (p : Nat → ℝ) (G : (Nat → ℝ) → ℝ → ℝ)
    (hG : G (fun _ => 0) 0 = 0) :
    ∑ t ∈ range (skeletonJacobian fs p).rows, G (fun j => (skeletonJacobian fs p).e j t) ((skeletonJacobian fs p).residual t) =
      ((weighted fs).map fun f => ∑ t ∈ range (f.getJacobian p).rows,
        G (fun j => (f.getJacobian p).e j t) ((f.getJacobian p).residual t)).sum := by
  obtain ⟨-, -, h3, h4⟩ := stack_spec (weighted fs) p (rowsFit_weighted hf)
  rw [← h4 G hG]
  have hle : ((weighted fs).map ErrorFunction.jacobianSize).sum ≤ (skeletonJacobian fs p).rows := by
    show _ ≤ jacobianRows fs
    exact Nat.le_add_right _ _
  rw [← sum_subset (range_subset_range.2 hle)]
  · rfl
  · intro t _ ht
    have : ¬ t < ((weighted fs).map ErrorFunction.jacobianSize).sum := fun h => ht (mem_range.2 h)
    have := h3 t (by omega)
    show G (fun j => ((weighted fs).foldl (stackStep p) ⟨0, 0, fun _ _ => 0, fun _ => 0⟩).e j t)
      (((weighted fs).foldl (stackStep p) ⟨0, 0, fun _ _ => 0, fun _ => 0⟩).residual t) = 0
    rw [this.2, show (fun j => ((weighted fs).foldl (stackStep p) ⟨0, 0, fun _ _ => 0, fun _ => 0⟩).e j t) = fun _ => 0 from
      funext this.1]
    exact hG

theorem jtjr_eq (l : List ErrorFunction) (p : Nat → ℝ) (a : ℝ) (b : Nat → Nat → ℝ) (c : Nat → ℝ) :
    l.foldl (jtjrStep p) (a, b, c) =
    (a + (l.map fun f => (f.getJacobian p).error).sum,
     fun i k => b i k + (l.map fun f => ∑ t ∈ range (f.getJacobian p).rows, (f.getJacobian p).e i t * (f.getJacobian p).e k t).sum,
     fun i => c i + (l.map fun f => ∑ t ∈ range (f.getJacobian p).rows, (f.getJacobian p).e i t * (f.getJacobian p).residual t).sum) := by
  induction l generalizing a b c with
  | nil => simp
  | cons f l ih =>
    rw [List.foldl_cons, jtjrStep, ih]
    simp only [List.map_cons, List.sum_cons, add_assoc]

/-- **C55.**  `getJtJR` gives `JᵀJ`, `Jᵀr` and the error of the Jacobian and residual that `getJacobian` gives. -/
theorem C55_jtjr (fs : List ErrorFunction) (hf : RowsFit fs) (p : Nat → ℝ) :
    let J := skeletonJacobian fs p
    (skeletonJtJR fs p).1 = J.error ∧
    (∀ i k, (skeletonJtJR fs p).2.1 i k = ∑ t ∈ range J.rows, J.e i t * J.e k t) ∧
    ∀ i, (skeletonJtJR fs p).2.2 i = ∑ t ∈ range J.rows, J.e i t * J.residual t := by
  intro J
  unfold skeletonJtJR
  rw [jtjr_eq]
  refine ⟨?_, fun i k => ?_, fun i => ?_⟩
  · have := (stack_spec (weighted fs) p (rowsFit_weighted hf)).2.1
    show _ = ((weighted fs).foldl (stackStep p) ⟨0, 0, fun _ _ => 0, fun _ => 0⟩).error
    rw [this, zero_add]
  · dsimp only
    rw [zero_add]
    exact (C55_stack fs hf p (fun a _ => a i * a k) (by simp)).symm
  · dsimp only
    rw [zero_add]
    exact (C55_stack fs hf p (fun a b => a i * b) (by simp)).symm

theorem foldl_add_sum {α : Type} (l : List α) (g : α → ℝ) (a : ℝ) : l.foldl (fun e f => e + g f) a = a + (l.map g).sum := by
  induction l generalizing a with
  | nil => simp
  | cons f l ih => rw [List.foldl_cons, ih, List.map_cons, List.sum_cons]; ring

/-- **C55** if every error function reports the same error in `getError` and `getJacobian`, so does the sum. -/
theorem C55_error (fs : List ErrorFunction) (hf : RowsFit fs) (p : Nat → ℝ)
    (h : ∀ f ∈ fs, f.getError p = (f.getJacobian p).error) : skeletonError fs p = (skeletonJacobian fs p).error := by
  have := (stack_spec (weighted fs) p (rowsFit_weighted hf)).2.1
  show _ = ((weighted fs).foldl (stackStep p) ⟨0, 0, fun _ _ => 0, fun _ => 0⟩).error
  rw [this]
  unfold skeletonError
  rw [foldl_add_sum, zero_add]
  congr 1
  exact List.map_congr_left fun f hf => h f (List.mem_filter.1 hf).1

/-! ## The QR solver -/

/-- The calls of `addMutating` that the error functions cause. -/
def absorbCalls (enabled : List Nat) (n : Nat) (p : Nat → ℝ) (l : List ErrorFunction) : List AddCall :=
  l.filterMap fun f => if (f.getJacobian p).rows = 0 then none else
    some ⟨⟨(f.getJacobian p).rows, n, (f.getJacobian p).e, true, enabled⟩, (f.getJacobian p).rows, (f.getJacobian p).residual⟩

theorem absorb_fold (enabled : List Nat) (n : Nat) (p : Nat → ℝ) (l : List ErrorFunction) (e : ℝ) (q : DenseQr) :
    l.foldlM (absorb enabled n p) (e, q) =
      ((absorbCalls enabled n p l).foldlM (fun (s : DenseQr) c => s.add c.A c.bRows c.b) q).map fun q =>
        (e + (l.map fun f => (f.getJacobian p).error).sum, q) := by
  induction l generalizing e q with
  | nil => simp [absorbCalls]
  | cons f l ih =>
    rw [List.foldlM_cons]
    by_cases h : (f.getJacobian p).rows = 0
    · have h1 : absorb enabled n p (e, q) f = some (e + (f.getJacobian p).error, q) := by simp [absorb, h]
      have h2 : absorbCalls enabled n p (f :: l) = absorbCalls enabled n p l := by simp [absorbCalls, h]
      rw [h1, h2, Option.bind_eq_bind, Option.bind_some, ih]
      simp only [List.map_cons, List.sum_cons, add_assoc]
    · have h2 : absorbCalls enabled n p (f :: l) = ⟨⟨(f.getJacobian p).rows, n, (f.getJacobian p).e, true, enabled⟩,
          (f.getJacobian p).rows, (f.getJacobian p).residual⟩ :: absorbCalls enabled n p l := by simp [absorbCalls, h]
      rw [h2, List.foldlM_cons]
      cases hq : q.add ⟨(f.getJacobian p).rows, n, (f.getJacobian p).e, true, enabled⟩ (f.getJacobian p).rows
        (f.getJacobian p).residual with
      | none =>
        have h1 : absorb enabled n p (e, q) f = none := by simp [absorb, h, hq]
        rw [h1]; rfl
      | some q' =>
        have h1 : absorb enabled n p (e, q) f = some (e + (f.getJacobian p).error, q') := by simp [absorb, h, hq]
        rw [h1, Option.bind_eq_bind, Option.bind_some, ih, Option.bind_eq_bind, Option.bind_some]
        simp only [List.map_cons, List.sum_cons, add_assoc]

theorem absorbCalls_distinct (n : Nat) (ps : Nat → Bool) (p : Nat → ℝ) (l : List ErrorFunction) :
    ∀ c ∈ absorbCalls (enabledList n ps) n p l, c.A.DistinctColumns ∧ c.A.rows = c.bRows ∧
      c.A.cols = (enabledList n ps).length := by
  intro c hc
  obtain ⟨f, -, hf⟩ := List.mem_filterMap.1 hc
  by_cases h : (f.getJacobian p).rows = 0
  · rw [if_pos h] at hf; cases hf
  · rw [if_neg h] at hf
    have := Option.some.inj hf
    subst this
    exact ⟨fun _ => enabledList_nodup n ps, rfl, rfl⟩

theorem absorb_objective (enabled : List Nat) (n : Nat) (lambda : ℝ) (p : Nat → ℝ) (l : List ErrorFunction)
    (x : Nat → ℝ) :
    objective enabled.length lambda (history (absorbCalls enabled n p l)) x =
      lambda ^ 2 * ∑ j ∈ range enabled.length, x j ^ 2 +
      (l.map fun f => ∑ t ∈ range (f.getJacobian p).rows,
        (∑ j ∈ range enabled.length, (f.getJacobian p).e (enabled.getD j 0) t * x j - (f.getJacobian p).residual t) ^ 2).sum := by
  unfold objective history
  congr 1
  induction l with
  | nil => rfl
  | cons f l ih =>
    unfold absorbCalls at ih ⊢
    rw [List.filterMap_cons]
    by_cases h : (f.getJacobian p).rows = 0
    · simp only [h, if_true]
      rw [ih, List.map_cons, List.sum_cons, h]
      simp
    · simp only [h, if_false, List.map_cons, List.sum_cons]
      rw [ih]
      rfl

theorem absorb_run (fs : List ErrorFunction) (n : Nat) (ps : Nat → Bool) (lambda : ℝ) (p : Nat → ℝ) :
    ∃ q, denseRun (enabledList n ps).length lambda (absorbCalls (enabledList n ps) n p (weighted fs)) = some q ∧
      (weighted fs).foldlM (absorb (enabledList n ps) n p) (0, DenseQr.start (enabledList n ps).length lambda) =
        some (((weighted fs).map fun f => (f.getJacobian p).error).sum, q) := by
  have hd := absorbCalls_distinct n ps p (weighted fs)
  obtain ⟨q, hq⟩ := (C26_defined _ lambda _ fun c hc => (hd c hc).1).2 fun c hc => (hd c hc).2
  refine ⟨q, hq, ?_⟩
  rw [absorb_fold]
  unfold denseRun at hq
  rw [hq, zero_add]
  rfl

/-- The objective the QR solver minimises, as a cost of the stacked Jacobian. -/
theorem absorb_cost (fs : List ErrorFunction) (hf : RowsFit fs) (n : Nat) (ps : Nat → Bool) (lambda : ℝ) (p : Nat → ℝ)
    (x : Nat → ℝ) :
    objective (enabledList n ps).length lambda (history (absorbCalls (enabledList n ps) n p (weighted fs))) x =
      lsCost (enabledList n ps).length (skeletonJacobian fs p).rows
        (fun i => (skeletonJacobian fs p).e ((enabledList n ps).getD i 0)) (skeletonJacobian fs p).residual (lambda ^ 2) x := by
  rw [absorb_objective]
  unfold lsCost
  rw [C55_stack fs hf p (fun a b => (∑ j ∈ range (enabledList n ps).length, a ((enabledList n ps).getD j 0) * x j - b) ^ 2)
    (by simp)]
  ring

theorem qr_step (fs : List ErrorFunction) (hf : RowsFit fs) (n : Nat) (ps : Nat → Bool) {reg : ℝ} (hreg : 0 < reg)
    (p : Nat → ℝ) {q : DenseQr}
    (hq : denseRun (enabledList n ps).length (Real.sqrt reg) (absorbCalls (enabledList n ps) n p (weighted fs)) = some q) :
    IsGaussNewtonStep n ps (skeletonJacobian fs p) reg (scatter (enabledList n ps) q.result fun _ => 0) := by
  have hd := absorbCalls_distinct n ps p (weighted fs)
  apply step_of_sub fun _ _ => rfl
  intro x'
  have hm := C27_minimiser _ _ _ (fun c hc => (hd c hc).1) q hq
    (C27_regularised _ _ (Real.sqrt_pos.2 hreg).ne' _) x'
  rw [absorb_cost fs hf, absorb_cost fs hf, Real.sq_sqrt hreg.le] at hm
  exact hm

/-- **C54** the QR based solver takes the same step. -/
theorem C54_qr (fs : List ErrorFunction) (hf : RowsFit fs) (n : Nat) (ps : Nat → Bool) (reg : ℝ) (hreg : 0 < reg)
    (p : Nat → ℝ) :
    ∃ p' e, qrIteration fs n ps reg false p = some (p', e) ∧ e = (skeletonJacobian fs p).error ∧
      IsGaussNewtonStep n ps (skeletonJacobian fs p) reg (fun a => p a - p' a) := by
  obtain ⟨q, h1, h2⟩ := absorb_run fs n ps (Real.sqrt reg) p
  refine ⟨fun a => p a - scatter (enabledList n ps) q.result (fun _ => 0) a, _, ?_,
    (stack_spec (weighted fs) p (rowsFit_weighted hf)).2.1.symm, ?_⟩
  · unfold qrIteration
    simp only [h2, Option.bind_eq_bind, Option.bind_some, Bool.false_eq_true, if_false]
    rfl
  · simp only [sub_sub_cancel]
    exact qr_step fs hf n ps hreg p h1

theorem lastEnabled_spec (n : Nat) (ps : Nat → Bool) :
    lastEnabled n ps ≤ n ∧ ∀ j < n, ps j = true → j < lastEnabled n ps := by
  induction n with
  | zero => exact ⟨le_rfl, fun j h => absurd h (by omega)⟩
  | succ n ih =>
    have he : lastEnabled (n + 1) ps = if ps n then n + 1 else lastEnabled n ps := by
      unfold lastEnabled; rw [List.range_succ, List.foldl_append]; rfl
    rw [he]
    by_cases h : ps n = true
    · rw [if_pos h]; exact ⟨le_rfl, fun j hj _ => hj⟩
    · rw [if_neg h]
      refine ⟨by omega, fun j hj hp => ?_⟩
      by_cases hjn : j = n
      · subst hjn; exact absurd hp h
      · exact ih.2 j (by omega) hp

/-- The error functions have no derivative for disabled parameters. -/
def NoDerivative (fs : List ErrorFunction) (n : Nat) (ps : Nat → Bool) : Prop :=
  ∀ f ∈ fs, ∀ p, ∀ j < n, ps j = false → ∀ t < (f.getJacobian p).rows, (f.getJacobian p).e j t = 0

theorem skeleton_respects (n : Nat) (fs : (Nat → Bool) → List ErrorFunction) (ps : Nat → Bool) (hf : RowsFit (fs ps))
    (hz : NoDerivative (fs ps) n ps) (p : Nat → ℝ) : RespectsEnabled (skeletonFunction n fs) ps n ps p := by
  obtain ⟨h1, h2⟩ := lastEnabled_spec n ps
  refine ⟨h1, h2, fun j hj hps t ht => ?_⟩
  have hjn : j < n := lt_of_lt_of_le hj h1
  have h := C55_stack (fs ps) hf p (fun a _ => a j ^ 2) (by simp)
  have h0 : (((weighted (fs ps)).map fun f => ∑ t ∈ range (f.getJacobian p).rows, (f.getJacobian p).e j t ^ 2).sum) = 0 := by
    apply List.sum_eq_zero
    intro x hx
    obtain ⟨f, hfm, rfl⟩ := List.mem_map.1 hx
    apply sum_eq_zero
    intro t ht
    rw [hz f (List.mem_filter.1 hfm).1 p j hjn hps t (mem_range.1 ht)]
    ring
  rw [h0] at h
  have := (sum_eq_zero_iff_of_nonneg fun t _ => sq_nonneg _).1 h t (mem_range.2 ht)
  exact pow_eq_zero_iff (two_ne_zero) |>.1 this

/-- **C54.**  On the same problem, from the same parameters and with the same regularisation, the Gauss-Newton solver, the
subset solver and the QR based solver make the same step. -/
theorem C54_same_step (fs : (Nat → Bool) → List ErrorFunction) (n : Nat) (ps : Nat → Bool) (hf : RowsFit (fs ps))
    (hz : NoDerivative (fs ps) n ps) (llt llt' : Llt) (reg : ℝ) (hreg : 0 < reg) (o : SolverOptions) (fn : Nat → Bool)
    (p : Nat → ℝ) (j : Nat) (hj : j < n) :
    let f := skeletonFunction n fs
    let gn : GaussNewton (Nat → Bool) := ⟨reg, false, n, p, ps⟩
    let sub := ((SubsetSolver.create o reg false n fn).call f llt' (.setEnabled ps))
    (gn.doIteration f llt).1.parameters j =
      (SubsetSolver.doIteration f llt' { sub with parameters := p }).1.parameters j ∧
    ∃ p' e, qrIteration (fs ps) n ps reg false p = some (p', e) ∧ (gn.doIteration f llt).1.parameters j = p' j := by
  intro f gn sub
  have h1 : IsGaussNewtonStep n ps (skeletonJacobian (fs ps) p) reg
      (fun a => p a - (gn.doIteration f llt).1.parameters a) :=
    C54_gauss_newton f llt gn ps hreg rfl (skeleton_respects n fs ps hf hz p)
  have h2 : IsGaussNewtonStep n ps (skeletonJacobian (fs ps) p) reg
      (fun a => p a - (SubsetSolver.doIteration f llt' { sub with parameters := p }).1.parameters a) :=
    C54_subset f llt' o reg false n fn [.setEnabled ps] p hreg
  obtain ⟨p', e, h3, -, h4⟩ := C54_qr (fs ps) hf n ps reg hreg p
  refine ⟨?_, p', e, h3, ?_⟩
  · have := h1.unique h2 j hj
    linarith
  · have := h1.unique h4 j hj
    linarith

/-! ## C34 for the solvers of the enabled parameters -/

/-- The derivative of the error along the step `d`, halved: `rᵀ J d`. -/
def slopeAlong (n : Nat) (J : JacobianResult) (d : Nat → ℝ) : ℝ :=
  ∑ t ∈ range J.rows, J.residual t * ∑ j ∈ range n, J.e j t * d j

theorem slope_enabled {n : Nat} {ps : Nat → Bool} (J : JacobianResult) {d : Nat → ℝ} (hd : OnlyEnabled n ps d) :
    slopeAlong n J d = ∑ i ∈ range (enabledList n ps).length,
      gradOf (fun i => J.e ((enabledList n ps).getD i 0)) J.residual J.rows i * d ((enabledList n ps).getD i 0) := by
  unfold slopeAlong gradOf
  simp only [sum_mul]
  rw [sum_comm]
  apply sum_congr rfl
  intro t _
  rw [sum_enabled n ps (fun j => J.e j t * d j) fun j hj h => by rw [hd j hj h, mul_zero], mul_sum]
  exact sum_congr rfl fun i _ => by ring

/-- **C34** for the subset solver: against the step without line search, halved at most nine times; sufficient decrease
means a decrease by `1e-4` times the slope along the step. -/
theorem C34_subset {S : Type} (f : SolverFunction S) (llt : Llt) (E : (Nat → ℝ) → ℝ)
    (hE : ∀ s p, (f.getError s p).1 = E p) (hJ : ∀ s p, (f.getJacobian s p).1.error = E p)
    (o : SolverOptions) (reg : ℝ) (ls : Bool) (n : Nat) (fn : S) (calls : List SubsetCall) (params : Nat → ℝ) :
    let s := { calls.foldl (SubsetSolver.call f llt) (SubsetSolver.create o reg ls n fn) with parameters := params }
    let step := fun a => params a - (SubsetSolver.doIteration f llt { s with doLineSearch := false }).1.parameters a
    s.doLineSearch = true →
    LineSearchResult E
      (fun alpha e => 1 / 10000 * alpha * slopeAlong n (f.getJacobian s.fn params).1 step ≤ E params - e)
      params step (s.doIteration f llt).1.parameters := by
  intro s step hl
  have hg : s.Good n (enabledAfter calls) := by
    have := Good_calls f llt o reg ls n fn calls
    exact ⟨this.num, this.active, this.list, this.zero⟩
  have hp : s.parameters = params := rfl
  clear_value s
  subst hp
  have hstep : step = scatter (enabledList n (enabledAfter calls))
      (llt.solve (enabledList n (enabledAfter calls)).length
        (hessOf (moveColumns (enabledList n (enabledAfter calls)) (f.getJacobian s.fn s.parameters).1.e)
          (f.getJacobian s.fn s.parameters).1.rows s.regularization)
        (gradOf (moveColumns (enabledList n (enabledAfter calls)) (f.getJacobian s.fn s.parameters).1.e)
          (f.getJacobian s.fn s.parameters).1.residual (f.getJacobian s.fn s.parameters).1.rows)) s.delta := by
    simp only [step]
    unfold SubsetSolver.doIteration
    simp only [Bool.false_eq_true, if_false, SolverFunction.updateParameters, sub_sub_cancel, hg.list]
  clear_value step
  have hon : OnlyEnabled n (enabledAfter calls) step := by
    intro j hj hps
    have hm : j ∉ enabledList n (enabledAfter calls) := fun h => by
      have := (mem_enabledList.1 h).2
      rw [hps] at this; cases this
    rw [hstep, (scatter_spec (enabledList_nodup n _) _ s.delta).2 j hm, hg.zero j hm]
  have hsl : slopeAlong n (f.getJacobian s.fn s.parameters).1 step =
      ∑ i ∈ range (enabledList n (enabledAfter calls)).length,
        gradOf (moveColumns (enabledList n (enabledAfter calls)) (f.getJacobian s.fn s.parameters).1.e)
          (f.getJacobian s.fn s.parameters).1.residual (f.getJacobian s.fn s.parameters).1.rows i *
        llt.solve (enabledList n (enabledAfter calls)).length
        (hessOf (moveColumns (enabledList n (enabledAfter calls)) (f.getJacobian s.fn s.parameters).1.e)
          (f.getJacobian s.fn s.parameters).1.rows s.regularization)
        (gradOf (moveColumns (enabledList n (enabledAfter calls)) (f.getJacobian s.fn s.parameters).1.e)
          (f.getJacobian s.fn s.parameters).1.residual (f.getJacobian s.fn s.parameters).1.rows) i := by
    rw [slope_enabled _ hon]
    apply sum_congr rfl
    intro i hi
    have hi := mem_range.1 hi
    congr 1
    · unfold gradOf
      rw [moveColumns_spec (enabledList_sorted _ _) _ hi]
    · rw [hstep, (scatter_spec (enabledList_nodup n _) _ s.delta).1 i hi]
  rw [hsl]
  unfold SubsetSolver.doIteration
  simp only [hl, if_true, hJ, hg.list, neg_neg]
  rw [hstep]
  exact lineSearch_spec f E hE _ _ _ _

/-- **C34** for the QR based solver. -/
theorem C34_qr (fs : List ErrorFunction) (hf : RowsFit fs) (n : Nat) (ps : Nat → Bool) (reg : ℝ) (p : Nat → ℝ)
    (hE : ∀ f ∈ fs, ∀ p, f.getError p = (f.getJacobian p).error) :
    ∃ p' full e e', qrIteration fs n ps reg true p = some (p', e) ∧ qrIteration fs n ps reg false p = some (full, e') ∧
      LineSearchResult (skeletonError fs)
        (fun alpha e => 1 / 10000 * alpha * slopeAlong n (skeletonJacobian fs p) (fun a => p a - full a) ≤
          skeletonError fs p - e) p (fun a => p a - full a) p' := by
  obtain ⟨q, h1, h2⟩ := absorb_run fs n ps (Real.sqrt reg) p
  have herr : ((weighted fs).map fun f => (f.getJacobian p).error).sum = skeletonError fs p := by
    rw [C55_error fs hf p fun f hf => hE f hf p]
    exact (stack_spec (weighted fs) p (rowsFit_weighted hf)).2.1.symm
  rw [herr] at h2
  have hd := absorbCalls_distinct n ps p (weighted fs)
  obtain ⟨hn, -, -, -, hat⟩ := C26_factor _ _ _ (fun c hc => (hd c hc).1) q h1
  refine ⟨(lineSearch (skeletonFunction n fun _ => fs) (fun alpha e => 1 / 10000 * alpha *
      - -∑ i ∈ range (enabledList n ps).length, q.atTimesB i * q.result i ≤ skeletonError fs p - e) p
      (scatter (enabledList n ps) q.result fun _ => 0) ps).1,
    fun a => p a - scatter (enabledList n ps) q.result (fun _ => 0) a, skeletonError fs p, skeletonError fs p, ?_, ?_, ?_⟩
  rotate_left
  · unfold qrIteration
    simp only [h2, Option.bind_eq_bind, Option.bind_some, Bool.false_eq_true, if_false]
    rfl
  rotate_left
  · unfold qrIteration
    simp only [h2, Option.bind_eq_bind, Option.bind_some, if_true]
    rfl
  · simp only [sub_sub_cancel]
    have hon : OnlyEnabled n ps (scatter (enabledList n ps) q.result fun _ => 0) := by
      intro j hj hps
      have hm : j ∉ enabledList n ps := fun h => by
        have := (mem_enabledList.1 h).2
        rw [hps] at this; cases this
      rw [(scatter_spec (enabledList_nodup n _) _ _).2 j hm]
    have hsl : slopeAlong n (skeletonJacobian fs p) (scatter (enabledList n ps) q.result fun _ => 0) =
        ∑ i ∈ range (enabledList n ps).length, q.atTimesB i * q.result i := by
      rw [slope_enabled _ hon]
      apply sum_congr rfl
      intro i hi
      have hi := mem_range.1 hi
      rw [(scatter_spec (enabledList_nodup n _) _ _).1 i hi, hat i hi]
      congr 1
      unfold gradOf
      rw [C55_stack fs hf p (fun a b => b * a ((enabledList n ps).getD i 0)) (by simp)]
      unfold normalRhs history absorbCalls
      induction weighted fs with
      | nil => rfl
      | cons f l ih =>
        rw [List.filterMap_cons, List.map_cons, List.sum_cons, ih]
        by_cases h : (f.getJacobian p).rows = 0
        · simp [h]
        · simp only [h, if_false, List.map_cons, List.sum_cons]
          congr 1
          exact sum_congr rfl fun t _ => mul_comm _ _
    rw [hsl]
    simp only [neg_neg]
    exact lineSearch_spec _ _ (fun _ _ => rfl) _ _ _ _

/-- **C33** for the QR based solver, with or without line search. -/
theorem C33_qr (fs : List ErrorFunction) (n : Nat) (ps : Nat → Bool) (reg : ℝ) (ls : Bool) (p p' : Nat → ℝ) (e : ℝ)
    (h : qrIteration fs n ps reg ls p = some (p', e)) (i : Nat) (hd : ps i = false) : p' i = p i := by
  obtain ⟨q, -, h2⟩ := absorb_run fs n ps (Real.sqrt reg) p
  have hm : i ∉ enabledList n ps := fun h => by
    have := (mem_enabledList.1 h).2
    rw [hd] at this; cases this
  have hz := (scatter_spec (enabledList_nodup n ps) q.result fun _ => 0).2 i hm
  unfold qrIteration at h
  simp only [h2, Option.bind_eq_bind, Option.bind_some] at h
  split at h
  · have h := Option.some.inj h
    obtain ⟨a, ha⟩ := lineSearch_along (skeletonFunction n fun _ => fs) (fun alpha e => 1 / 10000 * alpha *
      - -∑ i ∈ range (enabledList n ps).length, q.atTimesB i * q.result i ≤
        ((weighted fs).map fun f => (f.getJacobian p).error).sum - e) p
      (scatter (enabledList n ps) q.result fun _ => 0) ps
    have h1 := congrFun (congrArg Prod.fst h) i
    dsimp only at h1
    rw [← h1, ha]
    show _ - a * _ = _
    rw [hz, mul_zero, sub_zero]
  · have h := Option.some.inj h
    have h1 := congrFun (congrArg Prod.fst h) i
    dsimp only at h1
    rw [← h1]
    show p i - _ = _
    rw [hz, sub_zero]

/-- A Cholesky solver as assumed exists: the inverse matrix will do. -/
theorem Llt.nonempty : Nonempty Llt := by
  refine ⟨⟨fun n H g j => if h : j < n then
    ((Matrix.of fun i k : Fin n => H i k)⁻¹.mulVec fun i : Fin n => g i) ⟨j, h⟩ else 0, ?_⟩⟩
  intro n H g hH i hi
  have hdet : (Matrix.of fun i k : Fin n => H i k).det ≠ 0 := by
    intro h0
    obtain ⟨v, hv, hz⟩ := Matrix.exists_mulVec_eq_zero_iff.2 h0
    obtain ⟨j, hj⟩ := Function.ne_iff.1 hv
    have := hH.2 (fun k => if h : k < n then v ⟨k, h⟩ else 0) ⟨j, j.2, by simpa using hj⟩
    apply this.ne'
    apply sum_eq_zero
    intro i hi
    have hi := mem_range.1 hi
    have hz := congrFun hz ⟨i, hi⟩
    simp only [Matrix.mulVec, dotProduct, Matrix.of_apply, Pi.zero_apply] at hz
    rw [Finset.sum_range]
    simp only [hi, dif_pos, Fin.is_lt, Fin.eta, mul_assoc]
    rw [← mul_sum, hz, mul_zero]
  have hu : IsUnit (Matrix.of fun i k : Fin n => H i k).det := isUnit_iff_ne_zero.2 hdet
  rw [Finset.sum_range]
  simp only [Fin.is_lt, dif_pos, Fin.eta]
  have := congrFun (show (Matrix.of fun i k : Fin n => H i k).mulVec
    ((Matrix.of fun i k : Fin n => H i k)⁻¹.mulVec fun i : Fin n => g i) = fun i : Fin n => g i by
      rw [Matrix.mulVec_mulVec, Matrix.mul_nonsing_inv _ hu, Matrix.one_mulVec]) ⟨i, hi⟩
  simpa only [Matrix.mulVec, dotProduct, Matrix.of_apply] using this

end Momentum
