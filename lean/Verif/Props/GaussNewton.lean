import Verif.Lemmas.Solver
import Verif.Props.Solver
import Verif.Props.HouseholderQr

/-!
# C33, C34, C54, C55: the Gauss-Newton solvers
-/

namespace Momentum
open Finset

/-! ## Line search moves only along the step -/

theorem lineSearchLoop_along {S : Type} (f : SolverFunction S) (accept : ℝ → ℝ → Prop) (orig delta : Nat → ℝ)
    (k : Nat) : ∀ (alpha : ℝ) (cur : Nat → ℝ) (s : S), (∃ a, cur = fun i => orig i - a * delta i) →
      ∃ a, (lineSearchLoop f accept orig delta k alpha cur s).1 = fun i => orig i - a * delta i := by
  induction k with
  | zero => intro alpha cur s h; exact h
  | succ k ih =>
    intro alpha cur s _
    rw [lineSearchLoop]
    split
    · exact ⟨alpha, rfl⟩
    · exact ih _ _ _ ⟨alpha, rfl⟩

theorem lineSearch_along {S : Type} (f : SolverFunction S) (accept : ℝ → ℝ → Prop) (orig delta : Nat → ℝ) (s : S) :
    ∃ a, (lineSearch f accept orig delta s).1 = fun i => orig i - a * delta i :=
  lineSearchLoop_along f accept orig delta 10 1 orig s ⟨0, by simp⟩

/-! ## C33 -/

/-- The invariant of the subset solver: the list matches the set, and the stored step is zero off the list. -/
structure SubsetSolver.Good {S : Type} (s : SubsetSolver S) (n : Nat) (ps : Nat → Bool) : Prop where
  num : s.numParameters = n
  active : s.active = ps
  list : s.enabledParameters = enabledList n ps
  zero : ∀ j, j ∉ enabledList n ps → s.delta j = 0

theorem Good_update {S : Type} (s : SubsetSolver S) :
    s.updateEnabledParameters.Good s.numParameters s.active :=
  ⟨rfl, rfl, rfl, fun _ _ => rfl⟩

theorem Good_iteration {S : Type} (f : SolverFunction S) (llt : Llt) {s : SubsetSolver S} {n : Nat} {ps : Nat → Bool}
    (h : s.Good n ps) : ((s.doIteration f llt).1).Good n ps ∧
      ∀ j, j ∉ enabledList n ps → (s.doIteration f llt).1.parameters j = s.parameters j := by
  have hz : ∀ sub, ∀ j, j ∉ enabledList n ps → scatter s.enabledParameters sub s.delta j = 0 := by
    intro sub j hj
    rw [h.list, (scatter_spec (enabledList_nodup n ps) sub s.delta).2 j hj, h.zero j hj]
  unfold SubsetSolver.doIteration
  dsimp only
  split
  · refine ⟨⟨h.num, h.active, h.list, hz _⟩, fun j hj => ?_⟩
    dsimp only
    obtain ⟨a, ha⟩ := lineSearch_along f (fun alpha e => (1 / 10000) * alpha * - -∑ i ∈ range s.enabledParameters.length,
      gradOf (moveColumns s.enabledParameters (f.getJacobian s.fn s.parameters).1.e)
        (f.getJacobian s.fn s.parameters).1.residual (f.getJacobian s.fn s.parameters).1.rows i *
      llt.solve s.enabledParameters.length
        (hessOf (moveColumns s.enabledParameters (f.getJacobian s.fn s.parameters).1.e)
          (f.getJacobian s.fn s.parameters).1.rows s.regularization)
        (gradOf (moveColumns s.enabledParameters (f.getJacobian s.fn s.parameters).1.e)
          (f.getJacobian s.fn s.parameters).1.residual (f.getJacobian s.fn s.parameters).1.rows) i ≤
        (f.getJacobian s.fn s.parameters).1.error - e) s.parameters
      (scatter s.enabledParameters (llt.solve s.enabledParameters.length
        (hessOf (moveColumns s.enabledParameters (f.getJacobian s.fn s.parameters).1.e)
          (f.getJacobian s.fn s.parameters).1.rows s.regularization)
        (gradOf (moveColumns s.enabledParameters (f.getJacobian s.fn s.parameters).1.e)
          (f.getJacobian s.fn s.parameters).1.residual (f.getJacobian s.fn s.parameters).1.rows)) s.delta)
      (f.getJacobian s.fn s.parameters).2
    rw [ha]
    show _ - a * _ = _
    rw [hz _ j hj, mul_zero, sub_zero]
  · refine ⟨⟨h.num, h.active, h.list, hz _⟩, fun j hj => ?_⟩
    show s.parameters j - _ = _
    rw [hz _ j hj, sub_zero]

theorem Good_stateAfter {S : Type} (f : SolverFunction S) (llt : Llt) {s : SubsetSolver S} {n : Nat} {ps : Nat → Bool}
    (h : s.Good n ps) (k : Nat) : (stateAfter (SubsetSolver.doIteration f llt) s k).Good n ps ∧
      ∀ j, j ∉ enabledList n ps → (stateAfter (SubsetSolver.doIteration f llt) s k).parameters j = s.parameters j := by
  induction k with
  | zero => exact ⟨h, fun _ _ => rfl⟩
  | succ k ih =>
    rw [stateAfter_succ]
    obtain ⟨a, b⟩ := Good_iteration f llt ih.1
    exact ⟨a, fun j hj => by rw [b j hj, ih.2 j hj]⟩

theorem Good_solve {S : Type} (f : SolverFunction S) (llt : Llt) {s : SubsetSolver S} {n : Nat} {ps : Nat → Bool}
    (h : s.Good n ps) (params : Nat → ℝ) : (s.solve f llt params).1.Good n ps ∧
      ∀ j, j ∉ enabledList n ps → (s.solve f llt params).2.1 j = params j := by
  obtain ⟨k, -, -, h3, -⟩ := C32_iterations s.options (SubsetSolver.doIteration f llt) { s with parameters := params }
  unfold SubsetSolver.solve
  dsimp only
  rw [h3]
  exact Good_stateAfter f llt (s := { s with parameters := params }) ⟨h.num, h.active, h.list, h.zero⟩ k

theorem Good_calls {S : Type} (f : SolverFunction S) (llt : Llt) (o : SolverOptions) (reg : ℝ) (ls : Bool) (n : Nat)
    (fn : S) (calls : List SubsetCall) :
    (calls.foldl (SubsetSolver.call f llt) (SubsetSolver.create o reg ls n fn)).Good n (enabledAfter calls) := by
  induction calls using List.reverseRecOn with
  | nil => exact Good_update ⟨o, reg, ls, n, fun _ => true, [], fun _ => 0, fun _ => 0, fn⟩
  | append_singleton calls c ih =>
    rw [List.foldl_append, List.foldl_cons, List.foldl_nil]
    have he : enabledAfter (calls ++ [c]) =
        (match c with | .setEnabled ps => ps | _ => enabledAfter calls) := by
      unfold enabledAfter; rw [List.foldl_append]; rfl
    cases c with
    | setEnabled ps =>
      rw [he]
      have := Good_update ({ calls.foldl (SubsetSolver.call f llt) (SubsetSolver.create o reg ls n fn) with
        active := ps, fn := f.setEnabled (calls.foldl (SubsetSolver.call f llt)
          (SubsetSolver.create o reg ls n fn)).fn ps })
      rw [ih.num] at this
      exact this
    | setOptions o' r l => rw [he]; exact ⟨ih.num, ih.active, ih.list, ih.zero⟩
    | solve p => rw [he]; exact (Good_solve f llt ih p).1

/-- **C33.**  Whatever was called before on the solver (options, enabled sets, other solves), with or without line
search and for any number of iterations, `solve` hands back every disabled parameter as it was. -/
theorem C33_subset {S : Type} (f : SolverFunction S) (llt : Llt) (o : SolverOptions) (reg : ℝ) (ls : Bool) (n : Nat)
    (fn : S) (calls : List SubsetCall) (params : Nat → ℝ) (i : Nat) (hd : enabledAfter calls i = false) :
    ((calls.foldl (SubsetSolver.call f llt) (SubsetSolver.create o reg ls n fn)).solve f llt params).2.1 i =
      params i :=
  (Good_solve f llt (Good_calls f llt o reg ls n fn calls) params).2 i fun h => by
    have := (mem_enabledList.1 h).2
    rw [hd] at this; cases this

/-! ## The three steps -/

theorem lsCost_congr {m rows : Nat} {A A' : Nat → Nat → ℝ} {b : Nat → ℝ} {reg : ℝ} {x x' : Nat → ℝ}
    (hA : ∀ j < m, A j = A' j) (hx : ∀ j < m, x j = x' j) : lsCost m rows A b reg x = lsCost m rows A' b reg x' := by
  unfold lsCost
  congr 1
  · apply sum_congr rfl
    intro t _
    rw [sum_congr rfl fun j hj => by rw [hA j (mem_range.1 hj), hx j (mem_range.1 hj)]]
  · rw [sum_congr rfl fun j hj => by rw [hx j (mem_range.1 hj)]]

/-- The cost over all parameters is the cost over the enabled ones. -/
theorem stepCost_enabled {n : Nat} {ps : Nat → Bool} (J : JacobianResult) (reg : ℝ) {d : Nat → ℝ}
    (hd : OnlyEnabled n ps d) :
    stepCost n J reg d = lsCost (enabledList n ps).length J.rows (fun i => J.e ((enabledList n ps).getD i 0)) J.residual
      reg (fun i => d ((enabledList n ps).getD i 0)) := by
  unfold stepCost lsCost
  congr 1
  · apply sum_congr rfl
    intro t _
    rw [sum_enabled n ps (fun j => J.e j t * d j) fun j hj h => by rw [hd j hj h, mul_zero]]
  · rw [sum_enabled n ps (fun j => d j ^ 2) fun j hj h => by rw [hd j hj h]; ring]

/-- A minimiser over the enabled parameters, put back in place, is the Gauss-Newton step. -/
theorem step_of_sub {n : Nat} {ps : Nat → Bool} {J : JacobianResult} {reg : ℝ} {sub full : Nat → ℝ}
    (hf : ∀ j, j ∉ enabledList n ps → full j = 0)
    (hmin : ∀ x', lsCost (enabledList n ps).length J.rows (fun i => J.e ((enabledList n ps).getD i 0)) J.residual reg sub ≤
        lsCost (enabledList n ps).length J.rows (fun i => J.e ((enabledList n ps).getD i 0)) J.residual reg x' ∧
      (lsCost (enabledList n ps).length J.rows (fun i => J.e ((enabledList n ps).getD i 0)) J.residual reg x' ≤
        lsCost (enabledList n ps).length J.rows (fun i => J.e ((enabledList n ps).getD i 0)) J.residual reg sub →
        ∀ j < (enabledList n ps).length, x' j = sub j)) :
    IsGaussNewtonStep n ps J reg (scatter (enabledList n ps) sub full) := by
  obtain ⟨h1, h2⟩ := scatter_spec (enabledList_nodup n ps) sub full
  have hon : OnlyEnabled n ps (scatter (enabledList n ps) sub full) := by
    intro j hj hps
    have : j ∉ enabledList n ps := fun h => by
      have := (mem_enabledList.1 h).2
      rw [hps] at this; cases this
    rw [h2 j this, hf j this]
  refine ⟨hon, fun d' hd' => ?_⟩
  rw [stepCost_enabled J reg hon, stepCost_enabled J reg hd',
    lsCost_congr (fun _ _ => rfl) (x := fun i => scatter (enabledList n ps) sub full ((enabledList n ps).getD i 0))
      (x' := sub) h1]
  obtain ⟨m1, m2⟩ := hmin fun i => d' ((enabledList n ps).getD i 0)
  refine ⟨m1, fun hle j hj => ?_⟩
  by_cases hps : ps j = true
  · obtain ⟨i, hi, rfl⟩ : ∃ i < (enabledList n ps).length, (enabledList n ps).getD i 0 = j := by
      obtain ⟨i, hi, he⟩ := List.getElem_of_mem (mem_enabledList.2 ⟨hj, hps⟩)
      exact ⟨i, hi, by rw [List.getD_eq_getElem?_getD, List.getElem?_eq_getElem hi, Option.getD_some, he]⟩
    rw [m2 hle i hi, h1 i hi]
  · have hps : ps j = false := by simpa using hps
    rw [hd' j hj hps, hon j hj hps]

theorem IsGaussNewtonStep.unique {n : Nat} {ps : Nat → Bool} {J : JacobianResult} {reg : ℝ} {d d' : Nat → ℝ}
    (h : IsGaussNewtonStep n ps J reg d) (h' : IsGaussNewtonStep n ps J reg d') : ∀ j < n, d' j = d j :=
  (h.2 d' h'.1).2 (h'.2 d h.1).1

/-- **C54** the subset solver: without line search it moves the parameters by the regularised least squares step of the
enabled parameters, whatever was called before. -/
theorem C54_subset {S : Type} (f : SolverFunction S) (llt : Llt) (o : SolverOptions) (reg : ℝ) (ls : Bool) (n : Nat)
    (fn : S) (calls : List SubsetCall) (params : Nat → ℝ) :
    let s := { calls.foldl (SubsetSolver.call f llt) (SubsetSolver.create o reg ls n fn) with
      parameters := params, doLineSearch := false }
    0 < s.regularization →
    IsGaussNewtonStep n (enabledAfter calls) (f.getJacobian s.fn params).1 s.regularization
      (fun a => params a - (s.doIteration f llt).1.parameters a) := by
  intro s hreg
  have hg : s.Good n (enabledAfter calls) := by
    have := Good_calls f llt o reg ls n fn calls
    exact ⟨this.num, this.active, this.list, this.zero⟩
  have hp : s.parameters = params := rfl
  have hl : s.doLineSearch = false := rfl
  clear_value s
  subst hp
  have he : (fun a => s.parameters a - (s.doIteration f llt).1.parameters a) =
      scatter (enabledList n (enabledAfter calls)) (llt.solve (enabledList n (enabledAfter calls)).length
        (hessOf (moveColumns (enabledList n (enabledAfter calls)) (f.getJacobian s.fn s.parameters).1.e)
          (f.getJacobian s.fn s.parameters).1.rows s.regularization)
        (gradOf (moveColumns (enabledList n (enabledAfter calls)) (f.getJacobian s.fn s.parameters).1.e)
          (f.getJacobian s.fn s.parameters).1.residual (f.getJacobian s.fn s.parameters).1.rows)) s.delta := by
    unfold SubsetSolver.doIteration
    simp only [hl, Bool.false_eq_true, if_false, SolverFunction.updateParameters, sub_sub_cancel, hg.list]
  rw [he]
  have hmove : ∀ i < (enabledList n (enabledAfter calls)).length,
      moveColumns (enabledList n (enabledAfter calls)) (f.getJacobian s.fn s.parameters).1.e i =
      (f.getJacobian s.fn s.parameters).1.e ((enabledList n (enabledAfter calls)).getD i 0) :=
    fun i hi => moveColumns_spec (enabledList_sorted _ _) _ hi
  apply step_of_sub hg.zero
  intro x'
  rw [← lsCost_congr hmove (fun _ _ => rfl), ← lsCost_congr hmove (fun _ _ => rfl)]
  exact normal_minimises hreg (llt.spec _ _ _ (hess_spd _ _ _ hreg)) x'

/-- What `setEnabledParameters` of a solver function promises: the enabled parameters are among the first
`actualParameters`, and the disabled ones of these have no derivative. -/
def RespectsEnabled {S : Type} (f : SolverFunction S) (s : S) (n : Nat) (ps : Nat → Bool) (p : Nat → ℝ) : Prop :=
  f.actualParameters s ≤ n ∧ (∀ j < n, ps j = true → j < f.actualParameters s) ∧
  ∀ j < f.actualParameters s, ps j = false → ∀ t < (f.getJacobian s p).1.rows, (f.getJacobian s p).1.e j t = 0

theorem gaussNewton_step {S : Type} (f : SolverFunction S) (llt : Llt) (s : S) {n : Nat} {ps : Nat → Bool} {reg : ℝ}
    {p : Nat → ℝ} (hreg : 0 < reg) (hf : RespectsEnabled f s n ps p) :
    IsGaussNewtonStep n ps (f.getJacobian s p).1 reg (fun i => if i < f.actualParameters s then
      llt.solve (f.actualParameters s) (hessOf (f.getJacobian s p).1.e (f.getJacobian s p).1.rows reg)
        (gradOf (f.getJacobian s p).1.e (f.getJacobian s p).1.residual (f.getJacobian s p).1.rows) i else 0) := by
  obtain ⟨h1, h2, h3⟩ := hf
  generalize f.actualParameters s = m at *
  generalize (f.getJacobian s p).1 = J at *
  have hx := llt.spec m (hessOf J.e J.rows reg) (gradOf J.e J.residual J.rows) (hess_spd m J.rows J.e hreg)
  generalize llt.solve m (hessOf J.e J.rows reg) (gradOf J.e J.residual J.rows) = x at *
  have hon : OnlyEnabled n ps (fun i => if i < m then x i else 0) := by
    intro j hj hps
    show (if j < m then x j else 0) = 0
    split
    case isFalse => rfl
    case isTrue hjm =>
      have := hx j hjm
      rw [hess_apply _ _ _ _ _ hjm] at this
      unfold gradOf at this
      rw [sum_eq_zero (s := range J.rows) (f := fun t => J.residual t * J.e j t)
          fun t ht => by rw [h3 j hjm hps t (mem_range.1 ht), mul_zero],
        sum_eq_zero fun t ht => by rw [h3 j hjm hps t (mem_range.1 ht), zero_mul], zero_add] at this
      exact (mul_eq_zero.1 this).resolve_left hreg.ne'
  have hcost : ∀ d, OnlyEnabled n ps d → stepCost n J reg d = lsCost m J.rows J.e J.residual reg d := by
    intro d hd
    have hz : ∀ j ∈ range n, j ∉ range m → d j = 0 := by
      intro j hj hjm
      have hj := mem_range.1 hj
      apply hd j hj
      by_contra h
      exact hjm (mem_range.2 (h2 j hj (by simpa using h)))
    have hsub : range m ⊆ range n := range_subset_range.2 h1
    unfold stepCost lsCost
    congr 1
    · apply sum_congr rfl
      intro t _
      rw [sum_subset hsub fun j hj hjm => by rw [hz j hj hjm, mul_zero]]
    · rw [sum_subset hsub fun j hj hjm => by rw [hz j hj hjm]; ring]
  refine ⟨hon, fun d' hd' => ?_⟩
  rw [hcost _ hon, hcost _ hd', lsCost_congr (fun _ _ => rfl) (x := fun i => if i < m then x i else 0) (x' := x)
    fun j hj => if_pos hj]
  obtain ⟨m1, m2⟩ := normal_minimises hreg hx d'
  refine ⟨m1, fun hle j hj => ?_⟩
  show d' j = if j < m then x j else 0
  by_cases hjm : j < m
  · rw [if_pos hjm, m2 hle j hjm]
  · rw [if_neg hjm]
    apply hd' j hj
    by_contra h
    exact hjm (h2 j hj (by simpa using h))

/-- **C54** the Gauss-Newton solver (dense, from the Jacobian) takes the same step. -/
theorem C54_gauss_newton {S : Type} (f : SolverFunction S) (llt : Llt) (s : GaussNewton S) (ps : Nat → Bool)
    (hreg : 0 < s.regularization) (hl : s.doLineSearch = false)
    (hf : RespectsEnabled f s.fn s.numParameters ps s.parameters) :
    IsGaussNewtonStep s.numParameters ps (f.getJacobian s.fn s.parameters).1 s.regularization
      (fun a => s.parameters a - (s.doIteration f llt).1.parameters a) := by
  have := gaussNewton_step f llt s.fn hreg hf
  unfold GaussNewton.doIteration
  simpa only [hl, Bool.false_eq_true, if_false, SolverFunction.updateParameters, sub_sub_cancel] using this

/-- **C33** for the Gauss-Newton solver, with or without line search: a parameter that is disabled does not move, if the
solver function has no derivative for it. -/
theorem C33_gauss_newton {S : Type} (f : SolverFunction S) (llt : Llt) (s : GaussNewton S) (ps : Nat → Bool)
    (hreg : 0 < s.regularization) (hf : RespectsEnabled f s.fn s.numParameters ps s.parameters) (i : Nat)
    (hi : i < s.numParameters) (hd : ps i = false) : (s.doIteration f llt).1.parameters i = s.parameters i := by
  have h := (gaussNewton_step f llt s.fn hreg hf).1 i hi hd
  dsimp only at h
  unfold GaussNewton.doIteration
  dsimp only
  split
  · obtain ⟨a, ha⟩ := lineSearch_along f (fun alpha e =>
        alpha * ((1 / 1000) * (f.getJacobian s.fn s.parameters).1.error) ≤
          (f.getJacobian s.fn s.parameters).1.error - e) s.parameters
      (fun i => if i < f.actualParameters s.fn then llt.solve (f.actualParameters s.fn)
        (hessOf (f.getJacobian s.fn s.parameters).1.e (f.getJacobian s.fn s.parameters).1.rows s.regularization)
        (gradOf (f.getJacobian s.fn s.parameters).1.e (f.getJacobian s.fn s.parameters).1.residual
          (f.getJacobian s.fn s.parameters).1.rows) i else 0) (f.getJacobian s.fn s.parameters).2
    dsimp only
    rw [ha]
    show _ - a * _ = _
    rw [h, mul_zero, sub_zero]
  · show s.parameters i - _ = _
    dsimp only
    rw [h, sub_zero]

end Momentum
