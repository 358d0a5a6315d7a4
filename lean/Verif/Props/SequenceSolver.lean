import Verif.Lemmas.SequenceSolver4
import Verif.Spec.SequenceSolver
import Verif.Spec.Solver
import Verif.Props.SkeletonFunction

/-!
# C65: an iteration of the sequence solver
-/

namespace Momentum
open Finset

/-- The Jacobian and residual of the whole sequence at the solver's parameters, as `getJacobian` of the sequence reports them
into new matrices (C62). -/
noncomputable def SequenceSolver.jacobian (s : SequenceSolver) : JacobianResult :=
  (SequenceFunction.solverFunction.getJacobian s.fn s.parameters).1

/-- What an iteration relies on: the parameter sets were made by `setEnabledParameters`, the sequence error functions stay inside the sequence,
Jacobians fit into the rows announced, there is a per-frame parameter, and `initializeSolver` was called. -/
structure SequenceSolver.Ready (s : SequenceSolver) (active : Nat → Bool) : Prop where
  sets : s.fn.Sets active
  inside : s.fn.Inside
  rows : s.fn.RowsFit s.parameters
  perFrame : s.fn.perFrame ≠ []
  bandwidth : s.bandwidth = s.fn.bandwidth
  regularization : 0 ≤ s.regularization

namespace SequenceSolver
variable {s : SequenceSolver} {active : Nat → Bool}

theorem zero_fresh (S : SequenceFunction) :
    (⟨0, 0, fun _ _ => 0, fun _ => 0⟩ : SequenceFunction.Buffers).Fresh S := Or.inl ⟨fun _ _ => rfl, fun _ => rfl⟩

theorem num_eq (s : SequenceSolver) :
    s.fn.nFrames * s.fn.perFrame.length + s.fn.universal.length = s.fn.numParameters := by
  unfold SequenceFunction.numParameters
  rw [Nat.mul_comm]

/-- Sums over the rows of the calls are sums over the rows of the Jacobian. -/
theorem Ready.sum (h : s.Ready active) {φ : (Nat → ℝ) → ℝ → ℝ} (h0 : φ (fun _ => 0) 0 = 0)
    (hφ : SequenceFunction.LooksAt s.fn.numParameters φ) :
    SequenceFunction.histSum φ (bandHistory (s.fn.nFrames * s.fn.perFrame.length) (s.fn.allCalls s.parameters)) =
      ∑ t ∈ range s.jacobian.rows, φ (fun j => s.jacobian.e j t) (s.jacobian.residual t) :=
  SequenceFunction.allCalls_sum h.sets h.inside h.rows (zero_fresh s.fn) h0 (by rw [num_eq]; exact hφ)

theorem Ready.objective (h : s.Ready active) (x : Nat → ℝ) :
    Momentum.objective s.fn.numParameters (Real.sqrt s.regularization)
      (bandHistory (s.fn.nFrames * s.fn.perFrame.length) (s.fn.allCalls s.parameters)) x =
      dampedSquares s.fn.numParameters s.regularization s.jacobian x := by
  rw [SequenceFunction.objective_hist, h.sum, Real.sq_sqrt h.regularization]
  · rfl
  · simp
  · intro a a' b hab
    dsimp only
    rw [sum_congr rfl fun j hj => by rw [hab j (mem_range.1 hj)]]

theorem Ready.rhs (h : s.Ready active) {j : Nat} (hj : j < s.fn.numParameters) :
    normalRhs (bandHistory (s.fn.nFrames * s.fn.perFrame.length) (s.fn.allCalls s.parameters)) j =
      ∑ t ∈ range s.jacobian.rows, s.jacobian.e j t * s.jacobian.residual t := by
  rw [SequenceFunction.rhs_hist, h.sum]
  · simp
  · intro a a' b hab
    dsimp only
    rw [hab j hj]

theorem Ready.fullRank (h : s.Ready active) (hd : Determined s.fn.numParameters s.regularization s.jacobian) :
    FullRank s.fn.numParameters (Real.sqrt s.regularization)
      (bandHistory (s.fn.nFrames * s.fn.perFrame.length) (s.fn.allCalls s.parameters)) := by
  rcases hd with hd | hd
  · exact C27_regularised _ _ (Real.sqrt_pos.2 hd).ne' _
  · intro x _ hx
    apply hd x
    have key := h.sum (φ := fun a _ => (∑ j ∈ range s.fn.numParameters, a j * x j) ^ 2) (by simp) (by
      intro a a' b hab
      dsimp only
      rw [sum_congr rfl fun j hj => by rw [hab j (mem_range.1 hj)]])
    have hz : SequenceFunction.histSum (fun a _ => (∑ j ∈ range s.fn.numParameters, a j * x j) ^ 2)
        (bandHistory (s.fn.nFrames * s.fn.perFrame.length) (s.fn.allCalls s.parameters)) = 0 := by
      unfold SequenceFunction.histSum
      apply List.sum_eq_zero
      intro y hy
      obtain ⟨r, hr, rfl⟩ := List.mem_map.1 hy
      apply sum_eq_zero
      intro t ht
      show (∑ j ∈ range s.fn.numParameters, r.a t j * x j) ^ 2 = 0
      rw [hx r hr t (mem_range.1 ht)]
      ring
    rw [hz] at key
    have := (sum_eq_zero_iff_of_nonneg fun t _ => sq_nonneg _).1 key.symm
    intro t ht
    exact pow_eq_zero_iff (two_ne_zero) |>.1 (this t (mem_range.2 ht))

/-- The system and its solution. -/
theorem Ready.solved (h : s.Ready active) (hd : Determined s.fn.numParameters s.regularization s.jacobian) :
    ∃ q x y, s.assemble none = some (q, s.jacobian.error) ∧ q.xDense = some x ∧ q.atTimesB = some y ∧
      q.nBand + q.nCommon = s.fn.numParameters ∧
      OnlyMinimiser s.fn.numParameters s.regularization s.jacobian x ∧
      ∀ j < s.fn.numParameters, y j = ∑ t ∈ range s.jacobian.rows, s.jacobian.e j t * s.jacobian.residual t := by
  obtain ⟨q, h1, h2⟩ := SequenceFunction.assemble_spec s h.sets h.inside h.rows h.perFrame h.bandwidth (zero_fresh s.fn)
  have hfit := SequenceFunction.allCalls_fit h.sets s.parameters
  have hord := SequenceFunction.allCalls_ordered s.fn s.parameters
  have hbw : 0 < s.fn.bandwidth * s.fn.perFrame.length :=
    Nat.mul_pos (SequenceFunction.bandwidth_ge s.fn).1 (List.length_pos_iff.2 h.perFrame)
  have hf := h.fullRank hd
  obtain ⟨q', x, e1, e2, e3⟩ := C28_banded_minimiser_partial _ _ _ hbw (Real.sqrt s.regularization) _ hfit hord
    (by rw [num_eq]; exact hf)
  obtain ⟨q'', e4, -, -, -, y, e5, e6⟩ := C28_banded_partial _ _ _ hbw (Real.sqrt s.regularization) _ hfit hord
  obtain ⟨q''', e7, n1, n2, -⟩ := bandRun_inv hbw (lambda := Real.sqrt s.regularization) hfit hord
  rw [h2] at e1 e4 e7
  obtain rfl := Option.some.inj e1
  obtain rfl := Option.some.inj e4
  obtain rfl := Option.some.inj e7
  rw [num_eq] at e3 e6
  refine ⟨q, x, y, h1, e2, e5, by rw [n1, n2, num_eq], fun z => ?_, fun j hj => (e6 j hj).trans (h.rhs hj)⟩
  have := e3 z
  rwa [h.objective, h.objective] at this

/-- The step of an iteration without line search. -/
theorem Ready.step (h : s.Ready active) (hd : Determined s.fn.numParameters s.regularization s.jacobian)
    (hl : s.doLineSearch = false) : ∃ d, s.doIteration none = some ({ s with
      parameters := fun j => s.parameters j - d j
      fn := (s.fn.setJoined s.parameters).setJoined fun j => s.parameters j - d j }, s.jacobian.error) ∧
      OnlyMinimiser s.fn.numParameters s.regularization s.jacobian d := by
  obtain ⟨q, x, y, h1, h2, h3, h4, h5, h6⟩ := h.solved hd
  refine ⟨x, ?_, h5⟩
  unfold doIteration
  rw [h1]
  show (do let searchDir ← q.xDense; _) = _
  rw [h2]
  show (if s.doLineSearch then _ else _) = _
  rw [hl]
  rfl

theorem setJoined_setJoined {S : SequenceFunction} (h : S.Sets active) (v w : Nat → ℝ) :
    (S.setJoined v).setJoined w = S.setJoined w := by
  have hS : (S.setJoined v).Sets active := ⟨h.perFrame, h.universal, h.perFrameSorted, h.universalSorted⟩
  have : ((S.setJoined v).setJoined w).frames = (S.setJoined w).frames := by
    funext f i
    obtain ⟨a1, a2⟩ := SequenceFunction.setJoined_frames hS w f i
    obtain ⟨b1, b2⟩ := SequenceFunction.setJoined_frames h w f i
    obtain ⟨-, c2⟩ := SequenceFunction.setJoined_frames h v f i
    by_cases hx : ∃ j, S.StandsFor j f i
    · obtain ⟨j, hj⟩ := hx
      rw [a1 j hj, b1 j hj]
    · have hx' : ∀ j, ¬ S.StandsFor j f i := fun j hj => hx ⟨j, hj⟩
      rw [a2 hx', b2 hx', c2 hx']
  unfold SequenceFunction.setJoined at this ⊢
  dsimp only at this ⊢
  rw [this]

/-- **C65 (step).**  An iteration without line search subtracts from the joined parameters the only minimiser of
`ρ |d|² + |J d - r|²` for the Jacobian and residual of the whole sequence, and reports the error before the step.  Afterwards
the parameters of the frames are those of the new joined vector. -/
theorem C65_step (h : s.Ready active) (hd : Determined s.fn.numParameters s.regularization s.jacobian)
    (hl : s.doLineSearch = false) : ∃ s' d, s.doIteration none = some (s', s.jacobian.error) ∧
      OnlyMinimiser s.fn.numParameters s.regularization s.jacobian d ∧
      (∀ j, s'.parameters j = s.parameters j - d j) ∧ s'.fn = s.fn.setJoined s'.parameters := by
  obtain ⟨d, h1, h2⟩ := h.step hd hl
  exact ⟨_, d, h1, h2, fun _ => rfl, setJoined_setJoined h.sets _ _⟩

/-- The line search of a function whose error does not depend on what happened before. -/
theorem lineSearchLoop_inv {State : Type} (f : SolverFunction State) (I : State → Prop) (E : (Nat → ℝ) → ℝ)
    (hE : ∀ s, I s → ∀ p, (f.getError s p).1 = E p) (hU : ∀ s, I s → ∀ p, I (f.afterUpdate s p))
    (hG : ∀ s, I s → ∀ p, I (f.getError s p).2) (accept : ℝ → ℝ → Prop) (orig delta : Nat → ℝ) (k : Nat) :
    ∀ (i : Nat) (cur : Nat → ℝ) (s : State), I s →
      ∃ j, i ≤ j ∧ j ≤ i + k ∧
        (lineSearchLoop f accept orig delta (k + 1) ((1 / 2) ^ i) cur s).1 =
          (fun a => orig a - (1 / 2) ^ j * delta a) ∧
        (j < i + k → accept ((1 / 2) ^ j) (E fun a => orig a - (1 / 2) ^ j * delta a)) ∧
        ∀ l, i ≤ l → l < j → ¬ accept ((1 / 2) ^ l) (E fun a => orig a - (1 / 2) ^ l * delta a) := by
  induction k with
  | zero =>
    intro i cur s _
    refine ⟨i, le_rfl, le_rfl, ?_, fun h => absurd h (by omega), fun l h h' => absurd h (by omega)⟩
    rw [lineSearchLoop]
    split
    · rfl
    · rw [lineSearchLoop]; rfl
  | succ k ih =>
    intro i cur s hs
    have hs' : I (f.updateParameters s orig fun a => (1 / 2) ^ i * delta a).2 := hU s hs _
    rw [lineSearchLoop]
    rw [hE _ hs']
    by_cases h : accept ((1 / 2) ^ i) (E (f.updateParameters s orig fun a => (1 / 2) ^ i * delta a).1)
    · rw [if_pos h]
      exact ⟨i, le_rfl, by omega, rfl, fun _ => h, fun l h h' => absurd h (by omega)⟩
    · rw [if_neg h, ← pow_succ]
      obtain ⟨j, j1, j2, j3, j4, j5⟩ := ih (i + 1) (f.updateParameters s orig fun a => (1 / 2) ^ i * delta a).1
        (f.getError (f.updateParameters s orig fun a => (1 / 2) ^ i * delta a).2
          (f.updateParameters s orig fun a => (1 / 2) ^ i * delta a).1).2 (hG _ hs' _)
      refine ⟨j, by omega, by omega, j3, fun hj => j4 (by omega), fun l hl hlj => ?_⟩
      by_cases hli : l = i
      · subst hli; exact h
      · exact j5 l (by omega) hlj

theorem lineSearch_inv {State : Type} (f : SolverFunction State) (I : State → Prop) (E : (Nat → ℝ) → ℝ)
    (hE : ∀ s, I s → ∀ p, (f.getError s p).1 = E p) (hU : ∀ s, I s → ∀ p, I (f.afterUpdate s p))
    (hG : ∀ s, I s → ∀ p, I (f.getError s p).2) (accept : ℝ → ℝ → Prop) (orig delta : Nat → ℝ) (s : State) (hs : I s) :
    LineSearchResult E accept orig delta (lineSearch f accept orig delta s).1 := by
  obtain ⟨j, -, j2, j3, j4, j5⟩ := lineSearchLoop_inv f I E hE hU hG accept orig delta 9 0 orig s hs
  rw [pow_zero] at j3
  refine ⟨j, by omega, j3, ?_, fun l hl => j5 l (by omega) hl⟩
  by_cases hj : j = 9
  · exact Or.inr hj
  · have := j4 (by omega)
    unfold lineSearch
    rw [j3]
    exact Or.inl this

theorem minimiser_slope {n : Nat} {rho : ℝ} {J : JacobianResult} {d : Nat → ℝ} (h : OnlyMinimiser n rho J d) :
    slopeAlong n J d = rho * ∑ j ∈ range n, d j ^ 2 + ∑ t ∈ range J.rows, (∑ j ∈ range n, J.e j t * d j) ^ 2 := by
  set A := rho * ∑ j ∈ range n, d j ^ 2 + ∑ t ∈ range J.rows, (∑ j ∈ range n, J.e j t * d j) ^ 2 with hA
  have expand : ∀ c : ℝ, dampedSquares n rho J (fun j => c * d j) =
      c ^ 2 * A - 2 * c * slopeAlong n J d + ∑ t ∈ range J.rows, J.residual t ^ 2 := by
    intro c
    unfold dampedSquares slopeAlong
    rw [hA, mul_add, mul_sum (range J.rows), mul_sum (range J.rows), add_sub_assoc, add_assoc, ← sum_sub_distrib,
      ← sum_add_distrib]
    congr 1
    · rw [mul_left_comm, mul_sum (range n) _ (c ^ 2)]
      congr 1
      exact sum_congr rfl fun j _ => by ring
    · apply sum_congr rfl
      intro t _
      rw [show ∑ j ∈ range n, J.e j t * (c * d j) = c * ∑ j ∈ range n, J.e j t * d j from by
        rw [mul_sum]; exact sum_congr rfl fun j _ => by ring]
      ring
  have hmin : ∀ c : ℝ, A - 2 * slopeAlong n J d ≤ c ^ 2 * A - 2 * c * slopeAlong n J d := by
    intro c
    have h1 := (h fun j => c * d j).1
    have h2 := expand 1
    simp only [one_mul] at h2
    rw [h2, expand c] at h1
    linarith
  by_contra hne
  rcases lt_or_gt_of_ne hne with hlt | hgt
  · -- slope < A
    have h1 := hmin (1 - (A - slopeAlong n J d) / (|A| + 1))
    have hpos : 0 < |A| + 1 := by positivity
    set u := (A - slopeAlong n J d) / (|A| + 1) with hu
    have hu0 : 0 < u := div_pos (by linarith) hpos
    have hue : u * (|A| + 1) = A - slopeAlong n J d := by rw [hu]; field_simp
    have hle := le_abs_self A
    nlinarith [mul_pos hu0 hu0, mul_le_mul_of_nonneg_left hle (mul_pos hu0 hu0).le]
  · have h1 := hmin (1 + (slopeAlong n J d - A) / (|A| + 1))
    have hpos : 0 < |A| + 1 := by positivity
    set u := (slopeAlong n J d - A) / (|A| + 1) with hu
    have hu0 : 0 < u := div_pos (by linarith) hpos
    have hue : u * (|A| + 1) = slopeAlong n J d - A := by rw [hu]; field_simp
    have hle := le_abs_self A
    nlinarith [mul_pos hu0 hu0, mul_le_mul_of_nonneg_left hle (mul_pos hu0 hu0).le]

/-- **C65 (line search).**  With line search the step is that of C65 (step), halved at most nine times: the longest of these
that passes the test, or the shortest.  The test asks for a decrease of the error that is not negative, and is positive unless
the step is zero. -/
theorem C65_line_search (h : s.Ready active) (hd : Determined s.fn.numParameters s.regularization s.jacobian)
    (hl : s.doLineSearch = true) (hE : s.jacobian.error = (s.fn.getError s.parameters).1) :
    ∃ s' d, s.doIteration none = some (s', s.jacobian.error) ∧
      OnlyMinimiser s.fn.numParameters s.regularization s.jacobian d ∧
      LineSearchResult (fun v => (s.fn.getError v).1)
        (fun alpha e => 1 / 10000 * alpha * slopeAlong s.fn.numParameters s.jacobian d ≤
          (s.fn.getError s.parameters).1 - e) s.parameters d s'.parameters ∧
      s'.fn = s.fn.setJoined s'.parameters ∧
      0 ≤ slopeAlong s.fn.numParameters s.jacobian d ∧
      (slopeAlong s.fn.numParameters s.jacobian d = 0 → ∀ j < s.fn.numParameters, d j = 0) := by
  obtain ⟨q, x, y, h1, h2, h3, h4, h5, h6⟩ := h.solved hd
  have hs := minimiser_slope h5
  have hslope : -(-∑ i ∈ range (q.nBand + q.nCommon), y i * x i) = slopeAlong s.fn.numParameters s.jacobian x := by
    rw [neg_neg, h4]
    unfold slopeAlong
    rw [sum_congr rfl fun j hj => by rw [h6 j (mem_range.1 hj)]]
    simp only [sum_mul, mul_sum]
    rw [sum_comm]
    exact sum_congr rfl fun t _ => sum_congr rfl fun j _ => by ring
  have n1 : 0 ≤ ∑ j ∈ range s.fn.numParameters, x j ^ 2 := sum_nonneg fun _ _ => sq_nonneg _
  have n2 : 0 ≤ ∑ t ∈ range s.jacobian.rows, (∑ j ∈ range s.fn.numParameters, s.jacobian.e j t * x j) ^ 2 :=
    sum_nonneg fun _ _ => sq_nonneg _
  have n3 := mul_nonneg h.regularization n1
  let I : SequenceFunction → Prop := fun S => ∀ v, S.setJoined v = s.fn.setJoined v
  have hI : ∀ S, I S → S.Sets active ∧ ∀ v, S.getError v = s.fn.getError v := by
    intro S hS
    have h0 := hS fun _ => 0
    have e1 : S.np = s.fn.np := (congrArg SequenceFunction.np h0 :)
    have e2 : S.perFrame = s.fn.perFrame := (congrArg SequenceFunction.perFrame h0 :)
    have e3 : S.universal = s.fn.universal := (congrArg SequenceFunction.universal h0 :)
    have e4 : S.universalParameters = s.fn.universalParameters := (congrArg SequenceFunction.universalParameters h0 :)
    refine ⟨⟨?_, ?_, ?_, ?_⟩, fun v => ?_⟩
    · rw [e1, e2, e4]; exact h.sets.perFrame
    · rw [e1, e3, e4]; exact h.sets.universal
    · rw [e2]; exact h.sets.perFrameSorted
    · rw [e3]; exact h.sets.universalSorted
    · unfold SequenceFunction.getError
      rw [hS v]
  have hIu : ∀ S, I S → ∀ p, I (S.setJoined p) := fun S hS p v => by
    rw [setJoined_setJoined (hI S hS).1, hS v]
  have hGe : ∀ S, I S → ∀ p, (S.getError p).2 = s.fn.setJoined p := fun S hS p => hS p
  have start : I (s.fn.setJoined s.parameters) := fun v => setJoined_setJoined h.sets _ _
  have hls := lineSearch_inv SequenceFunction.solverFunction I (fun v => (s.fn.getError v).1)
    (fun S hS p => by show (S.getError p).1 = _; rw [(hI S hS).2])
    (fun S hS p => hIu S hS p) (fun S hS p => by
      show I (S.getError p).2
      rw [hGe S hS]
      exact fun v => setJoined_setJoined h.sets _ _)
    (fun alpha e => 1 / 10000 * alpha * slopeAlong s.fn.numParameters s.jacobian x ≤ (s.fn.getError s.parameters).1 - e)
    s.parameters x (s.fn.setJoined s.parameters) start
  set l := lineSearch SequenceFunction.solverFunction (fun alpha e => 1 / 10000 * alpha *
    slopeAlong s.fn.numParameters s.jacobian x ≤ (s.fn.getError s.parameters).1 - e) s.parameters x
    (s.fn.setJoined s.parameters) with hldef
  refine ⟨{ s with parameters := l.1, fn := l.2 }, x, ?_, h5, hls, ?_, by rw [hs]; linarith, fun h0 j hj => ?_⟩
  · unfold doIteration
    rw [h1]
    show (do let searchDir ← q.xDense; _) = _
    rw [h2]
    show (if s.doLineSearch then (do let atb ← q.atTimesB; _) else _) = _
    rw [hl, h3, if_pos rfl]
    simp only [Option.bind_eq_bind, Option.bind_some]
    simp only [hslope, hE]
    rfl
  · -- the private state
    have key : ∀ k alpha cur S, I S → (cur = s.parameters ∧ k ≠ 0 ∨ S = s.fn.setJoined cur) →
        (lineSearchLoop SequenceFunction.solverFunction (fun alpha e => 1 / 10000 * alpha *
          slopeAlong s.fn.numParameters s.jacobian x ≤ (s.fn.getError s.parameters).1 - e) s.parameters x k alpha cur S).2 =
        s.fn.setJoined (lineSearchLoop SequenceFunction.solverFunction (fun alpha e => 1 / 10000 * alpha *
          slopeAlong s.fn.numParameters s.jacobian x ≤ (s.fn.getError s.parameters).1 - e) s.parameters x k alpha cur S).1 := by
      intro k
      induction k with
      | zero =>
        intro alpha cur S hS hc
        rcases hc with hc | hc
        · exact absurd rfl hc.2
        · exact hc
      | succ k ih =>
        intro alpha cur S hS _
        rw [lineSearchLoop]
        have hS' : I (SequenceFunction.solverFunction.updateParameters S s.parameters fun i => alpha * x i).2 := hIu S hS _
        split_ifs with hc
        · exact hGe _ hS' _
        · exact ih _ _ _ (fun v => by
            show ((SequenceFunction.getError _ _).2).setJoined v = _
            rw [hGe _ hS']
            exact setJoined_setJoined h.sets _ _) (Or.inr (hGe _ hS' _))
    exact key 10 1 s.parameters _ start (Or.inl ⟨rfl, by omega⟩)
  · rw [hs] at h0
    have m1 : s.regularization * ∑ j ∈ range s.fn.numParameters, x j ^ 2 = 0 := by linarith
    have m2 : ∑ t ∈ range s.jacobian.rows, (∑ j ∈ range s.fn.numParameters, s.jacobian.e j t * x j) ^ 2 = 0 := by linarith
    rcases hd with hd | hd
    · have := (mul_eq_zero.1 m1).resolve_left hd.ne'
      have := (sum_eq_zero_iff_of_nonneg fun _ _ => sq_nonneg _).1 this j (mem_range.2 hj)
      exact pow_eq_zero_iff two_ne_zero |>.1 this
    · refine hd x (fun t ht => ?_) j hj
      have := (sum_eq_zero_iff_of_nonneg fun _ _ => sq_nonneg _).1 m2 t (mem_range.2 ht)
      exact pow_eq_zero_iff two_ne_zero |>.1 this

/-- **C65 (threads).**  A multithreaded iteration gives exactly what the serial one gives, under every schedule that runs to its
end; and a schedule that has not ended can be continued. -/
theorem C65_parallel (h : s.Ready active) (tasks : List (Nat × Nat)) (hc : TasksCover s.fn.nFrames tasks) :
    ∃ Q qr, (s.fn.setJoined s.parameters).blocks = some Q ∧
      BandQr.start (s.fn.nFrames * s.fn.perFrame.length) s.fn.universal.length (s.bandwidth * s.fn.perFrame.length)
        (Real.sqrt s.regularization) = some qr ∧
      ∀ schedule σ, (PipeState.init qr.entries tasks).run (Q.jobs qr.bw) tasks schedule = some σ →
        (σ.Returned tasks → s.doIteration (some (tasks, schedule)) = s.doIteration none) ∧
        (¬ σ.Returned tasks → ∃ t b σ', σ.step (Q.jobs qr.bw) tasks t b = some σ') := by
  obtain ⟨Q, hQ, a1, a2, a3, a4, a5⟩ := SequenceFunction.blocks_eq h.rows
  have hb1 := (SequenceFunction.bandwidth_ge s.fn).1
  have hbw : s.bandwidth * s.fn.perFrame.length > 0 :=
    Nat.mul_pos (by rw [h.bandwidth]; exact hb1) (List.length_pos_iff.2 h.perFrame)
  have hst : ∃ qr, BandQr.start (s.fn.nFrames * s.fn.perFrame.length) s.fn.universal.length
      (s.bandwidth * s.fn.perFrame.length) (Real.sqrt s.regularization) = some qr ∧
      qr.nBand = s.fn.nFrames * s.fn.perFrame.length ∧ qr.nCommon = s.fn.universal.length ∧
      qr.bw = s.bandwidth * s.fn.perFrame.length := by
    unfold BandQr.start
    rw [if_pos hbw]
    exact ⟨_, rfl, rfl, rfl, rfl⟩
  obtain ⟨qr, hst, b1, b2, b3⟩ := hst
  refine ⟨Q, qr, hQ, hst, fun schedule σ hrun => ?_⟩
  obtain ⟨-, h2, -⟩ := C64_sequence Q (by rw [a3]; exact h.sets.nodup.2) qr (by rw [b1, a1, a2]) (by rw [b2, a3])
    (by
      rw [a2, b3, h.bandwidth]
      exact Nat.le_mul_of_pos_left _ hb1) tasks (by rw [a1]; exact hc)
  obtain ⟨h3, h4⟩ := h2 schedule σ hrun
  refine ⟨fun hr => ?_, h4⟩
  have h3 := h3 hr
  have : s.assemble (some (tasks, schedule)) = s.assemble none := by
    unfold assemble
    rw [hst]
    simp only [Option.bind_eq_bind, Option.bind_some, hQ]
    unfold SequenceBlocks.pass
    dsimp only
    rw [h3]
  unfold doIteration
  rw [this]

/-- **C65 fails without per-frame parameters.**  The constructor of the banded solver rejects the bandwidth 0, so a sequence in
which only universal parameters are enabled cannot be solved. -/
theorem C65_no_per_frame_counterexample (s : SequenceSolver) (h : s.fn.perFrame = []) (mode : FramePass) :
    s.doIteration mode = none := by
  unfold doIteration assemble BandQr.start
  rw [h]
  rfl

/-! ### Examples -/

/-- Two frames of one parameter with one term over both frames and one of the second frame, at `(3, 5)`. -/
noncomputable def exSolver (ls : Bool) : SequenceSolver :=
  ⟨0, ls, 2, fun j => if j = 0 then 3 else 5, SequenceFunction.exSequence false⟩

theorem exSolver_ready (ls : Bool) : (exSolver ls).Ready fun _ => true := by
  refine ⟨SequenceFunction.exSequence_sets _, SequenceFunction.exSequence_inside _, ⟨?_, ?_⟩, ?_, ?_, le_rfl⟩
  · intro f _ F hF _
    have : F = SequenceFunction.exSq := by
      by_cases hf : f = 1
      · simpa [exSolver, SequenceFunction.exSequence, hf] using hF
      · simp [exSolver, SequenceFunction.exSequence, hf] at hF
    subst this; exact le_rfl
  · intro f _ F hF _
    have : F = SequenceFunction.exSum := by
      by_cases hf : f = 0
      · simpa [exSolver, SequenceFunction.exSequence, hf] using hF
      · simp [exSolver, SequenceFunction.exSequence, hf] at hF
    subst this; exact le_rfl
  · show (SequenceFunction.exSequence false).perFrame ≠ []
    decide
  · rfl

open SequenceFunction in
theorem exSolver_jacobian (ls : Bool) : (exSolver ls).jacobian.rows = 2 ∧ (exSolver ls).jacobian.error = 74 ∧
    (exSolver ls).jacobian.e 0 0 = 0 ∧ (exSolver ls).jacobian.e 1 0 = 1 ∧
    (exSolver ls).jacobian.e 0 1 = 1 ∧ (exSolver ls).jacobian.e 1 1 = 1 ∧
    (exSolver ls).jacobian.residual 0 = 5 ∧ (exSolver ls).jacobian.residual 1 = 7 := by
  refine ⟨?_, ?_, ?_, ?_, ?_, ?_, ?_, ?_⟩ <;>
  · simp [exSolver, jacobian, SequenceFunction.solverFunction, getJacobian, exSequence, make, updateParameterSets, setsStep,
      setJoined, setFrame, List.range_succ, weighted, weightedSeq, exSum, exSq, subspan, resizeBuffers, jacobianSize,
      jacSeqStep, jacFrameStep, setColumn, jacSubframe, addColumn, numParameters]
    try norm_num

theorem exSolver_determined (ls : Bool) :
    Determined (exSolver ls).fn.numParameters (exSolver ls).regularization (exSolver ls).jacobian := by
  obtain ⟨h0, -, h1, h2, h3, h4, -⟩ := exSolver_jacobian ls
  right
  intro x hx j hj
  have hj : j < 2 := hj
  rw [h0] at hx
  have e0 := hx 0 (by norm_num)
  have e1 := hx 1 (by norm_num)
  rw [show (exSolver ls).fn.numParameters = 2 from rfl] at e0 e1
  simp only [sum_range_succ, sum_range_zero, h1, h2, h3, h4] at e0 e1
  rcases (by omega : j = 0 ∨ j = 1) with rfl | rfl <;> linarith

theorem exSolver_error (ls : Bool) : (exSolver ls).jacobian.error = ((exSolver ls).fn.getError (exSolver ls).parameters).1 := by
  refine (SequenceFunction.C62_jacobian (SequenceFunction.exSequence_sets false) (SequenceFunction.exSequence_inside false)
    (exSolver ls).parameters 0 _ (zero_fresh _) ?_ ⟨0, by decide, rfl⟩ ?_).1
  · intro f _ F hF _ i _ _
    have : F = SequenceFunction.exSq := by
      by_cases hf : f = 1
      · simpa [SequenceFunction.exSequence, hf] using hF
      · simp [SequenceFunction.exSequence, hf] at hF
    subst this; exact SequenceFunction.exSq_jacobian _ _
  · intro f _ F hF _
    have : F = SequenceFunction.exSum := by
      by_cases hf : f = 0
      · simpa [SequenceFunction.exSequence, hf] using hF
      · simp [SequenceFunction.exSequence, hf] at hF
    subst this; exact SequenceFunction.exSum_jacobian _

/-- The hypotheses of the theorems hold in the example, in which nothing is regularised: an iteration goes to the minimum `(1, 0)`. -/
example : ((exSolver false).Ready fun _ => true) ∧ TasksCover (exSolver false).fn.nFrames [(1, 2), (0, 1)] ∧
    ∃ s', (exSolver false).doIteration none = some (s', 74) ∧ s'.parameters 0 = 1 ∧ s'.parameters 1 = 0 := by
  refine ⟨exSolver_ready false, ?_, ?_⟩
  · show TasksCover 2 [(1, 2), (0, 1)]
    intro f hf
    rcases f with _ | _ | f
    · refine ⟨1, ⟨(0, 1), rfl, by decide, by decide⟩, ?_⟩
      rintro t ⟨range, h1, h2, h3⟩
      rcases t with _ | _ | t
      · simp at h1; subst h1; simp at h2
      · rfl
      · simp at h1
    · refine ⟨0, ⟨(1, 2), rfl, by decide, by decide⟩, ?_⟩
      rintro t ⟨range, h1, h2, h3⟩
      rcases t with _ | _ | t
      · rfl
      · simp at h1; subst h1; simp at h3
      · simp at h1
    · omega
  · obtain ⟨s', d, h1, h2, h3, -⟩ := C65_step (exSolver_ready false) (exSolver_determined false) rfl
    obtain ⟨a0, a5, a1, a2, a3, a4, a6, a7⟩ := exSolver_jacobian false
    rw [a5] at h1
    refine ⟨s', h1, ?_⟩
    have := (h2 fun j => if j = 0 then 2 else 5).2 ?_
    · have h0 := this 0 (show 0 < 2 by norm_num)
      have h1 := this 1 (show 1 < 2 by norm_num)
      rw [h3, h3, ← h0, ← h1]
      norm_num [exSolver]
    · have : dampedSquares (exSolver false).fn.numParameters (exSolver false).regularization (exSolver false).jacobian
          (fun j => if j = 0 then 2 else 5) = 0 := by
        unfold dampedSquares
        rw [a0, show (exSolver false).fn.numParameters = 2 from rfl, show (exSolver false).regularization = 0 from rfl]
        simp only [sum_range_succ, sum_range_zero, a1, a2, a3, a4, a6, a7]
        norm_num
      rw [this]
      unfold dampedSquares
      rw [show (exSolver false).regularization = 0 from rfl, zero_mul, zero_add]
      exact sum_nonneg fun _ _ => sq_nonneg _

/-- The square of `1 + p + 2¹⁸ p²`. -/
def exHump : ErrorFunction where
  weight := 1
  jacobianSize := 1
  getError p := (1 + p 0 + 2 ^ 18 * p 0 ^ 2) ^ 2
  getGradient p := ((1 + p 0 + 2 ^ 18 * p 0 ^ 2) ^ 2, fun i =>
    if i = 0 then 2 * (1 + p 0 + 2 ^ 18 * p 0 ^ 2) * (1 + 2 ^ 19 * p 0) else 0)
  getJacobian p := ⟨(1 + p 0 + 2 ^ 18 * p 0 ^ 2) ^ 2, 1, fun i _ => if i = 0 then 1 + 2 ^ 19 * p 0 else 0,
    fun _ => 1 + p 0 + 2 ^ 18 * p 0 ^ 2⟩

theorem exHump_jacobian (p : Nat → ℝ) (i : Nat) : exHump.JacobianIsDerivative p i := by
  refine ⟨rfl, le_rfl, fun _ => rfl, fun u => by simp [exHump], fun t _ => ?_⟩
  by_cases hi : i = 0
  · subst hi
    have : HasDerivAt (fun u : ℝ => 1 + u + 2 ^ 18 * u ^ 2) (1 + 2 ^ 18 * (((2 : ℕ) : ℝ) * p 0 ^ (2 - 1))) (p 0) :=
      ((hasDerivAt_id' (p 0)).const_add 1).add ((hasDerivAt_pow 2 (p 0)).const_mul _)
    simp only [exHump, Function.update_self, if_true]
    refine this.congr_deriv ?_
    norm_num
    ring
  · simp only [exHump, hi, Function.update_of_ne (Ne.symm hi), if_false]
    exact hasDerivAt_const _ _

/-- One frame of one parameter, at 0. -/
noncomputable def exHumpSolver : SequenceSolver :=
  ⟨0, true, 1, fun _ => 0, { SequenceFunction.make 1 (fun _ => false) 1 with frameErrors := fun _ => [exHump] }⟩

theorem exHumpSolver_ready : exHumpSolver.Ready fun _ => true := by
  obtain ⟨h1, h2, h3, h4⟩ := SequenceFunction.C62_sets.1 1 (fun _ => false) 1
  refine ⟨⟨h1, h2, h3, h4⟩, ?_, ⟨?_, ?_⟩, ?_, ?_, le_rfl⟩
  · intro f F hF
    simp [exHumpSolver, SequenceFunction.make, SequenceFunction.updateParameterSets] at hF
  · intro f _ F hF _
    have : F = exHump := by simpa [exHumpSolver] using hF
    subst this; exact le_rfl
  · intro f _ F hF
    simp [exHumpSolver, SequenceFunction.make, SequenceFunction.updateParameterSets] at hF
  · show (SequenceFunction.make 1 (fun _ => false) 1).perFrame ≠ []
    decide
  · rfl

open SequenceFunction in
theorem exHumpSolver_jacobian : exHumpSolver.jacobian.rows = 1 ∧ exHumpSolver.jacobian.error = 1 ∧
    exHumpSolver.jacobian.e 0 0 = 1 ∧ exHumpSolver.jacobian.residual 0 = 1 := by
  refine ⟨?_, ?_, ?_, ?_⟩ <;>
  · simp [exHumpSolver, jacobian, SequenceFunction.solverFunction, getJacobian, make, updateParameterSets, setsStep,
      setJoined, setFrame, List.range_succ, weighted, weightedSeq, exHump, subspan, resizeBuffers, jacobianSize,
      jacSeqStep, jacFrameStep, setColumn, jacSubframe, addColumn, numParameters]

open SequenceFunction in
theorem exHumpSolver_error (v : Nat → ℝ) : (exHumpSolver.fn.getError v).1 = (1 + v 0 + 2 ^ 18 * v 0 ^ 2) ^ 2 := by
  simp [exHumpSolver, getError, frameError, make, updateParameterSets, setsStep,
    setJoined, setFrame, List.range_succ, weighted, weightedSeq, exHump, subspan]

/-- **C65 (line search) does not guarantee a decrease.**  The shortest of the ten steps is kept even if it increases the error. -/
theorem C65_line_search_increase_counterexample : ∃ (s : SequenceSolver) (s' : SequenceSolver),
    s.Ready (fun _ => true) ∧ Determined s.fn.numParameters s.regularization s.jacobian ∧ s.doLineSearch = true ∧
    (∀ f < s.fn.nFrames, ∀ F ∈ s.fn.frameErrors f, ∀ p i, F.JacobianIsDerivative p i) ∧
    s.doIteration none = some (s', (s.fn.getError s.parameters).1) ∧
    (s.fn.getError s.parameters).1 < (s.fn.getError s'.parameters).1 := by
  obtain ⟨b1, b2, b3, b4⟩ := exHumpSolver_jacobian
  have hd : Determined exHumpSolver.fn.numParameters exHumpSolver.regularization exHumpSolver.jacobian := by
    right
    intro x hx j hj
    have hj : j < 1 := hj
    have h0 := hx 0 (by rw [b1]; norm_num)
    rw [show exHumpSolver.fn.numParameters = 1 from rfl] at h0
    simp only [sum_range_succ, sum_range_zero, b3] at h0
    obtain rfl : j = 0 := by omega
    linarith
  have hE : (exHumpSolver.fn.getError exHumpSolver.parameters).1 = 1 := by
    rw [exHumpSolver_error]
    norm_num [exHumpSolver]
  obtain ⟨s', d, h1, h2, ⟨j, hj, h3, h4, -⟩, -, h5, -⟩ := C65_line_search exHumpSolver_ready hd rfl (by rw [hE, b2])
  refine ⟨exHumpSolver, s', exHumpSolver_ready, hd, rfl, fun f _ F hF p i => ?_, by rw [h1, hE, b2], ?_⟩
  · have : F = exHump := by simpa [exHumpSolver] using hF
    subst this; exact exHump_jacobian p i
  have hd0 : d 0 = 1 := by
    have := (h2 fun _ => 1).2 ?_ 0 (show 0 < 1 by norm_num)
    · exact this.symm
    · unfold dampedSquares
      rw [b1, show exHumpSolver.fn.numParameters = 1 from rfl, show exHumpSolver.regularization = 0 from rfl]
      simp only [sum_range_succ, sum_range_zero, b3, b4]
      norm_num
      exact sq_nonneg _
  rw [hE, exHumpSolver_error, h3]
  have hp : exHumpSolver.parameters 0 = 0 := rfl
  simp only [hp, hd0]
  have hpow : (1 / 2 : ℝ) ^ 9 ≤ (1 / 2) ^ j := pow_le_pow_of_le_one (by norm_num) (by norm_num) hj
  have hle : (1 / 2 : ℝ) ^ j ≤ 1 := pow_le_one₀ (by norm_num) (by norm_num)
  set a := (1 / 2 : ℝ) ^ j
  have : 1 < 1 + (0 - a * 1) + 2 ^ 18 * (0 - a * 1) ^ 2 := by
    norm_num at hpow ⊢
    nlinarith
  nlinarith

/-- Sequences with only universal parameters exist: that of C62 with its parameter universal. -/
example : (SequenceFunction.exSequence true).perFrame = [] ∧ (SequenceFunction.exSequence true).numParameters = 1 := by
  decide

end SequenceSolver
end Momentum
