import Verif.Lemmas.BodyIk

/-!
# Lemmas on the derivative of a solution
-/

namespace Momentum
open Finset Matrix

/-- The vector `Jinv_times_dLoss_dModelParams_full`, for a matrix given by columns. -/
noncomputable def solveVector {rows n : Nat} (active : ParameterSet) (e : Nat → Nat → ℝ)
    (S : ThinSvd ((List.range n).filter fun i => active.test i = some true).length) (dLoss : List ℝ) : List ℝ :=
  subsetVecToFullVec (List.ofFn (hessianInverseTimes S fun k =>
    ((((List.range n).filter fun i => active.test i = some true).map fun i => dLoss.getD i 0).getD k 0)))
    ((List.range n).filter fun i => active.test i = some true) n

theorem solve_vector {rows n : Nat} (active : ParameterSet) (e : Nat → Nat → ℝ)
    (S : ThinSvd ((List.range n).filter fun i => active.test i = some true).length)
    (hS : IsThinSvd (extractSubsetMat rows e ((List.range n).filter fun i => active.test i = some true)) S)
    (hwp : WellPosed n active rows e) (dLoss : List ℝ) :
    (∀ i, ¬ IsActive n active i → (solveVector (rows := rows) active e S dLoss).getD i 0 = 0) ∧
    ∀ i, IsActive n active i →
      2 * ∑ t ∈ range rows, e i t * ∑ j ∈ range n, e j t * (solveVector (rows := rows) active e S dLoss).getD j 0 = dLoss.getD i 0 := by
  unfold solveVector
  generalize hids : (List.range n).filter (fun i => active.test i = some true) = ids at *
  have hnd : ids.Nodup := by rw [← hids]; exact List.nodup_range.filter _
  have hmem : ∀ i, i ∈ ids ↔ IsActive n active i := by intro i; rw [← hids]; exact mem_subset
  have hsum : ∀ f : Nat → ℝ, (∀ i, ¬ IsActive n active i → f i = 0) → ∑ k : Fin ids.length, f (ids[k]) = ∑ i ∈ range n, f i := by
    intro f hf
    have := subset_sum n active f hf
    subst hids
    exact this
  obtain ⟨f1, f2, f3⟩ := full_vec (List.ofFn (hessianInverseTimes S fun k => (ids.map fun i => dLoss.getD i 0).getD k 0)) ids n
    (by simp) hnd fun i hi => ((hmem i).1 hi).1
  generalize subsetVecToFullVec (List.ofFn (hessianInverseTimes S fun k => (ids.map fun i => dLoss.getD i 0).getD k 0)) ids n = w at *
  refine ⟨fun i hi => f3 i fun h => hi ((hmem i).1 h), fun i hi => ?_⟩
  have hJ : ∀ (x : Fin ids.length → ℝ) (y : Nat → ℝ), (∀ i, ¬ IsActive n active i → y i = 0) → (∀ k, y ids[k] = x k) →
      ∀ t : Fin rows, (extractSubsetMat rows e ids *ᵥ x) t = ∑ i ∈ range n, e i t * y i := by
    intro x y hy hxy t
    rw [← hsum (fun i => e i t * y i) fun i h => by rw [hy i h, mul_zero]]
    show ∑ k : Fin ids.length, _ = _
    refine sum_congr rfl fun k _ => ?_
    rw [hxy k]
    rfl
  have hsolve := hessianInverse_solves hS (fun x => by
    obtain ⟨y, hy1, hy2⟩ : ∃ y : Nat → ℝ, (∀ i, ¬ IsActive n active i → y i = 0) ∧ ∀ k : Fin ids.length, y ids[k] = x k := by
      obtain ⟨g1, g2, g3⟩ := full_vec (List.ofFn x) ids n (by simp) hnd fun i hi => ((hmem i).1 hi).1
      refine ⟨fun i => (subsetVecToFullVec (List.ofFn x) ids n).getD i 0, fun i hi => g3 i fun h => hi ((hmem i).1 h), fun k => ?_⟩
      have := g2 k.1 k.2
      refine this.trans ?_
      simp [List.getD_eq_getElem?_getD]
    have h1 := hwp y hy1
    have e1 : ∑ i ∈ range n, y i ^ 2 = x ⬝ᵥ x := by
      rw [← hsum (fun i => y i ^ 2) fun i h => by rw [hy1 i h]; norm_num]
      refine sum_congr rfl fun k _ => ?_
      rw [hy2 k, sq]
    have e2 : ∑ t ∈ range rows, (∑ i ∈ range n, e i t * y i) ^ 2 =
        (extractSubsetMat rows e ids *ᵥ x) ⬝ᵥ (extractSubsetMat rows e ids *ᵥ x) := by
      rw [Finset.sum_range]
      refine sum_congr rfl fun t _ => ?_
      rw [hJ x y hy1 hy2 t, sq]
    rw [e1, e2] at h1
    exact h1) fun k => (ids.map fun i => dLoss.getD i 0).getD k 0
  obtain ⟨k, hk, rfl⟩ := List.getElem_of_mem ((hmem i).2 hi)
  have h3 := congrFun hsolve ⟨k, hk⟩
  have e3 : (ids.map fun i => dLoss.getD i 0).getD k 0 = dLoss.getD ids[k] 0 := by
    rw [List.getD_eq_getElem?_getD, List.getElem?_map, List.getElem?_eq_getElem hk]
    rfl
  refine Eq.trans ?_ (h3.trans e3)
  rw [← mulVec_mulVec]
  rw [Pi.smul_apply, smul_eq_mul, Finset.sum_range]
  congr 1
  show _ = ∑ t : Fin rows, _
  refine sum_congr rfl fun t _ => ?_
  rw [hJ _ (fun i => w.getD i 0) (fun i h => f3 i fun h' => h ((hmem i).1 h')) (fun k => by
    have := f2 k.1 k.2
    refine this.trans ?_
    simp [List.getD_eq_getElem?_getD])]
  rfl

/-- The heart of the matter: the product of the derivative of the loss with the derivative of the solution, from the derivative of the
gradient with the parameters held fixed. -/
theorem implicit_product {n : Nat} {active : ParameterSet} {G : ℝ → (Nat → ℝ) → Nat → ℝ} {J : JacobianResult} {u₀ : ℝ}
    {θ : ℝ → Nat → ℝ} {θ' : Nat → ℝ} (hc : SolvedCurve n active G u₀ θ θ') (hg : GaussNewtonExact n active G J u₀ θ θ')
    (w : Nat → ℝ) (dLoss : List ℝ) (hw : ∀ i, ¬ IsActive n active i → w i = 0)
    (hs : ∀ i, IsActive n active i → 2 * ∑ t ∈ range J.rows, J.e i t * ∑ j ∈ range n, J.e j t * w j = dLoss.getD i 0) :
    HasDerivAt (fun u => ∑ i ∈ range n, G u (θ u₀) i * -w i) (∑ i ∈ range n, dLoss.getD i 0 * θ' i) u₀ := by
  have h0 : ∀ i, ¬ IsActive n active i → θ' i = 0 := by
    intro i hi
    have h1 := hc.derivative i
    rw [show (fun u => θ u i) = fun _ => θ u₀ i from funext (hc.others i hi)] at h1
    exact h1.unique (hasDerivAt_const _ _)
  have h1 : ∀ i ∈ range n, HasDerivAt (fun u => G u (θ u₀) i * -w i)
      (w i * (2 * ∑ t ∈ range J.rows, J.e i t * ∑ j ∈ range n, J.e j t * θ' j)) u₀ := by
    intro i _
    by_cases hi : IsActive n active i
    · have h2 := (hg i hi).mul_const (w i)
      have h3 : (fun u => G u (θ u₀) i * -w i) =ᶠ[nhds u₀] fun u => (G u (θ u) i - G u (θ u₀) i) * w i := by
        filter_upwards [hc.solved] with u hu
        rw [hu i hi]
        ring
      exact (h2.congr_of_eventuallyEq h3).congr_deriv (mul_comm _ _)
    · rw [hw i hi]
      simpa using hasDerivAt_const u₀ (0 : ℝ)
  refine (HasDerivAt.fun_sum h1).congr_deriv ?_
  have e1 : ∀ i ∈ range n, dLoss.getD i 0 * θ' i =
      2 * ∑ t ∈ range J.rows, (J.e i t * θ' i) * ∑ j ∈ range n, J.e j t * w j := by
    intro i _
    by_cases hi : IsActive n active i
    · rw [← hs i hi, mul_assoc, sum_mul]
      refine congrArg _ (sum_congr rfl fun t _ => ?_)
      ring
    · rw [h0 i hi]
      simp
  rw [sum_congr rfl e1]
  have e2 : ∀ i ∈ range n, w i * (2 * ∑ t ∈ range J.rows, J.e i t * ∑ j ∈ range n, J.e j t * θ' j) =
      2 * ∑ t ∈ range J.rows, (J.e i t * w i) * ∑ j ∈ range n, J.e j t * θ' j := by
    intro i _
    rw [mul_left_comm, mul_sum]
    refine congrArg _ (sum_congr rfl fun t _ => ?_)
    ring
  rw [sum_congr rfl e2, ← mul_sum, ← mul_sum, sum_comm, sum_comm (s := range n)]
  refine congrArg _ (sum_congr rfl fun t _ => ?_)
  rw [← sum_mul, ← sum_mul, mul_comm]

end Momentum
