import Verif.Props.BodyIk
import Verif.Props.UnionError2
import Mathlib.Analysis.Calculus.Deriv.Prod
import Mathlib.Analysis.Calculus.Deriv.Slope

/-!
# C81: when the approximate Hessian is exact; the gradient's root mean square; what goes wrong
-/

namespace Momentum
open Finset Matrix

/-! ## The gradient -/

/-- For one error function: the gradient is `2 Jᵀ r`. -/
theorem gradient_of_residuals (f : ErrorFunction) (p : Nat → ℝ) (i : Nat) (hg : f.GradientIsDerivative p i)
    (hj : f.JacobianIsDerivativeNear p i) :
    (f.getGradient p).2 i = 2 * ∑ t ∈ range (f.getJacobian p).rows, (f.getJacobian p).e i t * (f.getJacobian p).residual t := by
  have h1 : HasDerivAt (fun u => ∑ t ∈ range (f.getJacobian p).rows, (f.getJacobian (Function.update p i u)).residual t ^ 2)
      (∑ t ∈ range (f.getJacobian p).rows, 2 * ((f.getJacobian p).e i t * (f.getJacobian p).residual t)) (p i) := by
    refine HasDerivAt.fun_sum fun t ht => ?_
    have := (hj.deriv t (mem_range.1 ht)).pow 2
    refine this.congr_deriv ?_
    rw [Function.update_eq_self]
    push_cast
    ring
  have h2 : (fun u => f.getError (Function.update p i u)) =ᶠ[nhds (p i)]
      fun u => ∑ t ∈ range (f.getJacobian p).rows, (f.getJacobian (Function.update p i u)).residual t ^ 2 := hj.squares
  rw [hg.2.unique (h1.congr_of_eventuallyEq h2), mul_sum]

/-- **C81** the gradient of the solver's error is `2 Jᵀ r` with the Jacobian and residual of the solver. -/
theorem skeletonGradient_jtr (fs : List ErrorFunction) (hf : RowsFit fs) (p : Nat → ℝ) (i : Nat)
    (h : ∀ f ∈ fs, f.GradientIsDerivative p i ∧ f.JacobianIsDerivativeNear p i) :
    (skeletonGradient fs p).2 i =
      2 * ∑ t ∈ range (skeletonJacobian fs p).rows, (skeletonJacobian fs p).e i t * (skeletonJacobian fs p).residual t := by
  rw [skeletonGradient_sum, C55_stack fs hf p (fun a r => a i * r) (by simp), ← List.sum_map_mul_left]
  congr 1
  exact List.map_congr_left fun f hf' => gradient_of_residuals f p i (h f (List.mem_filter.1 hf').1).1 (h f (List.mem_filter.1 hf').1).2

open Classical in
/-- **C81, root mean square.**  The number returned as `gradientRmse` is the root of the mean of the squares of the derivatives `D i` of
the error that the solver minimises in the active parameters. -/
theorem C81_rmse {μ : Type} (ops : MemberOps μ (Nat → ℝ)) (weight : μ → ℝ) (svd : ∀ m n, Matrix (Fin m) (Fin n) ℝ → ThinSvd n) (n : Nat)
    (active : ParameterSet) (hn : n ≤ kMaxModelParams) (dLoss : List ℝ) (hdl : dLoss.length = n) (fs : List μ) (p D : Nat → ℝ)
    (hf : RowsFit (ops.solverFunctions weight fs))
    (hcons : ∀ f ∈ ops.solverFunctions weight fs, ∀ i, IsActive n active i →
      f.GradientIsDerivative p i ∧ f.JacobianIsDerivativeNear p i)
    (hD : ∀ i, IsActive n active i →
      HasDerivAt (fun u => skeletonError (ops.solverFunctions weight fs) (Function.update p i u)) (D i) (p i))
    (res : ℝ × List ErrorFunctionDerivatives) (h : dModelParamsDInputs ops weight svd n active p fs dLoss = some res) :
    res.1 = Real.sqrt ((∑ i ∈ (range n).filter (IsActive n active), D i ^ 2) / ((range n).filter (IsActive n active)).card) := by
  have hDe : ∀ i, IsActive n active i → D i = 2 * ∑ t ∈ range (skeletonJacobian (ops.solverFunctions weight fs) p).rows,
      (skeletonJacobian (ops.solverFunctions weight fs) p).e i t * (skeletonJacobian (ops.solverFunctions weight fs) p).residual t := by
    intro i hi
    rw [← skeletonGradient_jtr _ hf p i fun f hf' => hcons f hf' i hi, skeletonGradient_sum]
    refine (hD i hi).unique ?_
    unfold skeletonError
    simp only [foldl_add_sum, zero_add]
    exact hasDerivAt_list_sum _ _ _ _ fun f hf' => (hcons f (List.mem_filter.1 hf').1 i hi).1.2
  unfold dModelParamsDInputs at h
  rw [subset_indices n active hn, Option.bind_some, extractSubsetVec, mapM_getElem dLoss _ (fun i hi => by
    rw [hdl]; exact (mem_subset.1 hi).1), Option.bind_some] at h
  obtain ⟨l, -, rfl⟩ := Option.map_eq_some_iff.1 h
  show gradientRmse ops weight fs p _ = _
  unfold gradientRmse
  have h1 := subset_sum n active (fun i => if IsActive n active i then D i ^ 2 else 0) fun i hi => if_neg hi
  have h2 := subset_sum n active (fun i => if IsActive n active i then 1 else 0) fun i hi => if_neg hi
  have e1 : (((List.range n).filter fun i => active.test i = some true).length : ℝ) = (((range n).filter (IsActive n active)).card : ℝ) := by
    rw [card_filter]
    push_cast
    rw [← h2]
    have : ∀ k : Fin ((List.range n).filter fun i => active.test i = some true).length,
        (if IsActive n active (((List.range n).filter fun i => active.test i = some true)[k]) then (1 : ℝ) else 0) = 1 :=
      fun k => if_pos (mem_subset.1 (List.getElem_mem _))
    rw [Finset.sum_congr rfl fun k _ => this k]
    simp
  rw [e1, sum_filter, ← h1]
  refine congrArg (fun a : ℝ => Real.sqrt (a / _)) (Finset.sum_congr rfl fun k _ => ?_)
  have ha : IsActive n active (((List.range n).filter fun i => active.test i = some true)[k]) := mem_subset.1 (List.getElem_mem _)
  rw [if_pos ha, hDe _ ha, Finset.sum_range]
  rfl

/-! ## When the approximate Hessian is exact -/

theorem hasDerivAt_mul_of_zero {e r : ℝ → ℝ} {r' x : ℝ} (he : ContinuousAt e x) (hr : HasDerivAt r r' x) (h0 : r x = 0) :
    HasDerivAt (fun u => e u * r u) (e x * r') x := by
  rw [hasDerivAt_iff_tendsto_slope] at hr ⊢
  have h1 : Filter.Tendsto e (nhdsWithin x {x}ᶜ) (nhds (e x)) := he.mono_left nhdsWithin_le_nhds
  refine (h1.mul hr).congr fun u => ?_
  rw [slope_def_field, slope_def_field, h0]
  ring

/-- The first `n` parameters are `z`, the others those of `p`. -/
def replaceParams {n : Nat} (p : Nat → ℝ) (z : Fin n → ℝ) (i : Nat) : ℝ := if h : i < n then z ⟨i, h⟩ else p i

/-- **C81, exact fit.**  If all residuals vanish at the solution, are differentiable there as functions of the parameters and the changed
number together, and the Jacobian is continuous, then the second derivative of the error is that of the Gauss-Newton approximation. -/
theorem C81_exact_fit (fs : ℝ → List ErrorFunction) (n : Nat) (active : ParameterSet) (u₀ : ℝ) (θ : ℝ → Nat → ℝ) (θ' : Nat → ℝ)
    (hcurve : SolvedCurve n active (fun u p i => (skeletonGradient (fs u) p).2 i) u₀ θ θ')
    (hf : ∀ u, RowsFit (fs u)) (hrows : ∀ u, jacobianRows (fs u) = jacobianRows (fs u₀))
    (hcons : ∀ u, ∀ f ∈ fs u, ∀ p i, f.GradientIsDerivative p i ∧ f.JacobianIsDerivativeNear p i)
    (hzero : ∀ t < jacobianRows (fs u₀), (skeletonJacobian (fs u₀) (θ u₀)).residual t = 0)
    (hcont : ∀ i t, ContinuousAt (fun u => (skeletonJacobian (fs u) (θ u)).e i t) u₀ ∧
      ContinuousAt (fun u => (skeletonJacobian (fs u) (θ u₀)).e i t) u₀)
    (hres : ∀ t < jacobianRows (fs u₀), ∃ A : (Fin n → ℝ) × ℝ →L[ℝ] ℝ,
      HasFDerivAt (fun z : (Fin n → ℝ) × ℝ => (skeletonJacobian (fs z.2) (replaceParams (θ u₀) z.1)).residual t) A
        (fun k => θ u₀ k, u₀) ∧
      ∀ j : Fin n, A (Pi.single j 1, 0) = (skeletonJacobian (fs u₀) (θ u₀)).e j t) :
    GaussNewtonExact n active (fun u p i => (skeletonGradient (fs u) p).2 i) (skeletonJacobian (fs u₀) (θ u₀)) u₀ θ θ' := by
  intro i hi
  have hG : ∀ u p, (skeletonGradient (fs u) p).2 i = 2 * ∑ t ∈ range (jacobianRows (fs u₀)),
      (skeletonJacobian (fs u) p).e i t * (skeletonJacobian (fs u) p).residual t := by
    intro u p
    rw [skeletonGradient_jtr (fs u) (hf u) p i fun f hf' => hcons u f hf' p i, ← hrows u]
    rfl
  have hp : ∀ u, replaceParams (θ u₀) (fun k : Fin n => θ u k) = θ u := by
    intro u
    funext k
    unfold replaceParams
    split_ifs with h
    · rfl
    · exact (hcurve.others k (fun h' => h h'.1) u).symm
  have hθ : HasDerivAt (fun u => (fun k : Fin n => θ u k)) (fun k : Fin n => θ' k) u₀ :=
    hasDerivAt_pi.2 fun k => hcurve.derivative k
  have hterm : ∀ t ∈ range (jacobianRows (fs u₀)), HasDerivAt (fun u =>
      (skeletonJacobian (fs u) (θ u)).e i t * (skeletonJacobian (fs u) (θ u)).residual t -
      (skeletonJacobian (fs u) (θ u₀)).e i t * (skeletonJacobian (fs u) (θ u₀)).residual t)
      ((skeletonJacobian (fs u₀) (θ u₀)).e i t * ∑ j ∈ range n, (skeletonJacobian (fs u₀) (θ u₀)).e j t * θ' j) u₀ := by
    intro t ht
    obtain ⟨A, hA, hAj⟩ := hres t (mem_range.1 ht)
    have h1 : HasDerivAt (fun u => (skeletonJacobian (fs u) (θ u)).residual t) (A (fun k : Fin n => θ' k, 1)) u₀ := by
      have := hA.comp_hasDerivAt_of_eq u₀ (hθ.prodMk (hasDerivAt_id' u₀)) rfl
      refine this.congr_of_eventuallyEq (Filter.Eventually.of_forall fun u => ?_)
      show _ = (skeletonJacobian (fs u) (replaceParams (θ u₀) fun k : Fin n => θ u k)).residual t
      rw [hp u]
    have h2 : HasDerivAt (fun u => (skeletonJacobian (fs u) (θ u₀)).residual t) (A (0, 1)) u₀ := by
      have := hA.comp_hasDerivAt_of_eq u₀ ((hasDerivAt_const u₀ fun k : Fin n => θ u₀ k).prodMk (hasDerivAt_id' u₀)) rfl
      refine this.congr_of_eventuallyEq (Filter.Eventually.of_forall fun u => ?_)
      show _ = (skeletonJacobian (fs u) (replaceParams (θ u₀) fun k : Fin n => θ u₀ k)).residual t
      rw [hp u₀]
    have h3 := (hasDerivAt_mul_of_zero (hcont i t).1 h1 (hzero t (mem_range.1 ht))).sub
      (hasDerivAt_mul_of_zero (hcont i t).2 h2 (hzero t (mem_range.1 ht)))
    refine h3.congr_deriv ?_
    rw [← mul_sub, ← map_sub]
    congr 1
    have h4 : ((fun k : Fin n => θ' k, (1 : ℝ)) : (Fin n → ℝ) × ℝ) - (0, 1) = ∑ k : Fin n, θ' k • (Pi.single k 1, 0) := by
      ext k
      · simp [Finset.sum_apply, Prod.fst_sum, Pi.single_apply]
      · simp [Prod.snd_sum]
    rw [h4, map_sum, Finset.sum_range]
    refine Finset.sum_congr rfl fun k _ => ?_
    rw [map_smul, hAj k, smul_eq_mul, mul_comm]
  refine ((HasDerivAt.fun_sum hterm).const_mul 2).congr_of_eventuallyEq (Filter.Eventually.of_forall fun u => ?_)
  simp only [hG, sum_sub_distrib]
  ring

/-- **C81, linear residuals.**  If the residuals are affine in the parameters, with a Jacobian that depends continuously on the changed
number, then the second derivative of the error is that of the Gauss-Newton approximation, whatever the residuals are. -/
theorem C81_exact_linear (fs : ℝ → List ErrorFunction) (n : Nat) (active : ParameterSet) (u₀ : ℝ) (θ : ℝ → Nat → ℝ) (θ' : Nat → ℝ)
    (hcurve : SolvedCurve n active (fun u p i => (skeletonGradient (fs u) p).2 i) u₀ θ θ')
    (hf : ∀ u, RowsFit (fs u)) (hrows : ∀ᶠ u in nhds u₀, jacobianRows (fs u) = jacobianRows (fs u₀))
    (hcons : ∀ᶠ u in nhds u₀, ∀ f ∈ fs u, ∀ p i, f.GradientIsDerivative p i ∧ f.JacobianIsDerivativeNear p i)
    (a : ℝ → Nat → ℝ) (J : ℝ → Nat → Nat → ℝ) (hcont : ∀ i t, ContinuousAt (fun u => J u i t) u₀)
    (hJ : ∀ᶠ u in nhds u₀, ∀ p i t, (skeletonJacobian (fs u) p).e i t = J u i t)
    (hres : ∀ᶠ u in nhds u₀, ∀ p t, (skeletonJacobian (fs u) p).residual t = a u t + ∑ j ∈ range n, J u j t * p j) :
    GaussNewtonExact n active (fun u p i => (skeletonGradient (fs u) p).2 i) (skeletonJacobian (fs u₀) (θ u₀)) u₀ θ θ' := by
  intro i hi
  have hG : ∀ᶠ u in nhds u₀, ∀ p, (skeletonGradient (fs u) p).2 i = 2 * ∑ t ∈ range (jacobianRows (fs u₀)),
      J u i t * (a u t + ∑ j ∈ range n, J u j t * p j) := by
    filter_upwards [hrows, hcons, hJ, hres] with u h1 h2 h3 h4 p
    rw [skeletonGradient_jtr (fs u) (hf u) p i fun f hf' => h2 f hf' p i, ← h1]
    simp only [h3, h4]
    rfl
  have h1 : HasDerivAt (fun u => 2 * ∑ t ∈ range (jacobianRows (fs u₀)), J u i t * ∑ j ∈ range n, J u j t * (θ u j - θ u₀ j))
      (2 * ∑ t ∈ range (jacobianRows (fs u₀)), J u₀ i t * ∑ j ∈ range n, J u₀ j t * θ' j) u₀ :=
    (HasDerivAt.fun_sum fun t _ => hasDerivAt_mul_of_zero (hcont i t) (HasDerivAt.fun_sum fun j _ =>
      hasDerivAt_mul_of_zero (hcont j t) ((hcurve.derivative j).sub_const _) (sub_self _)) (by simp)).const_mul _
  simp only [hJ.self_of_nhds]
  refine h1.congr_of_eventuallyEq ?_
  filter_upwards [hG] with u hu
  simp only [hu]
  rw [← mul_sub, ← sum_sub_distrib]
  refine congrArg _ (Finset.sum_congr rfl fun t _ => ?_)
  rw [← mul_sub, add_sub_add_left_eq_sub, ← sum_sub_distrib]
  refine congrArg _ (Finset.sum_congr rfl fun j _ => ?_)
  ring

/-- **C81, result.**  If the error functions give their gradients and the derivatives in their inputs, there is a result, with the
derivatives in the inputs of each error function under their names. -/
theorem C81_result {μ : Type} (ops : MemberOps μ (Nat → ℝ)) (weight : μ → ℝ) (svd : ∀ m n, Matrix (Fin m) (Fin n) ℝ → ThinSvd n)
    (n : Nat) (active : ParameterSet) (hn : n ≤ kMaxModelParams) (dLoss : List ℝ) (hdl : dLoss.length = n) (fs : List μ) (p : Nat → ℝ)
    (hg : ∀ e ∈ fs, ∃ g, ops.addGradient e p (fun _ => 0) = some g)
    (hd : ∀ e ∈ fs, ∀ name, ops.Has name e → ∀ v, ∃ d, ops.dGradientDot e name p v = some d) :
    ∃ res, dModelParamsDInputs ops weight svd n active p fs dLoss = some res ∧
      res.2.map (fun r => r.gradInputs.map (·.1)) = fs.map fun e => (ops.inputs e).getD [] := by
  have hm : ∀ {α β γ δ : Type} (f : α → Option β) (a : α → γ) (b : β → γ) (l : List α), (∀ x ∈ l, ∃ y, f x = some y ∧ b y = a x) →
      ∃ l', l.mapM f = some l' ∧ l'.map b = l.map a := by
    intro α β γ _ f a b l
    induction l with
    | nil => intro _; exact ⟨[], rfl, rfl⟩
    | cons x l ih =>
      intro h
      obtain ⟨y, h1, h2⟩ := h x (by simp)
      obtain ⟨l', h3, h4⟩ := ih fun z hz => h z (by simp [hz])
      refine ⟨y :: l', ?_, by simp [h2, h4]⟩
      rw [List.mapM_cons, h1, h3]
      rfl
  have he : ∀ w, ∀ e ∈ fs, ∃ r, errorDerivatives ops weight n p w e = some r ∧ r.gradInputs.map (·.1) = (ops.inputs e).getD [] := by
    intro w e he
    obtain ⟨g, h1⟩ := hg e he
    obtain ⟨l, h2, h3⟩ := hm (δ := Unit) (fun name => (ops.dGradientDot e name p fun i => -w.getD i 0).map fun d => (name, d)) id (·.1)
      ((ops.inputs e).getD []) fun name hn => by
        obtain ⟨d, h4⟩ := hd e he name hn fun i => -w.getD i 0
        exact ⟨(name, d), by rw [h4]; rfl, rfl⟩
    refine ⟨_, by rw [errorDerivatives, h1, Option.bind_some, h2, Option.map_some], ?_⟩
    rw [h3, List.map_id]
  unfold dModelParamsDInputs
  rw [subset_indices n active hn, Option.bind_some, extractSubsetVec, mapM_getElem dLoss _ (fun i hi => by
    rw [hdl]; exact (mem_subset.1 hi).1), Option.bind_some]
  dsimp only
  generalize subsetVecToFullVec _ _ n = full
  obtain ⟨l, h1, h2⟩ := hm (δ := Unit) _ (fun e => (ops.inputs e).getD []) (fun r : ErrorFunctionDerivatives => r.gradInputs.map (·.1)) fs (he full)
  exact ⟨_, by rw [h1, Option.map_some], h2⟩

end Momentum
