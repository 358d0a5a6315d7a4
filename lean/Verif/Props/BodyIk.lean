import Verif.Lemmas.BodyIk2

/-!
# C81: derivatives of solved poses
-/

namespace Momentum
open Finset Matrix

/-! ## The inverse of the approximate Hessian -/

/-- **C81, cut-off.**  The result of `hessianInverseTimes` in terms of the eigenvectors `x` of `JᵀJ`: those with an eigenvalue `l` below
`10⁻⁵` are left out, along the others the product with `v` is divided by `2 l`. -/
theorem C81_cutoff {m n : Nat} (J : Matrix (Fin m) (Fin n) ℝ) (S : ThinSvd n) (h : IsThinSvd J S) (v x : Fin n → ℝ) (l : ℝ)
    (hx : (Jᵀ * J) *ᵥ x = l • x) :
    x ⬝ᵥ hessianInverseTimes S v = if l < 1 / 100000 then 0 else x ⬝ᵥ v / (2 * l) :=
  hessianInverse_eigen h v x l hx

/-- **C81, decomposition.**  The result does not depend on which singular value decomposition is found. -/
theorem C81_svd {m n : Nat} (J : Matrix (Fin m) (Fin n) ℝ) (S S' : ThinSvd n) (h : IsThinSvd J S) (h' : IsThinSvd J S')
    (v : Fin n → ℝ) : hessianInverseTimes S v = hessianInverseTimes S' v := by
  refine sub_eq_zero.1 (zero_of_eigen h _ fun x l hx => ?_)
  rw [dotProduct_sub, hessianInverse_eigen h v x l hx, hessianInverse_eigen h' v x l hx, sub_self]

/-- **C81, inverse.**  If `J` shrinks no vector too much, the result solves `2 JᵀJ w = v`. -/
theorem C81_hessian {m n : Nat} (J : Matrix (Fin m) (Fin n) ℝ) (S : ThinSvd n) (h : IsThinSvd J S)
    (hJ : ∀ x, 1 / 100000 * (x ⬝ᵥ x) ≤ (J *ᵥ x) ⬝ᵥ (J *ᵥ x)) (v : Fin n → ℝ) :
    (2 : ℝ) • (Jᵀ * J) *ᵥ hessianInverseTimes S v = v :=
  hessianInverse_solves h hJ v

/-! ## The error functions one by one -/

variable {μ : Type} (ops : MemberOps μ (Nat → ℝ)) (weight : μ → ℝ)

theorem skeletonGradient_sum (fs : List ErrorFunction) (p : Nat → ℝ) (i : Nat) :
    (skeletonGradient fs p).2 i = ((weighted fs).map fun f => (f.getGradient p).2 i).sum := by
  have : ∀ (l : List ErrorFunction) (s : ℝ × (Nat → ℝ)),
      (l.foldl (fun (s : ℝ × (Nat → ℝ)) f => (s.1 + (f.getGradient p).1, fun i => s.2 i + (f.getGradient p).2 i)) s).2 i =
        s.2 i + (l.map fun f => (f.getGradient p).2 i).sum := by
    intro l
    induction l with
    | nil => intro s; simp
    | cons f l ih =>
      intro s
      rw [List.foldl_cons, ih, List.map_cons, List.sum_cons]
      exact add_assoc _ _ _
  unfold skeletonGradient
  rw [this, zero_add]

open Classical in
theorem total_append (pre post : List μ) (e : μ) (p : Nat → ℝ) (i : Nat) :
    ops.total weight (pre ++ e :: post) p i = ops.total weight pre p i +
      (if 0 < weight e then ((ops.addGradient e p fun _ => 0).getD (0, fun _ => 0)).2 i else 0) + ops.total weight post p i := by
  unfold MemberOps.total
  simp only [skeletonGradient_sum, weighted, MemberOps.solverFunctions, List.map_append, List.map_cons, List.filter_append,
    List.filter_cons, List.sum_append]
  split_ifs with h1 h2 h2
  · simp only [List.map_cons, List.sum_cons]
    ring
  · exact absurd (by simpa using h1) h2
  · exact absurd (by simpa using h2) h1
  · ring

theorem mapM_middle {α β : Type} (f : α → Option β) (pre post : List α) (e : α) (l : List β) (h : (pre ++ e :: post).mapM f = some l) :
    ∃ r, f e = some r ∧ l[pre.length]? = some r := by
  induction pre generalizing l with
  | nil =>
    rw [List.nil_append, List.mapM_cons] at h
    obtain ⟨r, h1, h2⟩ := Option.bind_eq_some_iff.1 h
    obtain ⟨s, h3, h4⟩ := Option.bind_eq_some_iff.1 h2
    have : l = r :: s := (Option.some.inj h4).symm
    exact ⟨r, h1, by rw [this]; rfl⟩
  | cons a pre ih =>
    rw [List.cons_append, List.mapM_cons] at h
    obtain ⟨r, h1, h2⟩ := Option.bind_eq_some_iff.1 h
    obtain ⟨s, h3, h4⟩ := Option.bind_eq_some_iff.1 h2
    have : l = r :: s := (Option.some.inj h4).symm
    obtain ⟨r', h5, h6⟩ := ih s h3
    exact ⟨r', h5, by rw [this]; simpa using h6⟩

/-- What the function does: it finds the vector `w` that solves the equation, and gives for each error function what `errorDerivatives`
gives. -/
theorem dModelParams_inv {svd : ∀ m n, Matrix (Fin m) (Fin n) ℝ → ThinSvd n} {n : Nat} {active : ParameterSet} {p : Nat → ℝ} {fs : List μ}
    (hsvd : ∀ ids, computeSubsetParameterIndices n active = some ids →
      IsThinSvd (activeJacobian ops weight fs p ids) (svd _ _ (activeJacobian ops weight fs p ids)))
    (hn : n ≤ kMaxModelParams) {dLoss : List ℝ} (hdl : dLoss.length = n)
    (hwp : WellPosed n active (skeletonJacobian (ops.solverFunctions weight fs) p).rows
      (skeletonJacobian (ops.solverFunctions weight fs) p).e)
    {res : ℝ × List ErrorFunctionDerivatives} (h : dModelParamsDInputs ops weight svd n active p fs dLoss = some res) :
    ∃ w : List ℝ, fs.mapM (errorDerivatives ops weight n p w) = some res.2 ∧ (∀ i, ¬ IsActive n active i → w.getD i 0 = 0) ∧
      ∀ i, IsActive n active i → 2 * ∑ t ∈ range (skeletonJacobian (ops.solverFunctions weight fs) p).rows,
        (skeletonJacobian (ops.solverFunctions weight fs) p).e i t *
          ∑ j ∈ range n, (skeletonJacobian (ops.solverFunctions weight fs) p).e j t * w.getD j 0 = dLoss.getD i 0 := by
  unfold dModelParamsDInputs at h
  rw [subset_indices n active hn, Option.bind_some, extractSubsetVec, mapM_getElem dLoss _ (fun i hi => by
    rw [hdl]; exact (mem_subset.1 hi).1), Option.bind_some] at h
  obtain ⟨l, h1, rfl⟩ := Option.map_eq_some_iff.1 h
  obtain ⟨a1, a2⟩ := solve_vector active (skeletonJacobian (ops.solverFunctions weight fs) p).e _
    (hsvd _ (subset_indices n active hn)) hwp dLoss
  exact ⟨_, h1, a1, a2⟩

/-! ## The derivatives -/

/-- **C81, inputs (part).**  Let one of the error functions depend on component `c` of its input `name`: `fam u` is the error function with
the number `u` there.  Let `θ u` solve the problem for every `u` near the present value, let the second derivative of the error be that of
the Gauss-Newton approximation and let the Jacobian be well conditioned.  Then the reported derivative is the product of the given derivative of
the loss with the derivative of the solution: the derivative of the loss in this input.  Missing: problems in which the second derivative
of the residuals matters (`C81_curvature_wrong`). -/
theorem C81_inputs_partial (svd : ∀ m n, Matrix (Fin m) (Fin n) ℝ → ThinSvd n) (n : Nat) (active : ParameterSet)
    (hn : n ≤ kMaxModelParams) (dLoss : List ℝ) (hdl : dLoss.length = n) (pre post : List μ) (fam : ℝ → μ)
    (name : String) (x : List ℝ) (c : Nat) (hc : c < x.length) (u₀ : ℝ) (hu : u₀ = x.getD c 0)
    (hset : ∀ u, ops.setInput (fam u₀) name (x.set c u) = some (fam u)) (hwt : ∀ u, weight (fam u) = weight (fam u₀))
    (hpos : 0 < weight (fam u₀)) (hname : ops.Has name (fam u₀)) (θ : ℝ → Nat → ℝ) (θ' : Nat → ℝ)
    (hdiff : ∀ v d, ops.dGradientDot (fam u₀) name (θ u₀) v = some d →
      IsInputDerivative (ops.setInput (fam u₀) name) (fun e => (ops.addGradient e (θ u₀) fun _ => 0).map (·.2)) n v x d)
    (hcurve : SolvedCurve n active (fun u => ops.total weight (pre ++ fam u :: post)) u₀ θ θ')
    (hgn : GaussNewtonExact n active (fun u => ops.total weight (pre ++ fam u :: post))
      (skeletonJacobian (ops.solverFunctions weight (pre ++ fam u₀ :: post)) (θ u₀)) u₀ θ θ')
    (hwp : WellPosed n active (skeletonJacobian (ops.solverFunctions weight (pre ++ fam u₀ :: post)) (θ u₀)).rows
      (skeletonJacobian (ops.solverFunctions weight (pre ++ fam u₀ :: post)) (θ u₀)).e)
    (hsvd : ∀ ids, computeSubsetParameterIndices n active = some ids →
      IsThinSvd (activeJacobian ops weight (pre ++ fam u₀ :: post) (θ u₀) ids)
        (svd _ _ (activeJacobian ops weight (pre ++ fam u₀ :: post) (θ u₀) ids)))
    (res : ℝ × List ErrorFunctionDerivatives)
    (h : dModelParamsDInputs ops weight svd n active (θ u₀) (pre ++ fam u₀ :: post) dLoss = some res) :
    ∃ r d, res.2[pre.length]? = some r ∧ (name, d) ∈ r.gradInputs ∧ d.length = x.length ∧
      d.getD c 0 = ∑ i ∈ range n, dLoss.getD i 0 * θ' i := by
  obtain ⟨w, h1, h2, h3⟩ := dModelParams_inv ops weight hsvd hn hdl hwp h
  obtain ⟨r, h4, h5⟩ := mapM_middle _ _ _ _ _ h1
  unfold errorDerivatives at h4
  obtain ⟨g, -, h6⟩ := Option.bind_eq_some_iff.1 h4
  obtain ⟨l, h7, rfl⟩ := Option.map_eq_some_iff.1 h6
  obtain ⟨a, b, hab⟩ := List.append_of_mem hname
  rw [hab] at h7
  obtain ⟨q, h8, h9⟩ := mapM_middle _ _ _ _ _ h7
  obtain ⟨d, h10, rfl⟩ := Option.map_eq_some_iff.1 h8
  refine ⟨_, d, h5, List.mem_of_getElem? h9, (hdiff _ d h10).1, ?_⟩
  obtain ⟨F, hF, hd⟩ := (hdiff _ d h10).2 c hc
  rw [← hu] at hd
  have hp := implicit_product hcurve hgn (fun i => w.getD i 0) dLoss h2 h3
  refine hd.unique ?_
  have hFe : F = fun u => (∑ i ∈ range n, ops.total weight (pre ++ fam u :: post) (θ u₀) i * -w.getD i 0) -
      ∑ i ∈ range n, (ops.total weight pre (θ u₀) i + ops.total weight post (θ u₀) i) * -w.getD i 0 := by
    funext u
    obtain ⟨E, g', e1, e2, e3⟩ := hF u
    rw [hset u] at e1
    obtain rfl := Option.some.inj e1
    obtain ⟨q, e4, rfl⟩ := Option.map_eq_some_iff.1 e2
    rw [e3, ← sum_sub_distrib]
    refine sum_congr rfl fun i _ => ?_
    rw [total_append, if_pos (by rw [hwt u]; exact hpos), e4]
    simp only [Option.getD_some]
    ring
  rw [hFe]
  exact hp.sub_const _

/-- **C81, weights (part).**  The same for the weight of one of the error functions, `fam u` being that error function with the weight
`u`: its gradient is proportional to its weight.  Missing, in addition: the weight zero (`C81_weight_wrong`). -/
theorem C81_weight_partial (svd : ∀ m n, Matrix (Fin m) (Fin n) ℝ → ThinSvd n) (n : Nat) (active : ParameterSet)
    (hn : n ≤ kMaxModelParams) (dLoss : List ℝ) (hdl : dLoss.length = n) (pre post : List μ) (fam : ℝ → μ)
    (u₀ : ℝ) (hwt : ∀ u, weight (fam u) = u) (hpos : 0 < u₀) (θ : ℝ → Nat → ℝ) (θ' : Nat → ℝ)
    (hprop : ∃ (a : ℝ) (b : Nat → ℝ), ∀ u, ops.addGradient (fam u) (θ u₀) (fun _ => 0) = some (u * a, fun i => u * b i))
    (hcurve : SolvedCurve n active (fun u => ops.total weight (pre ++ fam u :: post)) u₀ θ θ')
    (hgn : GaussNewtonExact n active (fun u => ops.total weight (pre ++ fam u :: post))
      (skeletonJacobian (ops.solverFunctions weight (pre ++ fam u₀ :: post)) (θ u₀)) u₀ θ θ')
    (hwp : WellPosed n active (skeletonJacobian (ops.solverFunctions weight (pre ++ fam u₀ :: post)) (θ u₀)).rows
      (skeletonJacobian (ops.solverFunctions weight (pre ++ fam u₀ :: post)) (θ u₀)).e)
    (hsvd : ∀ ids, computeSubsetParameterIndices n active = some ids →
      IsThinSvd (activeJacobian ops weight (pre ++ fam u₀ :: post) (θ u₀) ids)
        (svd _ _ (activeJacobian ops weight (pre ++ fam u₀ :: post) (θ u₀) ids)))
    (res : ℝ × List ErrorFunctionDerivatives)
    (h : dModelParamsDInputs ops weight svd n active (θ u₀) (pre ++ fam u₀ :: post) dLoss = some res) :
    ∃ r, res.2[pre.length]? = some r ∧ r.gradWeight = ∑ i ∈ range n, dLoss.getD i 0 * θ' i := by
  obtain ⟨w, h1, h2, h3⟩ := dModelParams_inv ops weight hsvd hn hdl hwp h
  obtain ⟨r, h4, h5⟩ := mapM_middle _ _ _ _ _ h1
  unfold errorDerivatives at h4
  obtain ⟨g, hg, h6⟩ := Option.bind_eq_some_iff.1 h4
  obtain ⟨l, h7, rfl⟩ := Option.map_eq_some_iff.1 h6
  refine ⟨_, h5, ?_⟩
  obtain ⟨a, b, hab⟩ := hprop
  rw [hab u₀] at hg
  obtain rfl := Option.some.inj hg
  have hp := implicit_product hcurve hgn (fun i => w.getD i 0) dLoss h2 h3
  have hF : HasDerivAt (fun u => (∑ i ∈ range n, ops.total weight (pre ++ fam u :: post) (θ u₀) i * -w.getD i 0) -
      ∑ i ∈ range n, (ops.total weight pre (θ u₀) i + ops.total weight post (θ u₀) i) * -w.getD i 0)
      (∑ i ∈ range n, b i * -w.getD i 0) u₀ := by
    have h8 : HasDerivAt (fun u : ℝ => u * ∑ i ∈ range n, b i * -w.getD i 0) (∑ i ∈ range n, b i * -w.getD i 0) u₀ := by
      simpa using (hasDerivAt_id' u₀).mul_const (∑ i ∈ range n, b i * -w.getD i 0)
    refine h8.congr_of_eventuallyEq ?_
    filter_upwards [lt_mem_nhds hpos] with u hu
    rw [← sum_sub_distrib, mul_sum]
    refine sum_congr rfl fun i _ => ?_
    rw [total_append, if_pos (by rw [hwt u]; exact hu), hab u]
    simp only [Option.getD_some]
    ring
  rw [(hp.sub_const _).unique hF]
  show -(∑ i ∈ range n, dGradDWeight (weight (fam u₀)) (u₀ * b i) * w.getD i 0) = _
  rw [← sum_neg_distrib]
  refine sum_congr rfl fun i _ => ?_
  unfold dGradDWeight
  rw [hwt, if_pos hpos.ne']
  field_simp

end Momentum
