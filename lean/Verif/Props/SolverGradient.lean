import Verif.Props.ConstraintFunctions
import Verif.Props.SkeletonFunction
import Verif.Lemmas.ChainWalk

/-!
# C57: the gradient a solver sees is the derivative of the error it sees
-/

namespace Momentum

/-- A constraint error function as the solver function sees it (skeleton_solver_function.cpp:48-86,108-162): the
parameters `p 0, p 1, …`, the skeleton state computed from them, and zeros in the outputs.  The values for parameters
whose state cannot be computed do not matter. -/
noncomputable def ConstraintError.toErrorFunction {m nv : Nat} (E : ConstraintError m nv) (pt : ParameterTransform ℝ) :
    ErrorFunction where
  weight := E.weight
  jacobianSize := m * E.constraints.length
  getError p := (E.errorAt pt ((List.range pt.transform.cols).map p)).getD 0
  getGradient p := ((E.stateFor pt ((List.range pt.transform.cols).map p) true).bind fun st =>
    E.getGradient st fun _ => 0).getD (0, fun _ => 0)
  getJacobian p := ((E.stateFor pt ((List.range pt.transform.cols).map p) true).bind fun st =>
    E.getJacobian st (fun _ _ => 0) fun _ => 0).getD ⟨0, 0, fun _ _ => 0, fun _ => 0⟩

/-- **C57** for all error functions of a solver together: if each reports the derivative of its error, the solver sees the
derivative of the total error. -/
theorem C57_total_gradient (fs : List ErrorFunction) (p : Nat → ℝ) (i : Nat)
    (h : ∀ f ∈ fs, 0 < f.weight → f.GradientIsDerivative p i) :
    (skeletonGradient fs p).1 = skeletonError fs p ∧
      HasDerivAt (fun u => skeletonError fs (Function.update p i u)) ((skeletonGradient fs p).2 i) (p i) := by
  have hw : ∀ f ∈ weighted fs, f.GradientIsDerivative p i := by
    intro f hf
    obtain ⟨h1, h2⟩ := List.mem_filter.1 hf
    exact h f h1 (by simpa using h2)
  have e1 : ∀ (l : List ErrorFunction) (q : Nat → ℝ) (a : ℝ),
      l.foldl (fun e f => e + f.getError q) a = a + (l.map fun f => f.getError q).sum := by
    intro l q
    induction l with
    | nil => intro a; simp
    | cons f l ih => intro a; rw [List.foldl_cons, ih, List.map_cons, List.sum_cons]; ring
  have e2 : ∀ (l : List ErrorFunction) (s : ℝ × (Nat → ℝ)),
      (l.foldl (fun (s : ℝ × (Nat → ℝ)) f => (s.1 + (f.getGradient p).1, fun i => s.2 i + (f.getGradient p).2 i)) s).1 =
        s.1 + (l.map fun f => (f.getGradient p).1).sum ∧
      (l.foldl (fun (s : ℝ × (Nat → ℝ)) f => (s.1 + (f.getGradient p).1, fun i => s.2 i + (f.getGradient p).2 i)) s).2 i =
        s.2 i + (l.map fun f => (f.getGradient p).2 i).sum := by
    intro l
    induction l with
    | nil => intro s; simp
    | cons f l ih =>
      intro s
      rw [List.foldl_cons, (ih _).1, (ih _).2, List.map_cons, List.sum_cons, List.map_cons, List.sum_cons]
      constructor <;> ring
  unfold skeletonGradient skeletonError
  rw [(e2 _ _).1, (e2 _ _).2, e1]
  refine ⟨?_, ?_⟩
  · congr 2
    exact List.map_congr_left fun f hf => (hw f hf).1
  · have hfun : (fun u => (weighted fs).foldl (fun e f => e + f.getError (Function.update p i u)) 0) =
        fun u => ((weighted fs).map fun f => f.getError (Function.update p i u)).sum := by
      funext u; rw [e1, zero_add]
    rw [hfun]
    simp only [zero_add]
    exact hasDerivAt_list_sum (weighted fs) (fun f u => f.getError (Function.update p i u)) (fun f => (f.getGradient p).2 i)
      (p i) fun f hf => (hw f hf).2

/-- **C57** for a constraint error function among those of a solver. -/
theorem C57_constraint_gradient {m nv : Nat} (E : ConstraintError m nv) (pt : ParameterTransform ℝ) (hE : E.Valid pt)
    (a cl : ℝ) (hcl : 0 < cl) (hloss : GeneralizedLoss.make a cl = some E.loss) (p : Nat → ℝ) (st : List JointState)
    (hst : E.stateFor pt ((List.range pt.transform.cols).map p) true = some st)
    (hcs : ∀ c ∈ E.constraints, c.weight ≠ 0 → E.Differentiable st c) (i : Nat) (hi : i < pt.transform.cols)
    (hen : E.enabledParameters.mem i = true) : (E.toErrorFunction pt).GradientIsDerivative p i := by
  obtain ⟨err, g, h1, h2, h3⟩ := C57_gradient E pt hE a cl hcl hloss ((List.range pt.transform.cols).map p) (by simp) st hst
    hcs (fun _ => 0)
  have h4 := ((h3 i hi).1 hen).2
  have hg : (E.toErrorFunction pt).getGradient p = (err, g) := by
    simp only [ConstraintError.toErrorFunction, hst, Option.bind_some, h1, Option.getD_some]
  refine ⟨?_, ?_⟩
  · rw [hg]; simp only [ConstraintError.toErrorFunction, h2, Option.getD_some]
  · rw [hg]
    simp only [ConstraintError.toErrorFunction, map_range_update]
    have hp : ((List.range pt.transform.cols).map p).getD i 0 = p i := by
      rw [List.getD_eq_getElem?_getD]; simp [hi]
    rw [hp] at h4
    exact h4.congr_deriv (by simp)

end Momentum
