import Verif.Model.Covariance
import Verif.Model.HouseholderQr

/-!
# The nonlinear least squares solvers

momentum/solver/{solver,gauss_newton_solver,subset_gauss_newton_solver,gradient_descent_solver}.cpp and
momentum/character_solver/{skeleton_solver_function,gauss_newton_solver_qr,trust_region_qr}.cpp.

Vectors are functions on indices, with their sizes carried separately; matrices are stored by columns.  Numbers are
real.  Profiling and logging are left out.  The size checks of `updateParameters` always hold here, since both vectors
have one entry per parameter.
-/

namespace Momentum

open Finset

/-- What `getJacobian` fills in: its return value, `actualRows`, the Jacobian (by columns) and the residual. -/
structure JacobianResult where
  error : ℝ
  rows : Nat
  e : Nat → Nat → ℝ
  residual : Nat → ℝ

/-- momentum/solver/solver_function.h:23-105 `SolverFunctionT`, the virtual functions used by the solvers.  A function
may keep private state of type `S` between calls. -/
structure SolverFunction (S : Type) where
  getError : S → (Nat → ℝ) → ℝ × S
  getGradient : S → (Nat → ℝ) → ℝ × (Nat → ℝ) × S
  getJacobian : S → (Nat → ℝ) → JacobianResult × S
  /-- skeleton_solver_function.cpp:279-286, multipose_solver_function.cpp:346-357, sequence_solver_function.cpp:404-415
  `updateParameters`: what happens to the private state once the parameters were changed. -/
  afterUpdate : S → (Nat → ℝ) → S
  /-- What `setEnabledParameters` does to the private state. -/
  setEnabled : S → (Nat → Bool) → S
  /-- `getActualParameters`. -/
  actualParameters : S → Nat

/-- `updateParameters`: `parameters -= delta` (skeleton_solver_function.cpp:285). -/
def SolverFunction.updateParameters {S : Type} (f : SolverFunction S) (s : S) (parameters delta : Nat → ℝ) :
    (Nat → ℝ) × S :=
  let p := fun i => parameters i - delta i
  (p, f.afterUpdate s p)

/-! ## The loop -/

/-- momentum/solver/solver.h:19-35 `SolverOptions`. -/
structure SolverOptions where
  minIterations : Nat
  maxIterations : Nat
  threshold : ℝ

/-- `std::numeric_limits<double>::max()`. -/
noncomputable def dblMax : ℝ := (2 - (1 / 2) ^ 52) * 2 ^ 1023
/-- `std::numeric_limits<float>::min()`. -/
noncomputable def fltMin : ℝ := (1 / 2) ^ 126
/-- `std::numeric_limits<float>::epsilon()`. -/
noncomputable def fltEps : ℝ := (1 / 2) ^ 23

/-- solver.cpp:84-88, the convergence test. -/
def Converged (o : SolverOptions) (lastError error : ℝ) : Prop :=
  |lastError - error| / (|error| + fltMin) ≤ o.threshold * fltEps

/-- The members of `SolverT` that `solve` changes.  `inner` is everything an iteration works on (parameters, private
state of the solver function, caches of the derived solver); `trace` lists what was written to the history, one entry
per column. -/
structure LoopState (σ : Type) where
  inner : σ
  error : ℝ
  lastError : ℝ
  iteration : Nat
  trace : List (σ × ℝ)

open Classical in
/-- solver.cpp:78-107, the loop with `k` iterations left (`k = maxIterations - iteration`).  `doIteration` returns the
new state and the value it stored in `error_`. -/
noncomputable def solveLoop {σ : Type} (o : SolverOptions) (doIteration : σ → σ × ℝ) :
    Nat → LoopState σ → LoopState σ
  | 0, s => s
  | k + 1, s =>
    let r := doIteration s.inner
    let trace := s.trace ++ [r]
    if o.minIterations ≤ s.iteration ∧ Converged o s.lastError r.2 then
      ⟨r.1, r.2, s.lastError, s.iteration, trace⟩
    else solveLoop o doIteration k ⟨r.1, r.2, r.2, s.iteration + 1, trace⟩

/-- solver.cpp:46-116 `solve`, from the state after `initializeSolver`.  The result's `iteration` is what the history
reports as the iteration count, its `error` is what `solve` returns. -/
noncomputable def solve {σ : Type} (o : SolverOptions) (doIteration : σ → σ × ℝ) (s : σ) : LoopState σ :=
  solveLoop o doIteration o.maxIterations ⟨s, dblMax, dblMax, 0, []⟩

/-! ## Line search -/

open Classical in
/-- The loop shared by gauss_newton_solver.cpp:227-240, subset_gauss_newton_solver.cpp:122-141 and
gauss_newton_solver_qr.cpp:119-138, with `k` steps left, at step length `alpha`.  `accept alpha errorNew` is the test.
The test that `alpha` is a normal number is left out: `alpha` is at least `2^-10`.  `current` is the content of
`parameters_`. -/
noncomputable def lineSearchLoop {S : Type} (f : SolverFunction S) (accept : ℝ → ℝ → Prop) (orig delta : Nat → ℝ) :
    Nat → ℝ → (Nat → ℝ) → S → (Nat → ℝ) × S
  | 0, _, current, s => (current, s)
  | k + 1, alpha, _, s =>
    let u := f.updateParameters s orig (fun i => alpha * delta i)
    let e := f.getError u.2 u.1
    if accept alpha e.1 then (u.1, e.2)
    else lineSearchLoop f accept orig delta k (alpha * (1 / 2)) u.1 e.2

/-- `kMaxLineSearchSteps` steps, starting with the full step. -/
noncomputable def lineSearch {S : Type} (f : SolverFunction S) (accept : ℝ → ℝ → Prop) (orig delta : Nat → ℝ) (s : S) :
    (Nat → ℝ) × S :=
  lineSearchLoop f accept orig delta 10 1 orig s

/-! ## Cholesky solve -/

/-- `H` is symmetric and positive definite, as an `n` by `n` matrix. -/
def IsSpd (n : Nat) (H : Nat → Nat → ℝ) : Prop :=
  (∀ i < n, ∀ j < n, H i j = H j i) ∧
  ∀ x : Nat → ℝ, (∃ i < n, x i ≠ 0) → 0 < ∑ i ∈ range n, ∑ j ∈ range n, x i * H i j * x j

/-- Eigen's `LLT`: nothing is assumed about it except that it solves symmetric positive definite systems. -/
structure Llt where
  solve : Nat → (Nat → Nat → ℝ) → (Nat → ℝ) → Nat → ℝ
  spec : ∀ n H g, IsSpd n H → ∀ i < n, ∑ j ∈ range n, H i j * solve n H g j = g i

/-! ## Gauss-Newton on the enabled parameters -/

/-- The members of `SubsetGaussNewtonSolverT` that outlive an iteration, and the state of the solver function. -/
structure SubsetSolver (S : Type) where
  options : SolverOptions
  regularization : ℝ
  doLineSearch : Bool
  numParameters : Nat
  active : Nat → Bool
  enabledParameters : List Nat
  delta : Nat → ℝ
  parameters : Nat → ℝ
  fn : S

/-- subset_gauss_newton_solver.cpp:46-61 `updateEnabledParameters`. -/
def SubsetSolver.updateEnabledParameters {S : Type} (s : SubsetSolver S) : SubsetSolver S :=
  { s with
    enabledParameters := (List.range s.numParameters).foldl (fun l i => if s.active i then l ++ [i] else l) []
    delta := fun _ => 0 }

/-- subset_gauss_newton_solver.cpp:63-67 and solver.cpp:36-43 `setEnabledParameters`. -/
def SubsetSolver.setEnabledParameters {S : Type} (f : SolverFunction S) (s : SubsetSolver S) (ps : Nat → Bool) :
    SubsetSolver S :=
  SubsetSolver.updateEnabledParameters { s with active := ps, fn := f.setEnabled s.fn ps }

/-- subset_gauss_newton_solver.cpp:37-43 `setOptions`. -/
def SubsetSolver.setOptions {S : Type} (s : SubsetSolver S) (o : SolverOptions) (regularization : ℝ)
    (doLineSearch : Bool) : SubsetSolver S :=
  { s with options := o, regularization := regularization, doLineSearch := doLineSearch }

/-- subset_gauss_newton_solver.cpp:16-29 and solver.cpp:16-25, the constructors: all parameters are active. -/
def SubsetSolver.create {S : Type} (o : SolverOptions) (regularization : ℝ) (doLineSearch : Bool) (n : Nat) (fn : S) :
    SubsetSolver S :=
  SubsetSolver.updateEnabledParameters
    ⟨o, regularization, doLineSearch, n, fun _ => true, [], fun _ => 0, fun _ => 0, fn⟩

/-- subset_gauss_newton_solver.cpp:83-94: the Jacobian columns of the enabled parameters are moved to the front, in
place. -/
def moveColumns (enabled : List Nat) (jac : Nat → Nat → ℝ) : Nat → Nat → ℝ :=
  (List.range enabled.length).foldl (fun jac i =>
    if enabled.getD i 0 > i then Function.update jac i (jac (enabled.getD i 0)) else jac) jac

/-- subset_gauss_newton_solver.cpp:99-100: entry `i` of `Jᵀ r`, over the first `rows` rows. -/
def gradOf (jac : Nat → Nat → ℝ) (residual : Nat → ℝ) (rows : Nat) (i : Nat) : ℝ :=
  ∑ t ∈ range rows, residual t * jac i t

/-- subset_gauss_newton_solver.cpp:103-107: entry `(i, k)` of `Jᵀ J + λ I`. -/
def hessOf (jac : Nat → Nat → ℝ) (rows : Nat) (regularization : ℝ) (i k : Nat) : ℝ :=
  ∑ t ∈ range rows, jac i t * jac k t + if i = k then regularization else 0

/-- subset_gauss_newton_solver.cpp:114-117 (also gauss_newton_solver_qr.cpp:110-114, trust_region_qr.cpp:132-139):
the entries of the reduced vector are written to their places in the full one. -/
def scatter (enabled : List Nat) (sub full : Nat → ℝ) : Nat → ℝ :=
  (List.range enabled.length).foldl (fun d i => Function.update d (enabled.getD i 0) (sub i)) full

/-- subset_gauss_newton_solver.cpp:69-145 `doIteration`. -/
noncomputable def SubsetSolver.doIteration {S : Type} (f : SolverFunction S) (llt : Llt) (s : SubsetSolver S) :
    SubsetSolver S × ℝ :=
  let r := f.getJacobian s.fn s.parameters
  let nSub := s.enabledParameters.length
  let jac := moveColumns s.enabledParameters r.1.e
  let grad := gradOf jac r.1.residual r.1.rows
  let subsetDelta := llt.solve nSub (hessOf jac r.1.rows s.regularization) grad
  let delta := scatter s.enabledParameters subsetDelta s.delta
  if s.doLineSearch then
    let innerProd := -∑ i ∈ range nSub, grad i * subsetDelta i
    let l := lineSearch f (fun alpha e => (1 / 10000) * alpha * -innerProd ≤ r.1.error - e) s.parameters delta r.2
    ({ s with delta := delta, parameters := l.1, fn := l.2 }, r.1.error)
  else
    let u := f.updateParameters r.2 s.parameters delta
    ({ s with delta := delta, parameters := u.1, fn := u.2 }, r.1.error)

/-- `solve` of the subset solver: the returned solver, the parameters handed back and the returned error. -/
noncomputable def SubsetSolver.solve {S : Type} (f : SolverFunction S) (llt : Llt) (s : SubsetSolver S)
    (params : Nat → ℝ) : SubsetSolver S × (Nat → ℝ) × ℝ :=
  let r := Momentum.solve s.options (SubsetSolver.doIteration f llt) { s with parameters := params }
  (r.inner, r.inner.parameters, r.error)

/-! ## Gauss-Newton -/

/-- The members of `GaussNewtonSolverT` used by a dense iteration. -/
structure GaussNewton (S : Type) where
  regularization : ℝ
  doLineSearch : Bool
  numParameters : Nat
  parameters : Nat → ℝ
  fn : S

/-- gauss_newton_solver.cpp:65-104 `doIterationDense`, without `useBlockJtJ`, and :210-240 `updateParameters`.  The step
is zero beyond `actualParameters`. -/
noncomputable def GaussNewton.doIteration {S : Type} (f : SolverFunction S) (llt : Llt) (s : GaussNewton S) :
    GaussNewton S × ℝ :=
  let r := f.getJacobian s.fn s.parameters
  let actual := f.actualParameters s.fn
  let x := llt.solve actual (hessOf r.1.e r.1.rows s.regularization) (gradOf r.1.e r.1.residual r.1.rows)
  let delta := fun i => if i < actual then x i else 0
  if s.doLineSearch then
    let l := lineSearch f (fun alpha e => alpha * ((1 / 1000) * r.1.error) ≤ r.1.error - e) s.parameters delta r.2
    ({ s with parameters := l.1, fn := l.2 }, r.1.error)
  else
    let u := f.updateParameters r.2 s.parameters delta
    ({ s with parameters := u.1, fn := u.2 }, r.1.error)

/-! ## Gradient descent -/

/-- gradient_descent_solver.cpp:44-49 `doIteration`: parameters and private state. -/
noncomputable def gradientDescentIteration {S : Type} (f : SolverFunction S) (learningRate : ℝ)
    (s : (Nat → ℝ) × S) : ((Nat → ℝ) × S) × ℝ :=
  let g := f.getGradient s.2 s.1
  (f.updateParameters g.2.2 s.1 (fun i => g.2.1 i * learningRate), g.1)

/-! ## Solver functions built from error functions of a skeleton -/

/-- momentum/character_solver/skeleton_error_function.h `SkeletonErrorFunctionT`: the error functions are taken to be
functions of the model parameters (the skeleton state is computed from these).  `getJacobian` reports the rows it used,
at most `jacobianSize`, and writes no others. -/
structure ErrorFunction where
  weight : ℝ
  jacobianSize : Nat
  getError : (Nat → ℝ) → ℝ
  getGradient : (Nat → ℝ) → ℝ × (Nat → ℝ)
  getJacobian : (Nat → ℝ) → JacobianResult

open Classical in
/-- The error functions the solver looks at (`getWeight() > 0`). -/
noncomputable def weighted (fs : List ErrorFunction) : List ErrorFunction := fs.filter fun f => 0 < f.weight

/-- skeleton_solver_function.cpp:88-106 `getDimensions`: the number of rows, rounded up to the next multiple of
eight (a full eight more if it is one already). -/
noncomputable def jacobianRows (fs : List ErrorFunction) : Nat :=
  let n := ((weighted fs).map ErrorFunction.jacobianSize).sum
  n + (8 - n % 8)

/-- The accumulated value, the position and the matrices of skeleton_solver_function.cpp:122-161. -/
structure StackState where
  error : ℝ
  position : Nat
  e : Nat → Nat → ℝ
  residual : Nat → ℝ

/-- skeleton_solver_function.cpp:146-159: one error function writes its block. -/
def stackStep (p : Nat → ℝ) (s : StackState) (f : ErrorFunction) : StackState :=
  let r := f.getJacobian p
  { error := s.error + r.error
    position := s.position + f.jacobianSize
    e := fun j t => if s.position ≤ t ∧ t < s.position + r.rows then r.e j (t - s.position) else s.e j t
    residual := fun t =>
      if s.position ≤ t ∧ t < s.position + r.rows then r.residual (t - s.position) else s.residual t }

/-- skeleton_solver_function.cpp:108-162 `getJacobian`. -/
noncomputable def skeletonJacobian (fs : List ErrorFunction) (p : Nat → ℝ) : JacobianResult :=
  let s := (weighted fs).foldl (stackStep p) ⟨0, 0, fun _ _ => 0, fun _ => 0⟩
  ⟨s.error, jacobianRows fs, s.e, s.residual⟩

/-- skeleton_solver_function.cpp:48-63 `getError`. -/
noncomputable def skeletonError (fs : List ErrorFunction) (p : Nat → ℝ) : ℝ :=
  (weighted fs).foldl (fun e f => e + f.getError p) 0

/-- skeleton_solver_function.cpp:65-86 `getGradient`.  Each error function adds its gradient. -/
noncomputable def skeletonGradient (fs : List ErrorFunction) (p : Nat → ℝ) : ℝ × (Nat → ℝ) :=
  (weighted fs).foldl (fun s f => (s.1 + (f.getGradient p).1, fun i => s.2 i + (f.getGradient p).2 i)) (0, fun _ => 0)

/-- skeleton_solver_function.cpp:207-239: one error function adds its part of the error, of `JᵀJ` and of `Jᵀr`, over the
rows in use. -/
def jtjrStep (p : Nat → ℝ) (s : ℝ × (Nat → Nat → ℝ) × (Nat → ℝ)) (f : ErrorFunction) :
    ℝ × (Nat → Nat → ℝ) × (Nat → ℝ) :=
  let r := f.getJacobian p
  (s.1 + r.error,
   fun i k => s.2.1 i k + ∑ t ∈ range r.rows, r.e i t * r.e k t,
   fun i => s.2.2 i + ∑ t ∈ range r.rows, r.e i t * r.residual t)

/-- skeleton_solver_function.cpp:164-242 `getJtJR`. -/
noncomputable def skeletonJtJR (fs : List ErrorFunction) (p : Nat → ℝ) :
    ℝ × (Nat → Nat → ℝ) × (Nat → ℝ) :=
  (weighted fs).foldl (jtjrStep p) (0, fun _ _ => 0, fun _ => 0)

/-- skeleton_solver_function.cpp:29-46 `setEnabledParameters`: the number of leading parameters that contains all the
enabled ones. -/
def lastEnabled (n : Nat) (ps : Nat → Bool) : Nat :=
  (List.range n).foldl (fun a i => if ps i then i + 1 else a) 0

/-- momentum/character_solver/skeleton_solver_function.cpp as a solver function.  `fs ps` are the error functions after
`setEnabledParameters(ps)`, which is the private state. -/
noncomputable def skeletonFunction (n : Nat) (fs : (Nat → Bool) → List ErrorFunction) :
    SolverFunction (Nat → Bool) where
  getError ps p := (skeletonError (fs ps) p, ps)
  getGradient ps p := ((skeletonGradient (fs ps) p).1, (skeletonGradient (fs ps) p).2, ps)
  getJacobian ps p := (skeletonJacobian (fs ps) p, ps)
  afterUpdate ps _ := ps
  setEnabled _ ps := ps
  actualParameters ps := lastEnabled n ps

/-! ## Gauss-Newton with the QR solver -/

/-- gauss_newton_solver_qr.cpp:70-76, trust_region_qr.cpp:65-71. -/
def enabledList (n : Nat) (ps : Nat → Bool) : List Nat :=
  (List.range n).foldl (fun l i => if ps i then l ++ [i] else l) []

/-- gauss_newton_solver_qr.cpp:84-104, trust_region_qr.cpp:82-102: the rows of one error function go into the QR
solver. -/
noncomputable def absorb (enabled : List Nat) (n : Nat) (p : Nat → ℝ) (s : ℝ × DenseQr) (f : ErrorFunction) :
    Option (ℝ × DenseQr) :=
  let r := f.getJacobian p
  if r.rows = 0 then some (s.1 + r.error, s.2)
  else do
    let q ← s.2.add ⟨r.rows, n, r.e, true, enabled⟩ r.rows r.residual
    pure (s.1 + r.error, q)

/-- gauss_newton_solver_qr.cpp:54-142 `doIteration`: the new parameters and the error.  `ps` are the enabled
parameters.  `none` is a failed check. -/
noncomputable def qrIteration (fs : List ErrorFunction) (n : Nat) (ps : Nat → Bool) (regularization : ℝ)
    (doLineSearch : Bool) (p : Nat → ℝ) : Option ((Nat → ℝ) × ℝ) := do
  let enabled := enabledList n ps
  let s ← (weighted fs).foldlM (absorb enabled n p) (0, DenseQr.start enabled.length (Real.sqrt regularization))
  let subsetDelta := s.2.result
  let searchDir := scatter enabled subsetDelta (fun _ => 0)
  let f := skeletonFunction n fun _ => fs
  if doLineSearch then
    let innerProd := -∑ i ∈ range enabled.length, s.2.atTimesB i * subsetDelta i
    let l := lineSearch f (fun alpha e => (1 / 10000) * alpha * -innerProd ≤ s.1 - e) p searchDir ps
    pure (l.1, s.1)
  else pure ((f.updateParameters ps p searchDir).1, s.1)

/-! ## Trust region with the QR solver -/

/-- `squaredNorm` of the first `n` entries. -/
def sqNormN (n : Nat) (v : Nat → ℝ) : ℝ := ∑ i ∈ range n, v i * v i

/-- trust_region_qr.cpp:172-191 `deltaLambda`, or `none` where the loop is left because `q_l` vanishes. -/
noncomputable def trustDeltaLambda (n : Nat) (R : Nat → Nat → ℝ) (gradient : Nat → ℝ) (radius : ℝ) : Option ℝ :=
  let pl := backSub n R (forwardSub n R fun i => -(1 / 2) * gradient i)
  let ql := forwardSub n R pl
  if sqNormN n ql < fltEps then none
  else some ((sqNormN n pl / sqNormN n ql) * ((Real.sqrt (sqNormN n pl) - radius) / radius))

/-- trust_region_qr.cpp:198-217: rows `y I` are added, with right-hand side zero. -/
noncomputable def addLambda (q : DenseQr) (deltaLambda : ℝ) : Option DenseQr :=
  q.add ⟨q.n, q.n, fun j t => if j = t then Real.sqrt deltaLambda else 0, false, []⟩ q.n (fun _ => 0)

/-- trust_region_qr.cpp:167-228, the inner loop with `k` steps left: the QR solver with the regularisation that keeps
the step inside the trust region, and whether a check failed. -/
noncomputable def shrinkStep (gradient : Nat → ℝ) (radius : ℝ) : Nat → DenseQr → Option DenseQr
  | 0, q => some q
  | k + 1, q =>
    if Real.sqrt (sqNormN q.n q.result) < (105 / 100) * radius then some q
    else match trustDeltaLambda q.n q.R gradient radius with
      | none => some q
      | some dl => if dl ≤ 0 then some q else (addLambda q dl) >>= shrinkStep gradient radius k

/-- Parameters, trust region radius and the QR solver, during trust_region_qr.cpp:144-261. -/
structure TrustState where
  parameters : Nat → ℝ
  radius : ℝ
  qr : DenseQr

/-- trust_region_qr.cpp:122-130 `evalQuadraticModel`. -/
noncomputable def quadraticModel (n : Nat) (error : ℝ) (gradient : Nat → ℝ) (R : Nat → Nat → ℝ) (p : Nat → ℝ) : ℝ :=
  error - (∑ i ∈ range n, gradient i * p i) +
    ∑ i ∈ range n, (∑ j ∈ Ico i n, R i j * p j) * (∑ j ∈ Ico i n, R i j * p j)

/-- trust_region_qr.h:73 `maxTrustRegionRadius_`. -/
noncomputable def maxTrustRegionRadius : ℝ := 10

open Classical in
/-- trust_region_qr.cpp:144-261, the outer loop with `k` steps left.  `error` is `error_`, `R0` the factor before any
regularisation was added.  The condition `lambda > 0` of :249 always holds, since `lambda` starts at `1e-10` and only
grows; it is left out. -/
noncomputable def trustLoop (getError : (Nat → ℝ) → ℝ) (enabled : List Nat) (error : ℝ) (gradient : Nat → ℝ)
    (R0 : Nat → Nat → ℝ) : Nat → TrustState → Option TrustState
  | 0, s => some s
  | k + 1, s =>
    if ∑ i ∈ range s.qr.n, s.qr.result i * gradient i < fltEps * (1 + error) then some s
    else do
      let q ← shrinkStep gradient s.radius 3 s.qr
      let dir := q.result
      let p := fun i => s.parameters i - scatter enabled dir (fun _ => 0) i
      let errorNew := getError p
      let rho := (error - errorNew) / (error - quadraticModel q.n error gradient R0 dir)
      let radius :=
        if rho < 1 / 4 then (1 / 4) * s.radius
        else if rho > 3 / 4 then min (2 * s.radius) maxTrustRegionRadius
        else s.radius
      if rho > 0 then pure ⟨p, radius, q⟩
      else trustLoop getError enabled error gradient R0 k ⟨s.parameters, radius, q⟩

/-- trust_region_qr.cpp:49-262 `doIteration`: the new parameters, the new radius and the error. -/
noncomputable def trustIteration (fs : List ErrorFunction) (n : Nat) (ps : Nat → Bool) (radius : ℝ) (p : Nat → ℝ) :
    Option ((Nat → ℝ) × ℝ × ℝ) := do
  let enabled := enabledList n ps
  let s ← (weighted fs).foldlM (absorb enabled n p) (0, DenseQr.start enabled.length ((1 / 10) ^ 10))
  let gradient := fun i => 2 * s.2.atTimesB i
  let r ← trustLoop (skeletonError fs) enabled s.1 gradient s.2.R 10 ⟨p, radius, s.2⟩
  pure (r.parameters, r.radius, s.1)

end Momentum
