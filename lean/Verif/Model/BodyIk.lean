import Verif.Model.UnionError
import Verif.Model.ParameterTransform
import Mathlib.Data.Matrix.Mul
import Mathlib.Data.Real.Basic

/-!
# Derivatives of solved poses

momentum/diff_ik/fully_differentiable_body_ik.cpp: the derivative of a loss, given in the model parameters that the IK solver found, in
the weights and inputs of the error functions.

Simplifications: real numbers (the square of a singular value is rounded to `float` in the code, and `1e-5f` is the float next to
`10⁻⁵`); Eigen's `JacobiSVD` is a parameter of the model, the specification says what a thin singular value decomposition is; the
solver's Jacobian is that of `Verif/Model/Solver.lean`; the skeleton state is left out, as it is computed from the model parameters.
-/

namespace Momentum

/-- What is read of Eigen's `JacobiSVD` with `ComputeThinV` of a matrix with `n` columns. -/
structure ThinSvd (n : Nat) where
  count : Nat
  singular : Fin count → ℝ
  v : Matrix (Fin n) (Fin count) ℝ

/-- fully_differentiable_body_ik.cpp:24-28: one parameter; `none` is the exception of `std::bitset::test`. -/
def subsetStep (active : ParameterSet) (l : List Nat) (i : Nat) : Option (List Nat) :=
  (active.test i).map fun b => if b then l ++ [i] else l

/-- fully_differentiable_body_ik.cpp:19-31 `computeSubsetParameterIndices`; `n` is the number of model parameters. -/
def computeSubsetParameterIndices (n : Nat) (active : ParameterSet) : Option (List Nat) :=
  (List.range n).foldlM (subsetStep active) []

/-- fully_differentiable_body_ik.cpp:33-43 `extractSubsetVec`; `none` is an access past the end. -/
def extractSubsetVec (full : List ℝ) (ids : List Nat) : Option (List ℝ) := ids.mapM fun i => full[i]?

/-- fully_differentiable_body_ik.cpp:45-55 `extractSubsetMat`, of a matrix stored by columns. -/
def extractSubsetMat (rows : Nat) (full : Nat → Nat → ℝ) (ids : List Nat) : Matrix (Fin rows) (Fin ids.length) ℝ :=
  Matrix.of fun t k => full ids[k] t

/-- fully_differentiable_body_ik.cpp:57-67 `subsetVecToFullVec`. -/
def subsetVecToFullVec (sub : List ℝ) (ids : List Nat) (n : Nat) : List ℝ :=
  (ids.zip sub).foldl (fun l e => l.set e.1 e.2) (List.replicate n 0)

/-- fully_differentiable_body_ik.cpp:99-106: one component. -/
noncomputable def invertSingular (s t : ℝ) : ℝ := if s ^ 2 < 1 / 100000 then 0 else t / s ^ 2

/-- fully_differentiable_body_ik.cpp:73-108 `hessianInverseTimes`, given the singular value decomposition. -/
noncomputable def hessianInverseTimes {n : Nat} (S : ThinSvd n) (v : Fin n → ℝ) : Fin n → ℝ :=
  let tmp := S.v.transpose.mulVec v
  (1 / 2 : ℝ) • S.v.mulVec fun i => invertSingular (S.singular i) (tmp i)

/-- fully_differentiable_body_ik.h:29-38 `ErrorFunctionDerivativesT`, without the pointer to the error function. -/
structure ErrorFunctionDerivatives where
  gradWeight : ℝ
  gradInputs : List (String × List ℝ)

/-- The error functions as the solver sees them: with their weights. -/
def MemberOps.solverFunctions {μ : Type} (ops : MemberOps μ (Nat → ℝ)) (weight : μ → ℝ) (fs : List μ) : List ErrorFunction :=
  fs.map fun e => ⟨weight e, ops.jacobianSize e, ops.getError e, fun p => (ops.addGradient e p fun _ => 0).getD (0, fun _ => 0),
    ops.getJacobian e⟩

/-- fully_differentiable_body_ik.cpp:192-194: the gradient divided by the weight. -/
noncomputable def dGradDWeight (weight g : ℝ) : ℝ := if weight ≠ 0 then g / weight else g

/-- fully_differentiable_body_ik.cpp:187-230: one error function; `w` is the vector `Jinv_times_dLoss_dModelParams_full`. -/
noncomputable def errorDerivatives {μ : Type} (ops : MemberOps μ (Nat → ℝ)) (weight : μ → ℝ) (n : Nat) (p : Nat → ℝ) (w : List ℝ)
    (e : μ) : Option ErrorFunctionDerivatives :=
  (ops.addGradient e p fun _ => 0).bind fun g =>
    (((ops.inputs e).getD []).mapM fun name =>
      (ops.dGradientDot e name p fun i => -w.getD i 0).map fun d => (name, d)).map fun l =>
        ⟨-∑ i ∈ Finset.range n, dGradDWeight (weight e) (g.2 i) * w.getD i 0, l⟩

/-- fully_differentiable_body_ik.cpp:169-177: the Jacobian in the active parameters. -/
noncomputable def activeJacobian {μ : Type} (ops : MemberOps μ (Nat → ℝ)) (weight : μ → ℝ) (fs : List μ) (p : Nat → ℝ)
    (ids : List Nat) : Matrix (Fin (skeletonJacobian (ops.solverFunctions weight fs) p).rows) (Fin ids.length) ℝ :=
  extractSubsetMat _ (skeletonJacobian (ops.solverFunctions weight fs) p).e ids

/-- fully_differentiable_body_ik.cpp:171-174: the root mean square of the gradient in the active parameters. -/
noncomputable def gradientRmse {μ : Type} (ops : MemberOps μ (Nat → ℝ)) (weight : μ → ℝ) (fs : List μ) (p : Nat → ℝ)
    (ids : List Nat) : ℝ :=
  let g := (2 : ℝ) • (activeJacobian ops weight fs p ids).transpose.mulVec
    fun t => (skeletonJacobian (ops.solverFunctions weight fs) p).residual t
  Real.sqrt ((∑ k, g k ^ 2) / ids.length)

/-- fully_differentiable_body_ik.cpp:110-233 `d_modelParams_d_inputs`: the gradient's root mean square and the derivatives for each error
function.  `n` is the number of model parameters. -/
noncomputable def dModelParamsDInputs {μ : Type} (ops : MemberOps μ (Nat → ℝ)) (weight : μ → ℝ)
    (svd : ∀ m n, Matrix (Fin m) (Fin n) ℝ → ThinSvd n) (n : Nat) (active : ParameterSet) (p : Nat → ℝ) (fs : List μ)
    (dLoss : List ℝ) : Option (ℝ × List ErrorFunctionDerivatives) :=
  (computeSubsetParameterIndices n active).bind fun ids =>
    (extractSubsetVec dLoss ids).bind fun dl =>
      let w := hessianInverseTimes (svd _ _ (activeJacobian ops weight fs p ids)) fun k => dl.getD k 0
      let full := subsetVecToFullVec (List.ofFn w) ids n
      (fs.mapM (errorDerivatives ops weight n p full)).map fun l => (gradientRmse ops weight fs p ids, l)

end Momentum
