import Verif.Model.Covariance
import Verif.Model.Solver
import Mathlib.Analysis.SpecialFunctions.Trigonometric.Basic

/-!
# momentum/math/mppca.{h,cpp} and momentum/character_solver/pose_prior_error_function.{h,cpp}

Over the reals.  `none` stands for a failed check or an access outside a vector; the invalid index of the maps is `none`
inside the maps.
-/

namespace Momentum
open Finset

/-- mppca.h:17-28 `MppcaT`: row `c` of `mu`, and matrices `Cinv[c]`, `L[c]` by row and column. -/
structure Mppca where
  d : Nat
  p : Nat
  names : List String
  mu : Nat → Nat → ℝ
  Cinv : Nat → Nat → Nat → ℝ
  L : Nat → Nat → Nat → ℝ
  Rpre : Nat → ℝ

/-- mppca.cpp:15-54 `set`, for `p` modes of dimension `d`; `W c` is the transpose of `W[c]`, with `k c` rows, as it is handed
to the covariance (:36).  The entries of `R⁻ᵀ` (:39-42): row `i` is the solution for the `i`-th unit vector. -/
noncomputable def Mppca.set (d p : Nat) (pi : Nat → ℝ) (mmu : Nat → Nat → ℝ) (k : Nat → Nat) (W : Nat → Nat → Nat → ℝ)
    (sigma2 : Nat → ℝ) : Option Mppca := do
  let m ← (List.range p).foldlM (fun (m : Mppca) c => do
      let cov ← Covariance.make (Real.sqrt (sigma2 c)) (k c) d (W c)
      let Ltmp : Nat → Nat → ℝ := fun i => backSub d cov.qr.R (fun j => if j = i then 1 else 0)
      let logDet ← cov.logDeterminant
      some { m with
        Cinv := Function.update m.Cinv c fun i j => backSub d cov.qr.R (fun i => Ltmp i j) i
        L := Function.update m.L c Ltmp
        Rpre := Function.update m.Rpre c
          (Real.log (pi c) - 0.5 * logDet - 0.5 * (d : ℝ) * Real.log (2 * Real.pi)) })
    ⟨d, p, [], mmu, fun _ _ _ => 0, fun _ _ _ => 0, fun _ => 0⟩
  some { m with names := List.replicate d "" }

/-- pose_prior_error_function.h:65 `kPosePriorWeight`. -/
noncomputable def kPosePriorWeight : ℝ := 1 / 1000

/-- pose_prior_error_function.h:57-75: the members, the names of the parameter transform and its number of columns
(`numAllModelParameters`), and the weight of the base class.  `maxVal` is `std::numeric_limits<T>::max()`. -/
structure PosePrior where
  paramNames : List String
  numParams : Nat
  weight : ℝ
  maxVal : ℝ
  ppMap : List (Option Nat)
  invMap : List (Option Nat)
  prior : Option Mppca

namespace PosePrior

/-- `std::vector::resize(n, kInvalidIndex)`: entries that are already there stay. -/
def resizeMap (l : List (Option Nat)) (n : Nat) : List (Option Nat) := l.take n ++ List.replicate (n - l.length) none

/-- pose_prior_error_function.cpp:49-54: the body of the two loops, for prior name `i` and model parameter `j`. -/
def loadStep (priorNames paramNames : List String) (s : List (Option Nat) × List (Option Nat)) (ij : Nat × Nat) :
    Option (List (Option Nat) × List (Option Nat)) := do
  let a ← priorNames[ij.1]?
  let b ← paramNames[ij.2]?
  if a = b then some (s.1.set ij.1 (some ij.2), s.2.set ij.2 (some ij.1)) else some s

/-- pose_prior_error_function.cpp:41-55 `loadInternal`; a null prior is dereferenced, hence `none`. -/
def loadInternal (E : PosePrior) : Option PosePrior := do
  let m ← E.prior
  let (pp, inv) ← ((List.range m.names.length).flatMap fun i => (List.range E.numParams).map fun j => (i, j)).foldlM
    (loadStep m.names E.paramNames) (resizeMap E.ppMap m.names.length, resizeMap E.invMap E.numParams)
  some { E with ppMap := pp, invMap := inv }

/-- pose_prior_error_function.cpp:17-26, the constructor; the weight is 1 (skeleton_error_function.h). -/
def make (paramNames : List String) (numParams : Nat) (maxVal : ℝ) (prior : Option Mppca) : Option PosePrior :=
  let E : PosePrior := ⟨paramNames, numParams, 1, maxVal, [], [], prior⟩
  match prior with
  | none => some E
  | some _ => E.loadInternal

/-- pose_prior_error_function.cpp:34-39 `setPosePrior`. -/
def setPosePrior (E : PosePrior) (prior : Option Mppca) : Option PosePrior :=
  { E with prior := prior }.loadInternal

/-- pose_prior_error_function.cpp:57-66 `mapParameters`. -/
def mapParameters (inp : List ℝ) (mp : List (Option Nat)) : Option (List ℝ) :=
  mp.mapM fun
    | none => some 0
    | some j => inp[j]?

/-- The values `getBestFitMode` returns. -/
structure Best where
  idx : Option Nat
  diff : Nat → ℝ
  R : ℝ
  dist : ℝ

open Classical in
/-- pose_prior_error_function.cpp:234-246, one mode; the sizes in the difference (:235) have to agree. -/
noncomputable def bestStep (m : Mppca) (sub : List ℝ) (b : Best) (c : Nat) : Option Best :=
  if sub.length ≠ m.d then none
  else
    let diff := fun i => sub.getD i 0 - m.mu c i
    let squareDist := 0.5 * ∑ j ∈ range m.d, (∑ i ∈ range m.d, diff i * m.Cinv c i j) * diff j
    let R := m.Rpre c - squareDist
    some (if R > b.R then ⟨some c, diff, R, squareDist⟩ else b)

/-- pose_prior_error_function.cpp:215-247 `getBestFitMode`. -/
noncomputable def getBestFitMode (E : PosePrior) (params : List ℝ) : Option Best :=
  let b : Best := ⟨none, fun _ => 0, -E.maxVal, E.maxVal⟩
  match E.prior with
  | none => some b
  | some m => do
    let sub ← mapParameters params E.ppMap
    (List.range m.p).foldlM (bestStep m sub) b

/-- pose_prior_error_function.cpp:68-84 `logProbability`. -/
noncomputable def logProbability (E : PosePrior) (params : List ℝ) : Option ℝ :=
  if E.invMap.length ≠ params.length then some 0
  else do
    let b ← E.getBestFitMode params
    some (-b.dist)

/-- pose_prior_error_function.cpp:86-92 `getError`. -/
noncomputable def getError (E : PosePrior) (params : List ℝ) : Option ℝ := do
  let l ← E.logProbability params
  some (-l * kPosePriorWeight * E.weight)

/-- pose_prior_error_function.cpp:125-130, the loop body of `getGradient` for dimension `i` of the prior. -/
noncomputable def gradStep (E : PosePrior) (m : Mppca) (c : Nat) (diff : Nat → ℝ) (g : Nat → ℝ) (i : Nat) :
    Option (Nat → ℝ) :=
  match E.ppMap[i]? with
  | none => none
  | some none => some g
  | some (some j) => some (Function.update g j
      (g j + (∑ a ∈ range m.d, diff a * m.Cinv c a i) * kPosePriorWeight * E.weight))

/-- pose_prior_error_function.cpp:94-134 `getGradient`. -/
noncomputable def getGradient (E : PosePrior) (params : List ℝ) (g : Nat → ℝ) : Option (ℝ × (Nat → ℝ)) :=
  match E.prior with
  | none => some (0, g)
  | some m =>
    if E.invMap.length ≠ params.length then some (0, g)
    else do
      let b ← E.getBestFitMode params
      match b.idx with
      | none => some (0, g)
      | some c =>
        let g ← (List.range m.d).foldlM (E.gradStep m c b.diff) g
        some (b.dist * kPosePriorWeight * E.weight, g)

/-- pose_prior_error_function.cpp:136-143 `getJacobianSize`. -/
def getJacobianSize (E : PosePrior) : Nat :=
  match E.prior with
  | none => 0
  | some m => m.d

/-- pose_prior_error_function.cpp:188-192, the loop body of `getJacobian` for column `i`. -/
def jacStep (E : PosePrior) (d : Nat) (gradientL : Nat → Nat → ℝ) (J : Nat → Nat → ℝ) (i : Nat) :
    Option (Nat → Nat → ℝ) :=
  match E.invMap[i]? with
  | none => none
  | some none => some J
  | some (some k) => some (Function.update J i fun t => if t < d then gradientL t k else J i t)

/-- pose_prior_error_function.cpp:145-199 `getJacobian`, on a matrix by column and row. -/
noncomputable def getJacobian (E : PosePrior) (params : List ℝ) (J : Nat → Nat → ℝ) (res : Nat → ℝ) :
    Option JacobianResult :=
  match E.prior with
  | none => some ⟨0, 0, J, res⟩
  | some m =>
    if E.invMap.length ≠ params.length then some ⟨0, 0, J, res⟩
    else do
      let b ← E.getBestFitMode params
      match b.idx with
      | none => some ⟨0, 0, J, res⟩
      | some c =>
        let wgt := Real.sqrt (0.5 * kPosePriorWeight * E.weight)
        let gradientL := fun r i => m.L c r i * wgt
        let J0 : Nat → Nat → ℝ := fun i t => if t < m.d then 0 else J i t
        let J' ← (List.range E.invMap.length).foldlM (E.jacStep m.d gradientL) J0
        some
          { error := b.dist * kPosePriorWeight * E.weight
            rows := m.d
            e := J'
            residual := fun t => if t < m.d then ∑ a ∈ range m.d, gradientL t a * b.diff a else res t }

/-- pose_prior_error_function.cpp:201-213 `getMeanShape`; the row of means has `d` entries. -/
noncomputable def getMeanShape (E : PosePrior) (params : List ℝ) : Option (List ℝ) := do
  let b ← E.getBestFitMode params
  match E.prior, b.idx with
  | some m, some c => mapParameters ((List.range m.d).map (m.mu c)) E.invMap
  | _, _ => some (List.replicate E.numParams 0)

end PosePrior

end Momentum
