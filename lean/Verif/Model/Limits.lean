import Verif.Model.ParameterTransform
import Mathlib.Analysis.SpecialFunctions.Pow.Real

/-!
# momentum/character/parameter_limits.cpp and momentum/character_solver/limit_error_function.cpp

The ellipsoid limits are not modelled: a limit list containing one makes the functions here return
`none`, and no theorem speaks about that case.
-/

namespace Momentum

/-- Outcome of running a piece of code that can fail a check (or throw) or run into undefined
behaviour (reading outside a vector). -/
inductive Outcome (α : Type) where
  | ok (a : α)
  | throws
  | ub
  deriving DecidableEq

/-- Sequencing. -/
def Outcome.bind {α β : Type} (x : Outcome α) (f : α → Outcome β) : Outcome β :=
  match x with
  | .ok a => f a
  | .throws => .throws
  | .ub => .ub

section
variable {K : Type} [LinearOrder K]

/-- parameter_limits.cpp:38-54: one iteration of the loop (`n` is `jointParams.size()`). -/
def passiveStep (n : Nat) (res : List K) (limit : ParameterLimit K) : Outcome (List K) :=
  match limit.data with
  | .minMaxJointPassive jointIndex jointParameter lo hi =>
    let parameterIndex := jointIndex * 7 + jointParameter
    if parameterIndex ≤ n then
      match res[parameterIndex]? with
      | none => .ub
      | some x =>
        let y := if x < lo then lo else x
        let z := if y > hi then hi else y
        .ok (res.set parameterIndex z)
    else .throws
  | _ => .ok res

/-- parameter_limits.cpp:34-56 `applyPassiveJointParameterLimits`. -/
def applyPassiveJointParameterLimits (limits : List (ParameterLimit K)) (jointParams : List K) :
    Outcome (List K) :=
  limits.foldl (fun acc l => acc.bind fun res => passiveStep jointParams.length res l) (.ok jointParams)

end

/-- parameter_limits.cpp:58-76 `getPoseConstraintParameterLimits`. -/
def getPoseConstraintParameterLimits {K : Type} (name : String) (pt : ParameterTransform K) (weight : K) :
    List (ParameterLimit K) :=
  match pt.poseConstraints.find? (fun nc => nc.1 = name) with
  | some nc => nc.2.map fun iv => ⟨.minMax iv.1 iv.2 iv.2, weight⟩
  | none => []

/-- parameter_limits.cpp:96-104 `isInRange`. -/
noncomputable def isInRange (rangeMin rangeMax value : ℝ) : Bool :=
  if rangeMin = 0 ∧ rangeMax = 0 then true else decide (value ≥ rangeMin ∧ value < rangeMax)

/-- limit_error_function.h:48. -/
def kLimitWeight : ℝ := 10

/-- The members of `LimitErrorFunctionT` and its base class used by the evaluation functions. -/
structure LimitErrorFunction where
  limits : List (ParameterLimit ℝ)
  transform : SparseMat ℝ
  numJoints : Nat
  enabledParameters : ParameterSet
  activeJointParams : List Bool
  weight : ℝ

namespace LimitErrorFunction

/-- limit_error_function.cpp:56-151: the contribution of one limit to `error` in `getError`. -/
noncomputable def errorOne (f : LimitErrorFunction) (params jp : List ℝ) (l : ParameterLimit ℝ) : Option ℝ :=
  match l.data with
  | .minMax i lo hi =>
    if i ≤ params.length then do
      let en ← f.enabledParameters.test i
      if en then do
        let x ← params[i]?
        some ((if x < lo then (lo - x) * (lo - x) * l.weight else 0)
          + (if x > hi then (hi - x) * (hi - x) * l.weight else 0))
      else some 0
    else none
  | .minMaxJoint j d lo hi => do
    let x ← jp[j * 7 + d]?
    let act ← f.activeJointParams[j * 7 + d]?
    if act then
      some ((if x < lo then (lo - x) * (lo - x) * l.weight else 0)
        + (if x > hi then (hi - x) * (hi - x) * l.weight else 0))
    else some 0
  | .minMaxJointPassive .. => some 0
  | .linear r t scale offset rangeMin rangeMax => do
    let xr ← params[r]?
    let xt ← params[t]?
    let et ← f.enabledParameters.test t
    let er ← f.enabledParameters.test r
    if (et || er) && isInRange rangeMin rangeMax xt then
      let residual := xt * scale - offset - xr
      some (residual * residual * l.weight)
    else some 0
  | .halfPlane a b n0 n1 offset => do
    let xa ← params[a]?
    let xb ← params[b]?
    let ea ← f.enabledParameters.test a
    let eb ← f.enabledParameters.test b
    if ea || eb then
      let residual := xa * n0 + xb * n1 - offset
      if residual < 0 then some (residual * residual * l.weight) else some 0
    else some 0
  | .ellipsoid .. => none

/-- limit_error_function.cpp:40-159 `getError`; `jp` is `state.jointParameters`. -/
noncomputable def getError (f : LimitErrorFunction) (params jp : List ℝ) : Option ℝ :=
  if jp.length = f.numJoints * 7 then do
    let error ← f.limits.foldlM (init := (0 : ℝ)) fun acc l => do
      let e ← f.errorOne params jp l
      some (acc + e)
    some (error * kLimitWeight * f.weight)
  else none

/-- `gradient[i] += x`; out of range is undefined behaviour. -/
noncomputable def addAt (g : List ℝ) (i : Nat) (x : ℝ) : Option (List ℝ) := do
  let y ← g[i]?
  some (g.set i (y + x))

/-- `if (enabled) gradient[i] += x`. -/
noncomputable def addAtIf (b : Bool) (g : List ℝ) (i : Nat) (x : ℝ) : Option (List ℝ) :=
  if b then addAt g i x else some g

/-- limit_error_function.cpp:213-217 and similar: add a joint gradient multiplied with row `row` of the
parameter transform. -/
noncomputable def addRow (A : SparseMat ℝ) (row : Nat) (x : ℝ) (g : List ℝ) : Option (List ℝ) :=
  (A.entries.filter (·.row == row)).foldlM (init := g) fun g e => addAt g e.col (x * e.val)

/-- limit_error_function.cpp:178-349: one iteration of the loop of `getGradient`; the state is
`(error, gradient)`. -/
noncomputable def gradStep (f : LimitErrorFunction) (params jp : List ℝ) (st : ℝ × List ℝ)
    (l : ParameterLimit ℝ) : Option (ℝ × List ℝ) :=
  let tWeight := kLimitWeight * f.weight
  match l.data with
  | .minMax i lo hi => do
    let x ← params[i]?
    let en ← f.enabledParameters.test i
    if en then do
      let st ← if x < lo then do
          let g ← addAt st.2 i (2 * (x - lo) * tWeight * l.weight)
          some (st.1 + (x - lo) * (x - lo) * tWeight * l.weight, g)
        else some st
      if x > hi then do
          let g ← addAt st.2 i (2 * (x - hi) * tWeight * l.weight)
          some (st.1 + (x - hi) * (x - hi) * tWeight * l.weight, g)
        else some st
    else some st
  | .minMaxJoint j d lo hi => do
    let x ← jp[j * 7 + d]?
    let act ← f.activeJointParams[j * 7 + d]?
    if act then do
      let st ← if x < lo then do
          let g ← addRow f.transform (j * 7 + d) (2 * (x - lo) * tWeight * l.weight) st.2
          some (st.1 + (x - lo) * (x - lo) * tWeight * l.weight, g)
        else some st
      if x > hi then do
          let g ← addRow f.transform (j * 7 + d) (2 * (x - hi) * tWeight * l.weight) st.2
          some (st.1 + (x - hi) * (x - hi) * tWeight * l.weight, g)
        else some st
    else some st
  | .minMaxJointPassive .. => some st
  | .linear r t scale offset rangeMin rangeMax => do
    let xr ← params[r]?
    let xt ← params[t]?
    if isInRange rangeMin rangeMax xt then do
      let residual := xt * scale - offset - xr
      let et ← f.enabledParameters.test t
      let g ← addAtIf et st.2 t (2 * residual * scale * tWeight)
      let er ← f.enabledParameters.test r
      let g ← addAtIf er g r (-(2 * residual * tWeight))
      some (st.1 + residual * residual * l.weight * tWeight, g)
    else some st
  | .halfPlane a b n0 n1 offset => do
    let ea ← f.enabledParameters.test a
    let eb ← f.enabledParameters.test b
    if ea || eb then do
      let xa ← params[a]?
      let xb ← params[b]?
      let residual := xa * n0 + xb * n1 - offset
      if residual < 0 then do
        let g ← addAtIf ea st.2 a (2 * residual * n0 * tWeight)
        let g ← addAtIf eb g b (2 * residual * n1 * tWeight)
        some (st.1 + residual * residual * l.weight * tWeight, g)
      else some st
    else some st
  | .ellipsoid .. => none

/-- limit_error_function.cpp:161-360 `getGradient`: returns the error and the updated gradient. -/
noncomputable def getGradient (f : LimitErrorFunction) (params jp gradient : List ℝ) : Option (ℝ × List ℝ) :=
  f.limits.foldlM (f.gradStep params jp) (0, gradient)

/-- A row of the Jacobian being filled, its residual and its contribution to the returned error. -/
structure JacRow where
  row : List ℝ
  residual : ℝ
  error : ℝ

/-- `jacobian(count, i) = x` on one row. -/
noncomputable def setAt (row : List ℝ) (i : Nat) (x : ℝ) : Option (List ℝ) :=
  if i < row.length then some (row.set i x) else none

/-- `if (enabled) jacobian(count, i) = x`. -/
noncomputable def setAtIf (b : Bool) (row : List ℝ) (i : Nat) (x : ℝ) : Option (List ℝ) :=
  if b then setAt row i x else some row

/-- limit_error_function.cpp:386-584: the rows produced by one limit (none for passive limits). `n` is the
number of columns of `jacobian`, which is set to zero beforehand (line 377). -/
noncomputable def jacRows (f : LimitErrorFunction) (n : Nat) (params jp : List ℝ) (l : ParameterLimit ℝ) :
    Option (List JacRow) :=
  let tWeight := kLimitWeight * f.weight
  let wgt := Real.sqrt (kLimitWeight * f.weight * l.weight)
  let zero : List ℝ := List.replicate n 0
  match l.data with
  | .minMax i lo hi => do
    let x ← params[i]?
    let en ← f.enabledParameters.test i
    if en then
      if x < lo then do
        let row ← setAt zero i wgt
        some [⟨row, (x - lo) * wgt, (x - lo) * (x - lo) * l.weight * tWeight⟩]
      else if x > hi then do
        let row ← setAt zero i wgt
        some [⟨row, (x - hi) * wgt, (x - hi) * (x - hi) * l.weight * tWeight⟩]
      else some [⟨zero, 0, 0⟩]
    else some [⟨zero, 0, 0⟩]
  | .minMaxJoint j d lo hi => do
    let x ← jp[j * 7 + d]?
    let act ← f.activeJointParams[j * 7 + d]?
    if act then
      if x < lo then do
        let row ← addRow f.transform (j * 7 + d) wgt zero
        some [⟨row, (x - lo) * wgt, (x - lo) * (x - lo) * l.weight * tWeight⟩]
      else if x > hi then do
        let row ← addRow f.transform (j * 7 + d) wgt zero
        some [⟨row, (x - hi) * wgt, (x - hi) * (x - hi) * l.weight * tWeight⟩]
      else some [⟨zero, 0, 0⟩]
    else some [⟨zero, 0, 0⟩]
  | .minMaxJointPassive .. => some []
  | .linear r t scale offset rangeMin rangeMax => do
    let xr ← params[r]?
    let xt ← params[t]?
    let et ← f.enabledParameters.test t
    let er ← f.enabledParameters.test r
    if (et || er) && isInRange rangeMin rangeMax xt then do
      let res := xt * scale - offset - xr
      let row ← setAtIf et zero t (scale * wgt)
      let row ← setAtIf er row r (-wgt)
      some [⟨row, res * wgt, res * res * l.weight * tWeight⟩]
    else some [⟨zero, 0, 0⟩]
  | .halfPlane a b n0 n1 offset => do
    let xa ← params[a]?
    let xb ← params[b]?
    let ea ← f.enabledParameters.test a
    let eb ← f.enabledParameters.test b
    if ea || eb then do
      let res := xa * n0 + xb * n1 - offset
      if res < 0 then do
        let row ← setAtIf ea zero a (n0 * wgt)
        let row ← setAtIf eb row b (n1 * wgt)
        some [⟨row, res * wgt, res * res * l.weight * tWeight⟩]
      else some [⟨zero, 0, 0⟩]
    else some [⟨zero, 0, 0⟩]
  | .ellipsoid .. => none

/-- limit_error_function.cpp:362-590 `getJacobian`: all rows in order (`usedRows` is their number, the
returned error the sum of the contributions). -/
noncomputable def getJacobian (f : LimitErrorFunction) (n : Nat) (params jp : List ℝ) : Option (List JacRow) := do
  let rows ← f.limits.mapM (f.jacRows n params jp)
  some rows.flatten

/-- limit_error_function.cpp:592-621 `getJacobianSize`. -/
def getJacobianSize (f : LimitErrorFunction) : Nat :=
  f.limits.foldl (init := 0) fun count l =>
    match l.data with
    | .minMax .. | .minMaxJoint .. => count + 1
    | .minMaxJointPassive .. => count
    | .linear .. => count + 1
    | .halfPlane .. => count + 1
    | .ellipsoid .. => count + 3

end LimitErrorFunction
end Momentum
