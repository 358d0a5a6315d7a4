import Verif.Model.SkeletonState
import Verif.Model.ParameterTransform
import Verif.Model.GeneralizedLoss
import Verif.Model.Solver
import Mathlib.Analysis.SpecialFunctions.Trigonometric.Inverse

/-!
# momentum/character_solver/constraint_error_function{.h,-inl.h} and the error functions derived from it

Over the reals.  `none` stands for an exception, a failed check or an access outside a vector.
-/

namespace Momentum

/-- What `evalFunction` computes: `f`, the transformed vectors `v` and, for each of them, the rows of the matrix
`df/dv` (constraint_error_function.h:203-220). -/
structure EvalResult (m nv : Nat) where
  f : Fin m → ℝ
  v : Fin nv → Vec3 ℝ
  dfdv : Fin nv → Fin m → Vec3 ℝ

/-- constraint_error_function.h:21-31 `ConstraintData` (without the name) together with the derived class's
`evalFunction` on this constraint.  An invalid parent is an index out of range. -/
structure Constraint (m nv : Nat) where
  parent : Nat
  weight : ℝ
  eval : JointState → EvalResult m nv

/-- skeleton_error_function.h:127-133 and constraint_error_function.h:194-201: the members.  `precision` is Eigen's
`dummy_precision` (1e-12, or 1e-5 for float) and `tiny` is `Eps<T>(1e-9, 1e-16)`; `numPos` is the template
parameter.  The scratch vector `jointGrad_` is local to `getGradient` here. -/
structure ConstraintError (m nv : Nat) where
  skeleton : Skeleton ℝ
  transform : SparseMat ℝ
  weight : ℝ
  activeJointParams : List Bool
  enabledParameters : ParameterSet
  loss : GeneralizedLoss
  constraints : List (Constraint m nv)
  numPos : Nat
  precision : ℝ
  tiny : ℝ

section
open Classical
/-- Eigen `isZero()` of a vector. -/
noncomputable def isZeroFn {m : Nat} (prec : ℝ) (f : Fin m → ℝ) : Bool := decide (∀ i, |f i| ≤ prec)

/-- Eigen `isZero()` of a matrix given by rows. -/
noncomputable def isZeroRows {m : Nat} (prec : ℝ) (M : Fin m → Vec3 ℝ) : Bool :=
  decide (∀ i, |(M i).x| ≤ prec ∧ |(M i).y| ≤ prec ∧ |(M i).z| ≤ prec)
end

/-- Eigen `f.squaredNorm()`. -/
def sqNormFn {m : Nat} (f : Fin m → ℝ) : ℝ := ∑ i, f i * f i

namespace ConstraintError
variable {m nv : Nat}

/-- constraint_error_function-inl.h:39-45: one iteration of the loop of `getError`. -/
noncomputable def errorStep (E : ConstraintError m nv) (st : List JointState) (error : ℝ) (c : Constraint m nv) :
    Option ℝ :=
  if c.weight ≠ 0 then do
    let js ← st[c.parent]?
    some (error + c.weight * E.loss.value (sqNormFn (c.eval js).f))
  else some error

/-- constraint_error_function-inl.h:30-47 `getError`; `st` is `state.jointState`. -/
noncomputable def getError (E : ConstraintError m nv) (st : List JointState) : Option ℝ := do
  let error ← E.constraints.foldlM (E.errorStep st) 0
  some (E.weight * error)

/-- The degrees of freedom of a joint that act on a vector, with the derivative of the vector each causes: the three
loops constraint_error_function-inl.h:235-287 (and :115-161). -/
noncomputable def jointDofs (isPoint : Bool) (js : JointState) (v : Vec3 ℝ) : List (Nat × Option (Vec3 ℝ)) :=
  let offset := if isPoint then v - js.transform.translation else v
  (if isPoint then [(0, js.getTranslationDerivative 0), (1, js.getTranslationDerivative 1),
      (2, js.getTranslationDerivative 2)] else []) ++
    [(3, js.getRotationDerivative 0 offset), (4, js.getRotationDerivative 1 offset),
      (5, js.getRotationDerivative 2 offset)] ++
    (if isPoint then [(6, some (js.getScaleDerivative offset))] else [])

/-- One degree of freedom, e.g. constraint_error_function-inl.h:238-252: skipped if inactive; otherwise `emit` is the
statement executed with the joint parameter index and `dfdv * derivative`. -/
noncomputable def dofStep {σ : Type} (E : ConstraintError m nv) (emit : Nat → (Fin m → ℝ) → σ → Option σ)
    (dfdv : Fin m → Vec3 ℝ) (base : Nat) (s : σ) (d : Nat × Option (Vec3 ℝ)) : Option σ :=
  match E.activeJointParams[base + d.1]? with
  | none => none
  | some false => some s
  | some true =>
    match d.2 with
    | none => none
    | some dv => emit (base + d.1) (fun i => (dfdv i).dot dv) s

/-- One vector of the constraint: constraint_error_function-inl.h:224-287 (and :104-161). -/
noncomputable def vecStep {σ : Type} (E : ConstraintError m nv) (emit : Nat → (Fin m → ℝ) → σ → Option σ)
    (r : EvalResult m nv) (js : JointState) (base : Nat) (s : σ) (k : Fin nv) : Option σ :=
  if isZeroRows E.precision (r.dfdv k) then some s
  else (jointDofs (decide (k.val < E.numPos)) js (r.v k)).foldlM (E.dofStep emit (r.dfdv k) base) s

/-- The walk up the hierarchy, constraint_error_function-inl.h:215-291 (and :95-165).  The two loops are the same up to
the innermost statement `emit`. -/
noncomputable def walkUp {σ : Type} (E : ConstraintError m nv) (emit : Nat → (Fin m → ℝ) → σ → Option σ)
    (st : List JointState) (r : EvalResult m nv) (j : Option Nat) (s : σ) : Option σ :=
  match j with
  | none => some s
  | some j =>
    match E.skeleton.joints[j]?, st[j]? with
    | some jt, some js =>
      match (List.finRange nv).foldlM (E.vecStep emit r js (j * 7)) s with
      | none => none
      | some s' => walkUp E emit st r jt.parent s'
    | _, _ => none
partial_fixpoint

/-- constraint_error_function-inl.h:245-251 and similar: `jointGrad_[col] += val * value` for the enabled parameters in
row `row` of the parameter transform. -/
noncomputable def gradEmit (E : ConstraintError m nv) (deriv : Fin m → ℝ) (row : Nat) (jc : Fin m → ℝ)
    (g : Nat → ℝ) : Option (Nat → ℝ) :=
  (E.transform.entries.filter (·.row == row)).foldlM (init := g) fun g e => do
    let en ← E.enabledParameters.test e.col
    if en then
      if e.col < E.transform.cols then
        some (Function.update g e.col (g e.col + (∑ i, deriv i * jc i) * e.val))
      else none
    else some g

/-- constraint_error_function-inl.h:187-294 `getGradientForSingleConstraint`; the state is the error and
`jointGrad_`. -/
noncomputable def gradStep (E : ConstraintError m nv) (st : List JointState) (s : ℝ × (Nat → ℝ))
    (c : Constraint m nv) : Option (ℝ × (Nat → ℝ)) :=
  if c.weight = 0 then some s
  else do
    let js ← st[c.parent]?
    let r := c.eval js
    if isZeroFn E.precision r.f then some s
    else do
      let w := c.weight * E.weight
      let deriv : Fin m → ℝ := fun i => 2 * w * E.loss.deriv (sqNormFn r.f) * r.f i
      let g ← E.walkUp (E.gradEmit deriv) st r (some c.parent) s.2
      some (s.1 + w * E.loss.value (sqNormFn r.f), g)

/-- constraint_error_function-inl.h:296-313 `getGradient`: the returned error and the gradient after the call.  The
vector `jointGrad_` has as many entries as the transform has columns; the entries of `gradient` beyond are not there
in the code. -/
noncomputable def getGradient (E : ConstraintError m nv) (st : List JointState) (gradient : Nat → ℝ) :
    Option (ℝ × (Nat → ℝ)) := do
  let s ← E.constraints.foldlM (E.gradStep st) (0, fun _ => 0)
  some (s.1, fun i => gradient i + s.2 i)

/-- constraint_error_function-inl.h:123-129 and similar: `jac.col(col) += jc * value`, with `jc` scaled by `deriv`, on the
rows of constraint `index`.  Matrices are given by columns. -/
noncomputable def jacEmit (E : ConstraintError m nv) (deriv : ℝ) (index row : Nat) (jc : Fin m → ℝ)
    (J : Nat → Nat → ℝ) : Option (Nat → Nat → ℝ) :=
  (E.transform.entries.filter (·.row == row)).foldlM (init := J) fun J e => do
    let en ← E.enabledParameters.test e.col
    if en then
      if e.col < E.transform.cols then
        some (Function.update J e.col fun t =>
          if h : m * index ≤ t ∧ t < m * index + m then
            J e.col t + deriv * jc ⟨t - m * index, by omega⟩ * e.val
          else J e.col t)
      else none
    else some J

open Classical in
/-- constraint_error_function-inl.h:49-168 `getJacobianForSingleConstraint` on constraint number `ic.2`. -/
noncomputable def jacStep (E : ConstraintError m nv) (st : List JointState) (s : JacobianResult)
    (ic : Constraint m nv × Nat) : Option JacobianResult :=
  let c := ic.1
  if c.weight = 0 then some s
  else do
    let js ← st[c.parent]?
    let r := c.eval js
    let w := c.weight * E.weight
    let deriv := Real.sqrt (w * E.loss.deriv (sqNormFn r.f))
    let s := { s with
      error := s.error + w * E.loss.value (sqNormFn r.f)
      residual := fun t =>
        if h : m * ic.2 ≤ t ∧ t < m * ic.2 + m then deriv * r.f ⟨t - m * ic.2, by omega⟩ else s.residual t }
    if |deriv - 0| < E.tiny then some s
    else if ∀ k, isZeroRows E.precision (r.dfdv k) = true then some s
    else do
      let e ← E.walkUp (E.jacEmit deriv ic.2) st r (some c.parent) s.e
      some { s with e := e }

/-- constraint_error_function-inl.h:170-185 `getJacobian` and :315-318 `getJacobianSize`: `jacobian` and `residual` are
blocks of `getJacobianSize()` rows with the contents given. -/
noncomputable def getJacobian (E : ConstraintError m nv) (st : List JointState) (jacobian : Nat → Nat → ℝ)
    (residual : Nat → ℝ) : Option JacobianResult :=
  E.constraints.zipIdx.foldlM (E.jacStep st) ⟨0, m * E.constraints.length, jacobian, residual⟩

end ConstraintError

/-! ## The derived classes -/

/-- The rows of the identity matrix. -/
def idRows : Fin 3 → Vec3 ℝ
  | 0 => Vec3.unitX
  | 1 => Vec3.unitY
  | 2 => Vec3.unitZ

/-- The components of a vector. -/
def Vec3.toFn (v : Vec3 ℝ) : Fin 3 → ℝ
  | 0 => v.x
  | 1 => v.y
  | 2 => v.z

/-- position_error_function.cpp:19-37 `evalFunction` (one vector, a point).  `state.transformation` is the affine map of
`state.transform`. -/
def evalPosition (offset target : Vec3 ℝ) (js : JointState) : EvalResult 3 1 where
  f := (js.transform.transformPoint offset - target).toFn
  v := fun _ => js.transform.transformPoint offset
  dfdv := fun _ => idRows

open Classical in
/-- plane_error_function.cpp:54-80 `evalFunction` (one vector, a point). -/
noncomputable def evalPlane (halfPlane : Bool) (offset normal : Vec3 ℝ) (d : ℝ) (js : JointState) : EvalResult 1 1 :=
  let vec := js.transform.transformPoint offset
  let val0 := vec.dot normal - d
  let val := if halfPlane = true ∧ val0 > 0 then 0 else val0
  { f := fun _ => val
    v := fun _ => vec
    dfdv := fun _ _ => if halfPlane = false ∨ val < 0 then normal else 0 }

/-- orientation_error_function.cpp:19-44 `evalFunction` (three vectors, the columns of the rotation; `f` is stored column
by column). -/
def evalOrientation (offset target : Quat ℝ) (js : JointState) : EvalResult 9 3 :=
  let vec := js.transform.rotation.toMat.mul offset.toMat
  { f := fun i => (vec.col (i.divNat (m := 3) (n := 3)) - target.toMat.col (i.divNat (m := 3) (n := 3))).toFn
      (i.modNat (m := 3) (n := 3))
    v := fun k => vec.col k
    dfdv := fun k i => if i.divNat (m := 3) (n := 3) = k then idRows (i.modNat (m := 3) (n := 3)) else 0 }

/-- aim_error_function.cpp:17-46 `AimDistErrorFunctionT::evalFunction` (a point and an axis). -/
def evalAimDist (localPoint localDir globalTarget : Vec3 ℝ) (js : JointState) : EvalResult 3 2 :=
  let point := js.transform.transformPoint localPoint
  let srcDir := js.transform.rotation.rotate localDir
  let tgtVec := globalTarget - point
  let projLength := srcDir.dot tgtVec
  { f := (projLength • srcDir - tgtVec).toFn
    v := fun k => if k = 0 then point else srcDir
    dfdv := fun k i => if k = 0 then idRows i - srcDir.toFn i • srcDir
      else srcDir.toFn i • tgtVec + projLength • idRows i }

open Classical in
/-- aim_error_function.cpp:48-82 `AimDirErrorFunctionT::evalFunction` (a point and an axis). -/
noncomputable def evalAimDir (localPoint localDir globalTarget : Vec3 ℝ) (js : JointState) : EvalResult 3 2 :=
  let point := js.transform.transformPoint localPoint
  let srcDir := js.transform.rotation.rotate localDir
  let tgtVec := globalTarget - point
  let tgtNorm := Real.sqrt tgtVec.sqNorm
  let tgtDir : Vec3 ℝ := if tgtNorm > 1 / 10 ^ 16 then (1 / tgtNorm) • tgtVec else 0
  { f := (srcDir - tgtDir).toFn
    v := fun k => if k = 0 then point else srcDir
    dfdv := fun k i => if k = 0 then
        (if tgtNorm > 1 / 10 ^ 16 then (1 / tgtNorm) • idRows i - (tgtDir.toFn i / tgtNorm) • tgtDir else 0)
      else idRows i }

/-- fixed_axis_error_function.cpp:17-35 `FixedAxisDiffErrorFunctionT::evalFunction` (one vector, an axis). -/
def evalFixedAxisDiff (localAxis globalAxis : Vec3 ℝ) (js : JointState) : EvalResult 3 1 where
  f := (js.transform.rotation.rotate localAxis - globalAxis).toFn
  v := fun _ => js.transform.rotation.rotate localAxis
  dfdv := fun _ => idRows

/-- fixed_axis_error_function.cpp:37-55 `FixedAxisCosErrorFunctionT::evalFunction`. -/
def evalFixedAxisCos (localAxis globalAxis : Vec3 ℝ) (js : JointState) : EvalResult 1 1 where
  f := fun _ => 1 - (js.transform.rotation.rotate localAxis).dot globalAxis
  v := fun _ => js.transform.rotation.rotate localAxis
  dfdv := fun _ _ => -globalAxis

open Classical in
/-- fixed_axis_error_function.cpp:57-86 `FixedAxisAngleErrorFunctionT::evalFunction`. -/
noncomputable def evalFixedAxisAngle (localAxis globalAxis : Vec3 ℝ) (js : JointState) : EvalResult 1 1 :=
  let vec := js.transform.rotation.rotate localAxis
  let dot := vec.dot globalAxis
  let sine := Real.sqrt (1 - dot * dot)
  { f := fun _ => Real.arccos (max (-1) (min dot 1))
    v := fun _ => vec
    dfdv := fun _ _ => if sine > 1 / 10 ^ 9 then (1 / sine) • -globalAxis else 0 }

/-- normal_error_function.cpp:17-40 `evalFunction` (a point and an axis). -/
def evalNormal (localPoint localNormal globalPoint : Vec3 ℝ) (js : JointState) : EvalResult 1 2 :=
  let point := js.transform.transformPoint localPoint
  let normal := js.transform.rotation.rotate localNormal
  let dist := point - globalPoint
  { f := fun _ => normal.dot dist
    v := fun k => if k = 0 then point else normal
    dfdv := fun k _ => if k = 0 then normal else dist }

end Momentum
