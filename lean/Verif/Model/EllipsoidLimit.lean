import Verif.Model.CollisionError
import Verif.Model.RayTriangle
import Verif.Model.Limits
import Verif.Model.ConstraintError

/-!
# Ellipsoid limits

momentum/character_solver/limit_error_function.cpp, the cases `Ellipsoid` of its three loops: `LimitErrorFunctionT` for lists of
ellipsoid limits.  The other kinds of limits are in `Model/Limits.lean`; an iteration of a loop adds to the error and to the gradient
and fills its own rows, whatever the other limits are.  The check of the number of joint parameters is left out: the state here does
not contain them.  `none` is an access outside a list or a loop that does not end.
-/

namespace Momentum

/-- parameter_limits.h:53-59 `LimitEllipsoid` with the `weight` of parameter_limits.h:86-90. -/
structure EllipsoidLimit where
  ellipsoid : Affine ℝ
  ellipsoidInv : Affine ℝ
  offset : Vec3 ℝ
  ellipsoidParent : Nat
  parent : Nat
  weight : ℝ

/-- limit_error_function.h:24-50 with ellipsoid limits only. -/
structure EllipsoidLimits extends ErrorBase where
  limits : List EllipsoidLimit

/-- limit_error_function.cpp:19. -/
noncomputable def kEllipsoidWeight : ℝ := 1 / 10 ^ 4

namespace EllipsoidLimits

/-- limit_error_function.cpp:124-145 (and 274-295,498-519): `position` and `diff`.  `transformation` is the `Affine3` of the
joint's transform; its `inverse()` is a matrix inverse, here the inverse of the transform. -/
noncomputable def evaluate (c : EllipsoidLimit) (st : List JointState) : Option (Vec3 ℝ × Vec3 ℝ) := do
  let jp ← st[c.parent]?
  let je ← st[c.ellipsoidParent]?
  let position := jp.transform.transformPoint c.offset
  let localPosition := je.transform.inverse.transformPoint position
  let ellipsoidPosition := c.ellipsoidInv.apply localPosition
  let normalizedPosition := ellipsoidPosition.normalized
  let projectedPosition := c.ellipsoid.apply normalizedPosition
  some (position, position - je.transform.transformPoint projectedPosition)

/-- limit_error_function.cpp:121-149: one iteration. -/
noncomputable def errorStep (st : List JointState) (error : ℝ) (c : EllipsoidLimit) : Option ℝ :=
  (evaluate c st).map fun e => error + e.2.sqNorm * kEllipsoidWeight * c.weight

/-- limit_error_function.cpp:39-159 `getError`. -/
noncomputable def getError (E : EllipsoidLimits) (st : List JointState) : Option ℝ :=
  (E.limits.foldlM (errorStep st) 0).map fun error => error * kLimitWeight * E.weight

/-- limit_error_function.cpp:269-351: one iteration.  The degrees of freedom of a joint (302-342) are those of
`CollisionError.pairDofs`. -/
noncomputable def gradStep (E : EllipsoidLimits) (st : List JointState) (s : ℝ × (Nat → ℝ)) (c : EllipsoidLimit) :
    Option (ℝ × (Nat → ℝ)) := do
  let (position, diff) ← evaluate c st
  let tWeight := kLimitWeight * E.weight
  let wgt := 2 * kEllipsoidWeight * c.weight * tWeight
  let g ← chainWalkTo E.skeleton E.activeJointParams st (CollisionError.pairDofs position diff wgt) (gradScatter E.transform)
    (some c.ellipsoidParent) (some c.parent) s.2
  some (s.1 + diff.sqNorm * kEllipsoidWeight * tWeight * c.weight, g)

/-- limit_error_function.cpp:161-361 `getGradient`: the error and the gradient. -/
noncomputable def getGradient (E : EllipsoidLimits) (st : List JointState) (gradient : Nat → ℝ) : Option (ℝ × (Nat → ℝ)) :=
  E.limits.foldlM (E.gradStep st) (0, gradient)

/-- limit_error_function.cpp:536-571: the columns that a joint contributes. -/
noncomputable def columnDofs (pos : Vec3 ℝ) (jwgt : ℝ) (js : JointState) : List (Nat × Option (Fin 3 → ℝ)) :=
  let posd := pos - js.transform.translation
  let t (d : Fin 3) : Option (Fin 3 → ℝ) := (js.getTranslationDerivative d).map fun v => (jwgt • v).toFn
  let r (d : Fin 3) : Option (Fin 3 → ℝ) := (js.getRotationDerivative d posd).map fun v => (jwgt • v).toFn
  [(0, t 0), (3, r 0), (1, t 1), (4, r 1), (2, t 2), (5, r 2), (6, some (jwgt • js.getScaleDerivative posd).toFn)]

/-- limit_error_function.cpp:493-583: one iteration. -/
noncomputable def jacStep (E : EllipsoidLimits) (st : List JointState) (s : JacobianResult) (c : EllipsoidLimit) :
    Option JacobianResult := do
  let (position, diff) ← evaluate c st
  let jwgt := Real.sqrt (kLimitWeight * kEllipsoidWeight * E.weight * c.weight)
  let e ← chainWalkTo E.skeleton E.activeJointParams st (columnDofs position jwgt) (jacScatter (m := 3) E.transform s.rows)
    (some c.ellipsoidParent) (some c.parent) s.e
  some
    { error := s.error + jwgt * jwgt * diff.sqNorm
      rows := s.rows + 3
      e := e
      residual := fun t => if h : s.rows ≤ t ∧ t < s.rows + 3 then (jwgt • diff).toFn ⟨t - s.rows, by omega⟩ else s.residual t }

/-- limit_error_function.cpp:363-594 `getJacobian`, on a matrix and a vector with enough rows. -/
noncomputable def getJacobian (E : EllipsoidLimits) (st : List JointState) (jacobian : Nat → Nat → ℝ) (residual : Nat → ℝ) :
    Option JacobianResult :=
  E.limits.foldlM (E.jacStep st) ⟨0, 0, jacobian, residual⟩

/-- limit_error_function.cpp:596-621 `getJacobianSize`. -/
def getJacobianSize (E : EllipsoidLimits) : Nat := 3 * E.limits.length

end EllipsoidLimits

end Momentum
