import Verif.Model.ErrorBase
import Verif.Model.Capsule
import Verif.Model.Bvh
import Verif.Model.ParameterTransform

/-!
# The collision error function

momentum/character_solver/collision_error_function.{h,cpp}.  Every call that updates the object returns the new object.
`none` is a failed check, a read or write out of range, a loop that does not end, or a failed build of the bounding volume
hierarchy.
-/

namespace Momentum

/-- collision_error_function.h:74-85: the members.  `tol` is the `1e-7f` of `closestPointsOnSegments`, `eps` the
`Eps<T>(1e-8, 1e-17)` of `overlaps`. -/
structure CollisionError extends ErrorBase where
  tol : ℝ
  eps : ℝ
  collisionGeometry : List (TaperedCapsule ℝ)
  excludingPairIds : List (Nat × Nat)
  jacobianSize : Nat
  collisionState : List (CapsuleState ℝ)
  bvh : Bvh ℝ

/-- collision_error_function.h:83 `kCollisionWeight`. -/
noncomputable def kCollisionWeight : ℝ := 5 / 1000

/-- `p0 > p1` for `size_t`, where `kInvalidIndex` (here `none`) is the largest value. -/
def indexAbove : Option Nat → Option Nat → Bool
  | none, some _ => true
  | some a, some b => decide (b < a)
  | _, none => false

/-- collision_error_function.cpp:97-112: the loop `while (p0 != p1)`; returns `count`. -/
def pairSteps (s : Skeleton ℝ) (p0 p1 : Option Nat) (count : Nat) : Option Nat :=
  if p0 = p1 then some count
  else if indexAbove p0 p1 = true then
    match p0 with
    | none => none
    | some a =>
      match s.parentOf a with
      | none => none
      | some q => pairSteps s q p1 (count + 1)
  else
    match p1 with
    | none => none
    | some b =>
      match s.parentOf b with
      | none => none
      | some q => pairSteps s p0 q (count + 1)
partial_fixpoint

/-- A walk up the hierarchy, collision_error_function.cpp:303-351 and three more times: as `chainWalk`, but it also ends at
the root: `while (jointIndex != kInvalidIndex && jointIndex != commonAncestor)`. -/
def chainWalkTo {α σ : Type} (skel : Skeleton ℝ) (active : List Bool) (st : List JointState)
    (dofs : JointState → List (Nat × Option α)) (emit : Nat → α → σ → Option σ) (stop j : Option Nat) (s : σ) :
    Option σ :=
  match j with
  | none => some s
  | some j =>
    if some j = stop then some s
    else
      match skel.joints[j]?, st[j]? with
      | some jt, some js =>
        match (dofs js).foldlM (activeStep active emit (j * 7)) s with
        | none => none
        | some s' => chainWalkTo skel active st dofs emit stop jt.parent s'
      | _, _ => none
partial_fixpoint

namespace CollisionError

/-- collision_geometry_state.cpp:15-35 on a skeleton state. -/
noncomputable def capsules (g : List (TaperedCapsule ℝ)) (st : List JointState) : Option (List (CapsuleState ℝ)) :=
  Momentum.collisionState (st.map fun js => (js.transform.toAffine3, js.transform.scale)) g

/-- collision_error_function.cpp:79-119: one pair of the double loop; the accumulator is the set of excluded pairs and
`jacobianSize_`. -/
noncomputable def pairStep (E : CollisionError) (cs : List (CapsuleState ℝ)) (i : Nat) (acc : List (Nat × Nat) × Nat)
    (j : Nat) : Option (List (Nat × Nat) × Nat) := do
  let a ← cs[i]?
  let b ← cs[j]?
  if overlaps E.tol E.eps a b = true then some ((i, j) :: acc.1, acc.2)
  else
    let ga ← E.collisionGeometry[i]?
    let gb ← E.collisionGeometry[j]?
    let count ← pairSteps E.skeleton (some ga.parent) (some gb.parent) 0
    if count > 1 then some (acc.1, acc.2 + 1) else some ((i, j) :: acc.1, acc.2)

/-- collision_error_function.cpp:77-121: the double loop over the pairs. -/
noncomputable def pairLoop (E : CollisionError) (cs : List (CapsuleState ℝ)) (n : Nat) : Option (List (Nat × Nat) × Nat) :=
  (List.range n).foldlM (init := (([] : List (Nat × Nat)), 0)) fun acc i =>
    (List.range' (i + 1) (n - (i + 1))).foldlM (E.pairStep cs i) acc

/-- axel/axel/Bvh.cpp:38-42 `setBoundingBoxes` of a `Bvh<T>` (leaf capacity 1). -/
noncomputable def setBoundingBoxes (prims : List (Box ℝ)) : Option (Bvh ℝ) :=
  match bvhBuild 1 kBuildStack prims with
  | some (.ok b) => some b
  | _ => none

/-- collision_error_function.cpp:56-63: the boxes in the rest pose.  (The box is default constructed and then
overwritten.) -/
noncomputable def restBoxes (cs : List (CapsuleState ℝ)) : List (Box ℝ) :=
  cs.mapIdx fun i c => updateAabb ⟨0, 0, i⟩ c.origin c.direction c.radius0 c.radius1

/-- collision_error_function.cpp:19-26,40-123: the constructor, with `updateCollisionPairs`.  `offsets` are the joint
parameters of `parameterTransform_.zero()`. -/
noncomputable def construct (B : ErrorBase) (offsets : List ℝ) (tol eps : ℝ) (g : List (TaperedCapsule ℝ)) :
    Option CollisionError := do
  let state ← skeletonState B.skeleton offsets true
  let cs ← capsules g state
  let bvh ← setBoundingBoxes (restBoxes cs)
  let E : CollisionError := ⟨B, tol, eps, g, [], 0, cs, bvh⟩
  let acc ← E.pairLoop cs g.length
  some { E with excludingPairIds := acc.1, jacobianSize := acc.2 }

/-- collision_error_function.cpp:133-141: the boxes of the capsules now. -/
noncomputable def movedBoxes (cs : List (CapsuleState ℝ)) (prims : List (Box ℝ)) : Option (List (Box ℝ)) :=
  prims.mapM fun box => (cs[box.id]?).map fun c => updateAabb box c.origin c.direction c.radius0 c.radius1

/-- collision_error_function.cpp:125-145 `computeBroadPhase`. -/
noncomputable def computeBroadPhase (E : CollisionError) (st : List JointState) : Option CollisionError := do
  let cs ← capsules E.collisionGeometry st
  let prims ← movedBoxes cs E.bvh.prims
  let bvh ← setBoundingBoxes prims
  some { E with collisionState := cs, bvh := bvh }

/-- collision_error_function.h:59-76: whether the set contains the pair; the order does not matter. -/
def excluded (E : CollisionError) (a b : Nat) : Bool :=
  E.excludingPairIds.any fun p => (p.1 == a && p.2 == b) || (p.1 == b && p.2 == a)

/-- collision_error_function.cpp:152-176 (and 204-228,257-281,454-478): the tests at the beginning of each callback; the
inner `none` is the early `return true`. -/
noncomputable def narrowPhase (E : CollisionError) (a b : Nat) : Option (Option OverlapInfo) :=
  if E.excluded a b = true then some none
  else do
    let ca ← E.collisionState[a]?
    let cb ← E.collisionState[b]?
    if overlaps E.tol E.eps ca cb = true then some (overlapInfo E.tol ca cb) else some none

/-- The callback of `traverseOverlappingPairs` around a body `f`; it always asks to continue. -/
noncomputable def callback {σ : Type} (E : CollisionError) (f : σ → Nat → Nat → OverlapInfo → Option σ) (s : Option σ)
    (a b : Nat) : Option σ × Bool :=
  (s.bind fun s => (E.narrowPhase a b).bind fun o =>
    match o with
    | none => some s
    | some r => f s a b r, true)

/-- `bvh_.traverseOverlappingPairs` with such a callback. -/
noncomputable def forPairs {σ : Type} (E : CollisionError) (f : σ → Nat → Nat → OverlapInfo → Option σ) (s : σ) : Option σ :=
  (traverseOverlappingPairs E.bvh (E.callback f) (some s)).join

/-- collision_error_function.cpp:147-184 `getCollisionPairs`. -/
noncomputable def getCollisionPairs (E : CollisionError) : Option (List (Nat × Nat)) :=
  E.forPairs (fun l a b _ => some (l ++ [(a, b)])) []

/-- collision_error_function.cpp:230: what a pair adds to the error. -/
noncomputable def pairError (E : CollisionError) (r : OverlapInfo) : ℝ :=
  r.overlap * r.overlap * kCollisionWeight * E.weight

/-- collision_error_function.cpp:186-236 `getError`.  The check of the number of joint parameters in the state is left out:
the state here does not contain them. -/
noncomputable def getError (E : CollisionError) (st : List JointState) : Option (ℝ × CollisionError) :=
  if st.isEmpty then some (0, E)
  else do
    let E ← E.computeBroadPhase st
    let error ← E.forPairs (fun error _ _ r => some (error + E.pairError r)) 0
    some (error, E)

/-- collision_error_function.cpp:305-347: the degrees of freedom of an ancestor `js` of a capsule touched at `pos`, with
the joint gradient of each. -/
noncomputable def pairDofs (pos direction : Vec3 ℝ) (wgt : ℝ) (js : JointState) : List (Nat × Option ℝ) :=
  let posd := pos - js.transform.translation
  let t (d : Fin 3) : Option ℝ := (js.getTranslationDerivative d).map fun v => direction.dot v * wgt
  let r (d : Fin 3) : Option ℝ := (js.getRotationDerivative d posd).map fun v => direction.dot v * wgt
  [(0, t 0), (3, r 0), (1, t 1), (4, r 1), (2, t 2), (5, r 2), (6, some (direction.dot (js.getScaleDerivative posd) * wgt))]

/-- What the callbacks of `getGradient` and `getJacobian` read: the joints of the two capsules, their common ancestor and
the closest points (collision_error_function.cpp:283-294,480-491). -/
noncomputable def pairData (E : CollisionError) (a b : Nat) (r : OverlapInfo) :
    Option (Nat × Nat × Option Nat × Vec3 ℝ × Vec3 ℝ) := do
  let ga ← E.collisionGeometry[a]?
  let gb ← E.collisionGeometry[b]?
  let commonAncestor ← E.skeleton.commonAncestor (some ga.parent) (some gb.parent)
  let ca ← E.collisionState[a]?
  let cb ← E.collisionState[b]?
  some (ga.parent, gb.parent, commonAncestor, ca.origin + r.s • ca.direction, cb.origin + r.t • cb.direction)

/-- collision_error_function.cpp:283-410: the callback of `getGradient` for a pair that overlaps. -/
noncomputable def gradPair (E : CollisionError) (st : List JointState) (s : ℝ × (Nat → ℝ)) (a b : Nat) (r : OverlapInfo) :
    Option (ℝ × (Nat → ℝ)) := do
  let (jointA, jointB, commonAncestor, positionI, positionJ) ← E.pairData a b r
  let direction := positionI - positionJ
  let overlapFraction := r.overlap / r.distance
  let wgt := -2 * kCollisionWeight * E.weight * overlapFraction
  let g ← chainWalkTo E.skeleton E.activeJointParams st (pairDofs positionI direction wgt) (gradScatter E.transform)
    commonAncestor (some jointA) s.2
  let g ← chainWalkTo E.skeleton E.activeJointParams st (pairDofs positionJ direction (-wgt)) (gradScatter E.transform)
    commonAncestor (some jointB) g
  some (s.1 + E.pairError r, g)

/-- collision_error_function.cpp:238-414 `getGradient`: the returned error, the gradient and the object after the call. -/
noncomputable def getGradient (E : CollisionError) (st : List JointState) (gradient : Nat → ℝ) :
    Option ((ℝ × (Nat → ℝ)) × CollisionError) :=
  if st.isEmpty then some ((0, gradient), E)
  else do
    let E ← E.computeBroadPhase st
    let s ← E.forPairs (E.gradPair st) (0, gradient)
    some (s, E)

/-- `pairDofs` as one row of a Jacobian. -/
noncomputable def rowDofs (pos direction : Vec3 ℝ) (wgt : ℝ) (js : JointState) : List (Nat × Option (Fin 1 → ℝ)) :=
  (pairDofs pos direction wgt js).map fun d => (d.1, d.2.map fun v _ => v)

/-- collision_error_function.cpp:480-608: the callback of `getJacobian` for a pair that overlaps; `n` is the number of rows
of the blocks. -/
noncomputable def jacPair (E : CollisionError) (st : List JointState) (n : Nat) (s : JacobianResult) (a b : Nat)
    (r : OverlapInfo) : Option JacobianResult := do
  let (jointA, jointB, commonAncestor, positionI, positionJ) ← E.pairData a b r
  let wgt := Real.sqrt (kCollisionWeight * E.weight)
  let direction := positionI - positionJ
  let inverseDistance := 1 / r.distance
  let fac := 2 * inverseDistance * wgt
  if s.rows < n then
    let e ← chainWalkTo E.skeleton E.activeJointParams st (rowDofs positionI direction (-fac))
      (jacScatter E.transform s.rows) commonAncestor (some jointA) s.e
    let e ← chainWalkTo E.skeleton E.activeJointParams st (rowDofs positionJ direction fac)
      (jacScatter E.transform s.rows) commonAncestor (some jointB) e
    some
      { error := s.error + E.pairError r
        rows := s.rows + 1
        e := e
        residual := Function.update s.residual s.rows (r.overlap * wgt) }
  else none

/-- collision_error_function.cpp:416-614 `getJacobian` on blocks of `n` rows with the contents given; `usedRows` is the
value of that variable before the call. -/
noncomputable def getJacobian (E : CollisionError) (st : List JointState) (n : Nat) (jacobian : Nat → Nat → ℝ)
    (residual : Nat → ℝ) (usedRows : Nat) : Option (JacobianResult × CollisionError) :=
  if n < E.jacobianSize then none
  else if st.isEmpty then some (⟨0, usedRows, jacobian, residual⟩, E)
  else do
    let E ← E.computeBroadPhase st
    let s ← E.forPairs (E.jacPair st n) ⟨0, 0, jacobian, residual⟩
    some (s, E)

/-- collision_error_function.cpp:616-619 `getJacobianSize`. -/
def getJacobianSize (E : CollisionError) : Nat := E.jacobianSize

end CollisionError
end Momentum
