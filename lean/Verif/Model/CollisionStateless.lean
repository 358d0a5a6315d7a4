import Verif.Model.CollisionError

/-!
# The collision error function with stored pairs

momentum/character_solver/collision_error_function_stateless.{h,cpp}: instead of a bounding volume hierarchy, the object
stores the list of the pairs to compare and goes over all of them.  Every call that updates the object returns the new
object.  `none` is a failed check, a read or write out of range or a loop that does not end.
-/

namespace Momentum

/-- collision_error_function_stateless.h:60-71: the members.  `tol` and `eps` as in `CollisionError`.  In
`collisionPairs` the third entry is the joint at which the walks stop; there `none` is the `-1` that `kInvalidIndex`
becomes as an `int`. -/
structure StatelessCollision extends ErrorBase where
  tol : ℝ
  eps : ℝ
  collisionGeometry : List (TaperedCapsule ℝ)
  collisionPairs : List (Nat × Nat × Option Nat)
  collisionActive : List Bool
  collisionState : List (CapsuleState ℝ)

/-- collision_error_function_stateless.cpp:80-95: the loop `while (p0 != p1)`; returns `count` and `p0`. -/
def pairWalk (s : Skeleton ℝ) (p0 p1 : Option Nat) (count : Nat) : Option (Nat × Option Nat) :=
  if p0 = p1 then some (count, p0)
  else if indexAbove p0 p1 = true then
    match p0 with
    | none => none
    | some a =>
      match s.parentOf a with
      | none => none
      | some q => pairWalk s q p1 (count + 1)
  else
    match p1 with
    | none => none
    | some b =>
      match s.parentOf b with
      | none => none
      | some q => pairWalk s p0 q (count + 1)
partial_fixpoint

namespace StatelessCollision

/-- collision_error_function_stateless.cpp:58-104: one pair of the double loop. -/
noncomputable def pairStep (E : StatelessCollision) (cs : List (CapsuleState ℝ)) (i : Nat)
    (pairs : List (Nat × Nat × Option Nat)) (j : Nat) : Option (List (Nat × Nat × Option Nat)) := do
  let a ← cs[i]?
  let b ← cs[j]?
  if overlaps E.tol E.eps a b = true then some pairs
  else
    let ga ← E.collisionGeometry[i]?
    let gb ← E.collisionGeometry[j]?
    let (count, p0) ← pairWalk E.skeleton (some ga.parent) (some gb.parent) 0
    if count > 1 then some (pairs ++ [(i, j, p0)]) else some pairs

/-- collision_error_function_stateless.cpp:56-105: the double loop over the pairs. -/
noncomputable def pairLoop (E : StatelessCollision) (cs : List (CapsuleState ℝ)) (n : Nat) :
    Option (List (Nat × Nat × Option Nat)) :=
  (List.range n).foldlM (init := ([] : List (Nat × Nat × Option Nat))) fun pairs i =>
    (List.range' (i + 1) (n - (i + 1))).foldlM (E.pairStep cs i) pairs

/-- collision_error_function_stateless.cpp:22-30,46-108: the constructor, with `updateCollisionPairs`.  `offsets` are the
joint parameters of `parameterTransform_.zero()`. -/
noncomputable def construct (B : ErrorBase) (offsets : List ℝ) (tol eps : ℝ) (g : List (TaperedCapsule ℝ)) :
    Option StatelessCollision := do
  let state ← skeletonState B.skeleton offsets true
  let cs ← CollisionError.capsules g state
  let E : StatelessCollision := ⟨B, tol, eps, g, [], [], cs⟩
  let pairs ← E.pairLoop cs g.length
  some { E with collisionPairs := pairs, collisionActive := List.replicate pairs.length false }

/-- collision_error_function_stateless.cpp:110-121 `getCollisionPairs`. -/
def getCollisionPairs (E : StatelessCollision) : Option (List (Nat × Nat)) :=
  E.collisionPairs.zipIdx.foldlM (init := []) fun result q =>
    (E.collisionActive[q.2]?).map fun on => if on = true then result ++ [(q.1.1, q.1.2.1)] else result

/-- collision_error_function_stateless.cpp:136-138 (and 185-187,370-375): the capsules of the pose, no pair active.
`setConstant` keeps the length of the vector. -/
noncomputable def update (E : StatelessCollision) (st : List JointState) : Option StatelessCollision := do
  let cs ← CollisionError.capsules E.collisionGeometry st
  some { E with collisionState := cs, collisionActive := List.replicate E.collisionActive.length false }

/-- collision_error_function_stateless.cpp:143-163 (and 190-210,383-403): the head of the loop over the pairs, around a body
`f`; the state is that of `f` and `collisionActive`. -/
noncomputable def activeStep {σ : Type} (E : StatelessCollision)
    (f : σ → Nat × Nat × Option Nat → OverlapInfo → Option σ) (s : σ × List Bool)
    (q : (Nat × Nat × Option Nat) × Nat) : Option (σ × List Bool) := do
  let ca ← E.collisionState[q.1.1]?
  let cb ← E.collisionState[q.1.2.1]?
  if overlaps E.tol E.eps ca cb = true then
    let r ← overlapInfo E.tol ca cb
    if q.2 < s.2.length then
      let x ← f s.1 q.1 r
      some (x, s.2.set q.2 true)
    else none
  else some s

/-- The loop over the pairs around a body `f`. -/
noncomputable def forPairs {σ : Type} (E : StatelessCollision)
    (f : σ → Nat × Nat × Option Nat → OverlapInfo → Option σ) (s : σ) : Option (σ × StatelessCollision) :=
  (E.collisionPairs.zipIdx.foldlM (E.activeStep f) (s, E.collisionActive)).map fun x =>
    (x.1, { E with collisionActive := x.2 })

/-- collision_error_function_stateless.cpp:164: what a pair adds to the error. -/
noncomputable def pairError (E : StatelessCollision) (r : OverlapInfo) : ℝ :=
  r.overlap * r.overlap * kCollisionWeight * E.weight

/-- collision_error_function_stateless.cpp:123-169 `getError`.  The check of the number of joint parameters in the state is
left out: the state here does not contain them. -/
noncomputable def getError (E : StatelessCollision) (st : List JointState) : Option (ℝ × StatelessCollision) :=
  if st.isEmpty then some (0, E)
  else do
    let E ← E.update st
    E.forPairs (fun error _ r => some (error + E.pairError r)) 0

/-- collision_error_function_stateless.cpp:213-219,230,281: the joints of the two capsules and the closest points. -/
noncomputable def pairPoints (E : StatelessCollision) (q : Nat × Nat × Option Nat) (r : OverlapInfo) :
    Option (Nat × Nat × Vec3 ℝ × Vec3 ℝ) := do
  let ga ← E.collisionGeometry[q.1]?
  let gb ← E.collisionGeometry[q.2.1]?
  let ca ← E.collisionState[q.1]?
  let cb ← E.collisionState[q.2.1]?
  some (ga.parent, gb.parent, ca.origin + r.s • ca.direction, cb.origin + r.t • cb.direction)

/-- collision_error_function_stateless.cpp:211-332: the body of the loop of `getGradient` for a pair that overlaps. -/
noncomputable def gradPair (E : StatelessCollision) (st : List JointState) (s : ℝ × (Nat → ℝ)) (q : Nat × Nat × Option Nat)
    (r : OverlapInfo) : Option (ℝ × (Nat → ℝ)) := do
  let (jointA, jointB, positionI, positionJ) ← E.pairPoints q r
  let direction := positionI - positionJ
  let overlapFraction := r.overlap / r.distance
  let wgt := -2 * kCollisionWeight * E.weight * overlapFraction
  let g ← chainWalkTo E.skeleton E.activeJointParams st (CollisionError.pairDofs positionI direction wgt)
    (gradScatter E.transform) q.2.2 (some jointA) s.2
  let g ← chainWalkTo E.skeleton E.activeJointParams st (CollisionError.pairDofs positionJ direction (-wgt))
    (gradScatter E.transform) q.2.2 (some jointB) g
  some (s.1 + E.pairError r, g)

/-- collision_error_function_stateless.cpp:171-338 `getGradient`: the returned error, the gradient and the object after the
call. -/
noncomputable def getGradient (E : StatelessCollision) (st : List JointState) (gradient : Nat → ℝ) :
    Option ((ℝ × (Nat → ℝ)) × StatelessCollision) :=
  if st.isEmpty then some ((0, gradient), E)
  else do
    let E ← E.update st
    E.forPairs (E.gradPair st) (0, gradient)

/-- collision_error_function_stateless.cpp:377,404-527: the body of the loop of `getJacobian` for a pair that overlaps; `n` is
the number of rows of the blocks. -/
noncomputable def jacPair (E : StatelessCollision) (st : List JointState) (n : Nat) (s : JacobianResult)
    (q : Nat × Nat × Option Nat) (r : OverlapInfo) : Option JacobianResult := do
  let (jointA, jointB, positionI, positionJ) ← E.pairPoints q r
  let wgt := Real.sqrt (kCollisionWeight * E.weight)
  let direction := positionI - positionJ
  let inverseDistance := 1 / r.distance
  let fac := 2 * inverseDistance * wgt
  if s.rows < n then
    let e ← chainWalkTo E.skeleton E.activeJointParams st (CollisionError.rowDofs positionI direction (-fac))
      (jacScatter E.transform s.rows) q.2.2 (some jointA) s.e
    let e ← chainWalkTo E.skeleton E.activeJointParams st (CollisionError.rowDofs positionJ direction fac)
      (jacScatter E.transform s.rows) q.2.2 (some jointB) e
    some
      { error := s.error + E.pairError r
        rows := s.rows + 1
        e := e
        residual := Function.update s.residual s.rows (r.overlap * wgt) }
  else none

/-- collision_error_function_stateless.cpp:340-534 `getJacobian` on blocks of `n` rows with the contents given; `usedRows`
is the value of that variable before the call. -/
noncomputable def getJacobian (E : StatelessCollision) (st : List JointState) (n : Nat) (jacobian : Nat → Nat → ℝ)
    (residual : Nat → ℝ) (usedRows : Nat) : Option (JacobianResult × StatelessCollision) :=
  if n < E.collisionPairs.length then none
  else if st.isEmpty then some (⟨0, usedRows, jacobian, residual⟩, E)
  else do
    let E ← E.update st
    E.forPairs (E.jacPair st n) ⟨0, 0, jacobian, residual⟩

/-- collision_error_function_stateless.cpp:536-539 `getJacobianSize`. -/
def getJacobianSize (E : StatelessCollision) : Nat := E.collisionPairs.length

/-- skeleton_error_function.h: `setWeight`, `setActiveJoints` and `setEnabledParameters`. -/
def configure (E : StatelessCollision) (w : ℝ) (active : List Bool) (enabled : ParameterSet) : StatelessCollision :=
  { E with weight := w, activeJointParams := active, enabledParameters := enabled }

end StatelessCollision
end Momentum
