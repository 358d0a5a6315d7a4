import Verif.Model.CollisionError

/-!
# The collision error function with SIMD packets

momentum/character_solver/simd_collision_error_function.{h,cpp}.  A packet is `W` lanes; the sum over the lanes of a packet
is `laneSum`.  The members and the walks up the hierarchy are those of the collision error function
(`Model/CollisionError.lean`).  `none` is a read or write out of range, a loop that does not end, a failed build of the
bounding volume hierarchy, or a division by a distance of zero, which fills the gradient with NaN.
-/

namespace Momentum

/-- `drjit::clamp(x, 0, 1)`. -/
noncomputable def drClamp01 (x : ℝ) : ℝ := max (min x 1) 0

/-- simd_collision_error_function.cpp:38-78 `closestPointOnTwoSegments`, one lane. -/
noncomputable def simdSegments (p0 d0 p1 d1 : Vec3 ℝ) : ℝ × ℝ :=
  let p := p1 - p0
  let pd0 := p.dot d0
  let pd1 := p.dot d1
  let d00 := d0.dot d0
  let d11 := d1.dot d1
  let d01 := d0.dot d1
  let div := d00 * d11 - d01 * d01
  let t0 := drClamp01 (if div > 0 then (pd0 * d11 - pd1 * d01) / div else 0)
  let t1 := drClamp01 (if d11 > 0 then (t0 * d01 - pd1) / d11 else 0)
  let t0 := drClamp01 (if d00 > 0 then (t1 * d01 + pd0) / d00 else t0)
  (t0, t1)

/-- simd_collision_error_function.cpp:266-276 (and 310-321,503-514): the closest points, their distance and the overlap of
two capsules, one lane. -/
noncomputable def simdInfo (a b : CapsuleState ℝ) : OverlapInfo :=
  let st := simdSegments a.origin a.direction b.origin b.direction
  let closestA := a.origin + st.1 • a.direction
  let closestB := b.origin + st.2 • b.direction
  let distance := Real.sqrt (closestA - closestB).sqNorm
  let radius := (a.radius0 * (1 - st.1) + a.radius1 * st.1) + (b.radius0 * (1 - st.2) + b.radius1 * st.2)
  ⟨st.1, st.2, distance, radius - distance⟩

/-- simd_collision_error_function.h:70-90: the members of the collision error function and `collisionPairs_`. -/
structure SimdCollision extends CollisionError where
  candidates : List (List Nat)

/-- `drjit::sum` of a packet. -/
noncomputable def laneSum (W : Nat) (x : Nat → ℝ) : ℝ := ((List.range W).map x).sum

/-- One lane of a packet: the lane is masked out when there is no candidate left. -/
def packetLane {σ : Type} (W : Nat) (l : List Nat) (f : σ → Nat → Nat → Option σ) (p : Nat) (s : σ) (k : Nat) : Option σ :=
  match l[p * W + k]? with
  | none => some s
  | some j => f s k j

/-- One packet of candidates. -/
def packetStep {σ : Type} (W : Nat) (l : List Nat) (f : σ → Nat → Nat → Option σ) (s : σ) (p : Nat) : Option σ :=
  (List.range W).foldlM (packetLane W l f p) s

/-- simd_collision_error_function.cpp:260,304,497: `for (auto [candidateIndices, mask] : drjit::range<IntP>(size))`, with a
body `f s k j` for lane `k` and candidate `j`. -/
def packets {σ : Type} (W : Nat) (l : List Nat) (f : σ → Nat → Nat → Option σ) (s : σ) : Option σ :=
  (List.range ((l.length + W - 1) / W)).foldlM (packetStep W l f) s

namespace SimdCollision

/-- simd_collision_error_function.cpp:138-186: one pair of the double loop.  Unlike in the collision error function the
count goes up for every pair that does not overlap. -/
noncomputable def pairStep (E : CollisionError) (cs : List (CapsuleState ℝ)) (i : Nat) (acc : List (Nat × Nat) × Nat)
    (j : Nat) : Option (List (Nat × Nat) × Nat) := do
  let a ← cs[i]?
  let b ← cs[j]?
  if overlaps E.tol E.eps a b = true then some ((i, j) :: acc.1, acc.2)
  else
    let ga ← E.collisionGeometry[i]?
    let gb ← E.collisionGeometry[j]?
    let count ← pairSteps E.skeleton (some ga.parent) (some gb.parent) 0
    if count ≤ 1 then some ((i, j) :: acc.1, acc.2 + 1) else some (acc.1, acc.2 + 1)

/-- simd_collision_error_function.cpp:137-189: the double loop over the pairs. -/
noncomputable def pairLoop (E : CollisionError) (cs : List (CapsuleState ℝ)) (n : Nat) : Option (List (Nat × Nat) × Nat) :=
  (List.range n).foldlM (init := (([] : List (Nat × Nat)), 0)) fun acc i =>
    (List.range' (i + 1) (n - (i + 1))).foldlM (pairStep E cs i) acc

/-- simd_collision_error_function.cpp:83-90,104-191: the constructor, with `updateCollisionPairs`. -/
noncomputable def construct (B : ErrorBase) (offsets : List ℝ) (tol eps : ℝ) (g : List (TaperedCapsule ℝ)) :
    Option SimdCollision := do
  let state ← skeletonState B.skeleton offsets true
  let cs ← CollisionError.capsules g state
  let bvh ← CollisionError.setBoundingBoxes (CollisionError.restBoxes cs)
  let E : CollisionError := ⟨B, tol, eps, g, [], 0, cs, bvh⟩
  let acc ← pairLoop E cs g.length
  some ⟨{ E with excludingPairIds := acc.1, jacobianSize := acc.2 }, []⟩

/-- simd_collision_error_function.cpp:218-232: the callback that stores the candidates; `collisionPairs_[indexA]` is out of
range when there is no such list. -/
noncomputable def candidateCall (E : CollisionError) (s : Option (List (List Nat))) (a b : Nat) :
    Option (List (List Nat)) × Bool :=
  (s.bind fun L =>
    let indexA := if a > b then b else a
    let indexB := if a > b then a else b
    if (indexA, indexB) ∈ E.excludingPairIds then some L
    else if indexA < L.length then some (L.modify indexA (· ++ [indexB])) else none, true)

/-- simd_collision_error_function.cpp:193-233 `computeBroadPhase`. -/
noncomputable def computeBroadPhase (E : SimdCollision) (st : List JointState) : Option SimdCollision := do
  let C ← E.toCollisionError.computeBroadPhase st
  let L ← (traverseOverlappingPairs C.bvh (candidateCall C)
    (some (List.replicate C.collisionGeometry.length ([] : List Nat)))).join
  some ⟨C, L⟩

/-- The loops over the capsules and their candidates (simd_collision_error_function.cpp:253-278 and two more times), with a
body `f s k i j r` for lane `k`, capsules `i` and `j` and the numbers `r` of that lane. -/
noncomputable def forCandidates {σ : Type} (E : SimdCollision) (W : Nat)
    (f : σ → Nat → Nat → Nat → OverlapInfo → Option σ) (s : σ) : Option σ :=
  E.candidates.zipIdx.foldlM (fun s q => packets W q.1 (fun s k j => do
    let a ← E.collisionState[q.2]?
    let b ← E.collisionState[j]?
    f s k q.2 j (simdInfo a b)) s) s

/-- Adding to one lane of a packet. -/
def addLane (x : Nat → ℝ) (k : Nat) (v : ℝ) : Nat → ℝ := Function.update x k (x k + v)

/-- simd_collision_error_function.cpp:278: what a lane adds to the error. -/
noncomputable def errorLane (x : Nat → ℝ) (k _i _j : Nat) (r : OverlapInfo) : Option (Nat → ℝ) :=
  some (addLane x k (max r.overlap 0 ^ 2))

/-- simd_collision_error_function.cpp:235-281 `getError` with packets of `W` lanes. -/
noncomputable def getError (E : SimdCollision) (W : Nat) (st : List JointState) : Option (ℝ × SimdCollision) :=
  if st.isEmpty then some (0, E)
  else do
    let E ← E.computeBroadPhase st
    let error ← E.forCandidates W errorLane fun _ => 0
    some (laneSum W error * kCollisionWeight * E.weight, E)

/-- simd_collision_error_function.cpp:321-465: one lane of `getGradient`; the walks are those of the collision error
function.  With a distance of zero the code divides by zero and goes on with NaN. -/
noncomputable def gradLane (E : SimdCollision) (st : List JointState) (s : (Nat → ℝ) × (Nat → ℝ)) (k i j : Nat)
    (r : OverlapInfo) : Option ((Nat → ℝ) × (Nat → ℝ)) :=
  if r.overlap > 0 then
    if r.distance = 0 then none
    else do
      let q ← E.toCollisionError.gradPair st (0, s.2) i j r
      some (addLane s.1 k (kCollisionWeight * E.weight * r.overlap ^ 2), q.2)
  else some s

/-- simd_collision_error_function.cpp:283-473 `getGradient` with packets of `W` lanes. -/
noncomputable def getGradient (E : SimdCollision) (W : Nat) (st : List JointState) (gradient : Nat → ℝ) :
    Option ((ℝ × (Nat → ℝ)) × SimdCollision) :=
  if st.isEmpty then some ((0, gradient), E)
  else do
    let E ← E.computeBroadPhase st
    let s ← E.forCandidates W (E.gradLane st) (fun _ => 0, gradient)
    some ((laneSum W s.1, s.2), E)

/-- simd_collision_error_function.cpp:514-656: one lane of `getJacobian`. -/
noncomputable def jacLane (E : SimdCollision) (st : List JointState) (n : Nat) (s : (Nat → ℝ) × JacobianResult)
    (k i j : Nat) (r : OverlapInfo) : Option ((Nat → ℝ) × JacobianResult) :=
  if r.overlap > 0 then
    if r.distance = 0 then none
    else do
      let q ← E.toCollisionError.jacPair st n s.2 i j r
      some (addLane s.1 k (kCollisionWeight * E.weight * r.overlap ^ 2), q)
  else some s

/-- simd_collision_error_function.cpp:475-664 `getJacobian` on blocks of `n` rows; there is no test whether the state is
empty or the blocks are large enough. -/
noncomputable def getJacobian (E : SimdCollision) (W : Nat) (st : List JointState) (n : Nat) (jacobian : Nat → Nat → ℝ)
    (residual : Nat → ℝ) : Option (JacobianResult × SimdCollision) := do
  let E ← E.computeBroadPhase st
  let s ← E.forCandidates W (E.jacLane st n) (fun _ => 0, ⟨0, 0, jacobian, residual⟩)
  some ({ s.2 with error := laneSum W s.1 }, E)

/-- simd_collision_error_function.cpp:666-669 `getJacobianSize`. -/
def getJacobianSize (E : SimdCollision) : Nat := E.jacobianSize

end SimdCollision
end Momentum
