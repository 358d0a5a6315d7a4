import Verif.Model.BoundingBox
import Verif.Model.Limits

/-!
# axel/Bvh.h and axel/Bvh.cpp

`flatTree_` and `buildPrimitives_` are lists read with `[i]?`; an out-of-range access is an explicit
outcome. `nodeCount_` always equals `flatTree_.size()` and is not stored separately. `uint32_t`
arithmetic that can wrap (`rightOffset--`, the cast of the primitive count) is taken modulo 2^32;
other indices are natural numbers.
-/

namespace Momentum

instance : Monad Outcome where
  pure := .ok
  bind := Outcome.bind

/-- Reading an element of a vector: out of range is undefined behaviour. -/
def readAt {α : Type} (l : List α) (i : Nat) : Outcome α :=
  match l[i]? with
  | some a => .ok a
  | none => .ub

/-- Bvh.h:37-51 `BvhFlatNode`. -/
structure BvhNode (K : Type) where
  bbox : Box K
  start : Nat
  nPrims : Nat
  rightOffset : Nat
  deriving DecidableEq

/-- Bvh.h:40-42. -/
def BvhNode.isLeaf {K : Type} (n : BvhNode K) : Bool := n.rightOffset = 0

/-- The data of a `Bvh` object. -/
structure Bvh (K : Type) where
  flat : List (BvhNode K)
  prims : List (Box K)
  deriving DecidableEq

/-- Bvh.cpp:206-212 `BvhBuildEntry`. -/
structure BuildEntry where
  parent : Nat
  start : Nat
  stop : Nat

/-- The local state of `build`: the stack is listed from its top. -/
structure BuildState (K : Type) where
  prims : List (Box K)
  flat : List (BvhNode K)
  stack : List BuildEntry

/-- Bvh.cpp:226-228. -/
def kUntouched : Nat := 0xFFFFFFFF
def kTouchedTwice : Nat := 0xFFFFFFFD
def kRootParentIndex : Nat := 0xFFFFFFFC
/-- Bvh.cpp:230: size of the array used as a stack by `build`. -/
def kBuildStack : Nat := 128
/-- Bvh.h:88 `kMaxStackDepth`. -/
def kMaxStackDepth : Nat := 64

section
variable {K : Type} [Field K] [LinearOrder K]

/-- Bvh.cpp:253-257: loop body accumulating the box of the node and of the primitive centers. -/
def boxesStep (prims : List (Box K)) (acc : Box K × Box K) (p : Nat) : Outcome (Box K × Box K) :=
  (readAt prims p).bind fun b => .ok (acc.1.extend b, acc.2.extendPoint b.center)

/-- Bvh.cpp:251-257. -/
def nodeBoxes (prims : List (Box K)) (start stop : Nat) : Outcome (Box K × Box K) :=
  (readAt prims start).bind fun b0 =>
    (List.range (stop - (start + 1))).foldl
      (fun (acc : Outcome (Box K × Box K)) k => acc.bind fun a => boxesStep prims a (start + 1 + k))
      (.ok (b0, Box.ofPoint b0.center))

/-- Bvh.cpp:269-277: a child touches its parent (`flat` already ends with the child). -/
def touchParent (flat : List (BvhNode K)) (parent : Nat) : Outcome (List (BvhNode K)) :=
  if parent = kRootParentIndex then .ok flat
  else (readAt flat parent).bind fun nd =>
    let r := (nd.rightOffset + (2 ^ 32 - 1)) % 2 ^ 32
    .ok (flat.set parent { nd with rightOffset := if r = kTouchedTwice then (flat.length - 1 - parent) % 2 ^ 32 else r })

/-- `std::swap` of two elements. -/
def swapAt {α : Type} (l : List α) (i j : Nat) : Outcome (List α) :=
  (readAt l i).bind fun a => (readAt l j).bind fun b => .ok ((l.set i b).set j a)

/-- Bvh.cpp:294-303: loop body of the partition. -/
def partitionStep (dim : Fin 3) (split : K) (st : List (Box K) × Nat) (i : Nat) : Outcome (List (Box K) × Nat) :=
  (readAt st.1 i).bind fun b =>
    let lo := b.min.get dim
    let hi := b.max.get dim
    if hi ≤ split ∨ (lo ≤ split ∧ hi < 2 * split - lo) then
      if i ≠ st.2 then (swapAt st.1 i st.2).bind fun ps => .ok (ps, st.2 + 1)
      else .ok (st.1, st.2 + 1)
    else .ok st

/-- Bvh.cpp:292-304: in-place partition of `[start, stop)`; returns the primitives and `mid`. -/
def partitionRange (prims : List (Box K)) (start stop : Nat) (dim : Fin 3) (split : K) : Outcome (List (Box K) × Nat) :=
  (List.range (stop - start)).foldl
    (fun (acc : Outcome (List (Box K) × Nat)) k => acc.bind fun st => partitionStep dim split st (start + k))
    (.ok (prims, start))

/-- Bvh.cpp:243-322: one iteration of the build loop for the popped entry `e`; `rest` is the stack
below it. Writing past `stackSize` entries is undefined behaviour. -/
def buildStep (leafCapacity stackSize : Nat) (prims : List (Box K)) (flat : List (BvhNode K)) (e : BuildEntry)
    (rest : List BuildEntry) : Outcome (BuildState K) :=
  (nodeBoxes prims e.start e.stop).bind fun boxes =>
    let count := e.stop - e.start
    let cur : BvhNode K := ⟨boxes.1, e.start, count, if count ≤ leafCapacity then 0 else kUntouched⟩
    (touchParent (flat ++ [cur]) e.parent).bind fun flat' =>
      if cur.isLeaf then .ok ⟨prims, flat', rest⟩
      else
        let dim := boxes.2.maxDimension
        let split := (boxes.2.min.get dim + boxes.2.max.get dim) / 2
        (partitionRange prims e.start e.stop dim split).bind fun pm =>
          let mid := if pm.2 = e.start ∨ pm.2 = e.stop then e.start + (e.stop - e.start) / 2 else pm.2
          if rest.length + 2 ≤ stackSize then
            .ok ⟨pm.1, flat', ⟨flat'.length - 1, e.start, mid⟩ :: ⟨flat'.length - 1, mid, e.stop⟩ :: rest⟩
          else .ub

/-- Bvh.cpp:241-323: the build loop. `none` is non-termination. -/
def buildLoop (leafCapacity stackSize : Nat) (st : BuildState K) : Option (Outcome (BuildState K)) :=
  match st.stack with
  | [] => some (.ok st)
  | e :: rest =>
    match buildStep leafCapacity stackSize st.prims st.flat e rest with
    | .ok st' => buildLoop leafCapacity stackSize st'
    | .throws => some .throws
    | .ub => some .ub
partial_fixpoint

/-- Bvh.cpp:215-324 `build` (and the constructor and `setBoundingBoxes` :33-42, which copy the boxes
and call it). `stackSize` is `kBuildStack` in the code. -/
def bvhBuild (leafCapacity stackSize : Nat) (prims : List (Box K)) : Option (Outcome (Bvh K)) :=
  if prims = [] then some (.ok ⟨[], []⟩)
  else (buildLoop leafCapacity stackSize
      ⟨prims, [], [⟨kRootParentIndex, 0, prims.length % 2 ^ 32⟩]⟩).map
    fun r => r.bind fun st => .ok ⟨st.flat, st.prims⟩

/-! ### Stack based queries

`query(box)`, `query(box, buffer)`, `query(ray)`, `rayQueryClosestHit` and `rayQueryAnyHit` share one
loop shape; they differ in the box test used to descend, in what is done with a leaf primitive and in
when the loop stops early. -/

/-- `eachPrimitive` (Bvh.h:215-299): the primitives of a node. -/
def nodePrims (b : Bvh K) (nd : BvhNode K) : Outcome (List (Box K)) :=
  (List.range nd.nPrims).foldl
    (fun (acc : Outcome (List (Box K))) k => acc.bind fun l => (readAt b.prims (nd.start + k)).bind fun p => .ok (l ++ [p]))
    (.ok [])

/-- Pushing onto the fixed-size stack. -/
def pushIf (stackSize : Nat) (c : Bool) (i : Nat) (stack : List Nat) : Outcome (List Nat) :=
  if c then (if stack.length < stackSize then .ok (i :: stack) else .ub) else .ok stack

/-- One iteration of the loop (Bvh.cpp:66-82, 101-116, 134-153; Bvh.h:565-577, 602-617). -/
def todoStep {σ : Type} (b : Bvh K) (stackSize : Nat) (visit : Box K → Bool) (leaf : σ → Box K → Outcome σ)
    (nodeIdx : Nat) (rest : List Nat) (s : σ) : Outcome (List Nat × σ) :=
  (readAt b.flat nodeIdx).bind fun nd =>
    if nd.isLeaf then
      (nodePrims b nd).bind fun ps =>
        (ps.foldl (fun (acc : Outcome σ) p => acc.bind fun s => leaf s p) (.ok s)).bind fun s' => .ok (rest, s')
    else
      (readAt b.flat (nodeIdx + 1)).bind fun l =>
        (readAt b.flat (nodeIdx + nd.rightOffset)).bind fun r =>
          (pushIf stackSize (visit l.bbox) (nodeIdx + 1) rest).bind fun st1 =>
            (pushIf stackSize (visit r.bbox) (nodeIdx + nd.rightOffset) st1).bind fun st2 => .ok (st2, s)

/-- The loop; `none` is non-termination. -/
def todoLoop {σ : Type} (b : Bvh K) (stackSize : Nat) (visit : Box K → Bool) (leaf : σ → Box K → Outcome σ)
    (stop : σ → Bool) (stack : List Nat) (s : σ) : Option (Outcome σ) :=
  match stack with
  | [] => some (.ok s)
  | i :: rest =>
    if stop s then some (.ok s)
    else match todoStep b stackSize visit leaf i rest s with
      | .ok r => todoLoop b stackSize visit leaf stop r.1 r.2
      | .throws => some .throws
      | .ub => some .ub
partial_fixpoint

/-- Bvh.cpp:55-86 `query(box)`: ids in order of discovery. -/
def queryBox (b : Bvh K) (box : Box K) : Option (Outcome (List Nat)) :=
  if b.flat.length = 0 then some (.ok [])
  else todoLoop b kMaxStackDepth (fun nb => nb.intersects box) (fun hits p => .ok (hits ++ [p.id])) (fun _ => false) [0] []

/-- Bvh.cpp:89-120 `query(box, buffer)`: `size` is the size of the caller's buffer (512). The state is
the list of ids written so far; writing past the buffer is undefined behaviour. -/
def queryBoxBuffer (b : Bvh K) (box : Box K) (size : Nat) : Option (Outcome (List Nat)) :=
  if b.flat.length = 0 then some (.ok [])
  else todoLoop b kMaxStackDepth (fun nb => nb.intersects box)
    (fun hits p => if hits.length < size then .ok (hits ++ [p.id]) else .ub)
    (fun hits => decide (size ≤ hits.length)) [0] []

/-- Bvh.cpp:123-156 `query(origin, direction)`. There is no test for the empty tree. -/
def queryRay (b : Bvh K) (origin direction : Vec3 K) : Option (Outcome (List Nat)) :=
  todoLoop b kMaxStackDepth (fun nb => nb.intersectsRay origin direction)
    (fun hits p => .ok (if p.intersectsRay origin direction then hits ++ [p.id] else hits)) (fun _ => false) [0] []

/-- `direction.cwiseInverse()`. -/
def Vec3.cwiseInverse (d : Vec3 K) : Vec3 K := ⟨d.x⁻¹, d.y⁻¹, d.z⁻¹⟩

/-- Bvh.h:540-578 `rayQueryClosestHit`: `func` gets the primitive id and updates the pair (result, maxT). -/
def rayQueryClosestHit {σ : Type} (b : Bvh K) (big : K) (origin direction : Vec3 K) (func : σ → Nat → σ) (init : σ) :
    Option (Outcome σ) :=
  todoLoop b kMaxStackDepth (fun nb => nb.intersectsBranchless big origin direction.cwiseInverse)
    (fun s p => .ok (func s p.id)) (fun _ => false) [0] init

/-- Bvh.h:580-619 `rayQueryAnyHit`: stops as soon as the callback accepts a primitive (the state). -/
def rayQueryAnyHit (b : Bvh K) (big : K) (origin direction : Vec3 K) (func : Nat → Bool) : Option (Outcome Bool) :=
  todoLoop b kMaxStackDepth (fun nb => nb.intersectsBranchless big origin direction.cwiseInverse)
    (fun s p => .ok (s || func p.id)) (fun s => s) [0] false

/-! ### Recursive traversals (an out-of-range access and non-termination are both `none`) -/

/-- `eachPrimitive` as an `Option`. -/
def nodePrims? (b : Bvh K) (nd : BvhNode K) : Option (List (Box K)) :=
  match nodePrims b nd with
  | .ok l => some l
  | _ => none

/-- `eachPrimitive` with a bool callback: stops when the callback returns false. -/
def eachPrim {σ : Type} (f : σ → Box K → σ × Bool) : List (Box K) → σ → σ × Bool
  | [], s => (s, true)
  | p :: ps, s =>
    let r := f s p
    if r.2 then eachPrim f ps r.1 else (r.1, false)

/-- Bvh.h:308-361 `traverseCollision`; the callback is a state transformer returning "continue". -/
def traverseCollision {σ : Type} (a : Bvh K) (b : Bvh K) (func : σ → Nat → Nat → σ × Bool) (ia ib : Nat) (s : σ) :
    Option (σ × Bool) := do
  let na ← a.flat[ia]?
  let nb ← b.flat[ib]?
  if na.bbox.intersects nb.bbox = false then some (s, false)
  else if na.isLeaf = true ∧ nb.isLeaf = true then do
    let pa ← nodePrims? a na
    let pb ← nodePrims? b nb
    some ((eachPrim (fun s x => eachPrim (fun s y => func s x.id y.id) pb s) pa s).1, false)
  else if nb.isLeaf = true ∨ (na.isLeaf = false ∧ na.bbox.squaredVolume > nb.bbox.squaredVolume) then do
    let r ← traverseCollision a b func (ia + 1) ib s
    if r.2 then some (r.1, true) else traverseCollision a b func (ia + na.rightOffset) ib r.1
  else do
    let r ← traverseCollision a b func ia (ib + 1) s
    if r.2 then some (r.1, true) else traverseCollision a b func ia (ib + nb.rightOffset) r.1
partial_fixpoint

/-- Bvh.h:363-397 `traverseSelfCollision`. -/
def traverseSelfCollision {σ : Type} (b : Bvh K) (func : σ → Nat → Nat → σ × Bool) (i : Nat) (s : σ) : Option (σ × Bool) := do
  let nd ← b.flat[i]?
  if nd.isLeaf then some (s, false)
  else do
    let r1 ← traverseSelfCollision b func (i + 1) s
    if r1.2 then some (r1.1, true)
    else do
      let r2 ← traverseSelfCollision b func (i + nd.rightOffset) r1.1
      if r2.2 then some (r2.1, true)
      else do
        let r3 ← traverseCollision b b func (i + 1) (i + nd.rightOffset) r2.1
        some (r3.1, r3.2)
partial_fixpoint

/-- Bvh.h:621-633 `traverseOverlappingPairs(func)`. -/
def traverseOverlappingPairs {σ : Type} (b : Bvh K) (func : σ → Nat → Nat → σ × Bool) (s : σ) : Option σ :=
  if b.flat.length = 0 then some s else (traverseSelfCollision b func 0 s).map (·.1)

/-- Bvh.h:635-657 `traverseOverlappingPairs(other, func)`. -/
def traverseOverlappingPairs2 {σ : Type} (a b : Bvh K) (func : σ → Nat → Nat → σ × Bool) (s : σ) : Option σ :=
  if a.flat.length = 0 ∨ b.flat.length = 0 then some s else (traverseCollision a b func 0 0 s).map (·.1)

/-- `ClosestSurfacePointResult` (BvhCommon.h): `none` is `kInvalidTriangleIdx`. -/
abbrev ClosestResult (K : Type) := Option (Vec3 K × Nat)

/-- Bvh.h:488-497: loop body at a leaf. -/
def closestLeafStep (query : Vec3 K) (proj : Nat → Vec3 K) (acc : K × ClosestResult K) (p : Box K) : K × ClosestResult K :=
  let projection := proj p.id
  let distSq := (projection - query).sqNorm
  if distSq < acc.1 then (distSq, some (projection, p.id)) else acc

/-- Bvh.h:501-507 `checkSubtree`, after the recursive call returned `sub`. -/
def takeCloser (acc sub : K × ClosestResult K) : K × ClosestResult K := if sub.1 < acc.1 then sub else acc

/-- Bvh.h:446-538 `queryClosestHelper`, scalar version; returns the new `sqrDist` and `result`. -/
def closestHelper (b : Bvh K) (query : Vec3 K) (proj : Nat → Vec3 K) (nodeIdx : Nat) (acc : K × ClosestResult K) :
    Option (K × ClosestResult K) := do
  let nd ← b.flat[nodeIdx]?
  if nd.isLeaf then do
    let ps ← nodePrims? b nd
    some (ps.foldl (closestLeafStep query proj) acc)
  else do
    let l ← b.flat[nodeIdx + 1]?
    let r ← b.flat[nodeIdx + nd.rightOffset]?
    let inL := l.bbox.containsPoint query
    let inR := r.bbox.containsPoint query
    let dl := l.bbox.squaredExteriorDistance query
    let dr := r.bbox.squaredExteriorDistance query
    let acc1 ← (if inL then closestHelper b query proj (nodeIdx + 1) (acc.1, none) >>= fun s => some (takeCloser acc s) else some acc)
    let acc2 ← (if inR then closestHelper b query proj (nodeIdx + nd.rightOffset) (acc1.1, none) >>= fun s => some (takeCloser acc1 s)
      else some acc1)
    if dl < dr then do
      let acc3 ← (if inL = false ∧ dl < acc2.1 then
        closestHelper b query proj (nodeIdx + 1) (acc2.1, none) >>= fun s => some (takeCloser acc2 s) else some acc2)
      (if inR = false ∧ dr < acc3.1 then
        closestHelper b query proj (nodeIdx + nd.rightOffset) (acc3.1, none) >>= fun s => some (takeCloser acc3 s) else some acc3)
    else do
      let acc3 ← (if inR = false ∧ dr < acc2.1 then
        closestHelper b query proj (nodeIdx + nd.rightOffset) (acc2.1, none) >>= fun s => some (takeCloser acc2 s) else some acc2)
      (if inL = false ∧ dl < acc3.1 then
        closestHelper b query proj (nodeIdx + 1) (acc3.1, none) >>= fun s => some (takeCloser acc3 s) else some acc3)
partial_fixpoint

/-- Bvh.h:400-420 `queryClosestSurfacePoint`; `big` is `numeric_limits::max()`. There is no test for the
empty tree (reading node 0 of an empty vector). -/
def queryClosestSurfacePoint (b : Bvh K) (big : K) (query : Vec3 K) (proj : Nat → Vec3 K) : Option (ClosestResult K) :=
  (closestHelper b query proj 0 (big, none)).map (·.2)

/-- Bvh.cpp:171-192 `refitRecurse`: returns the updated node vector. -/
def refitRecurse (prims : List (Box K)) (nodes : List (BvhNode K)) (i : Nat) : Option (List (BvhNode K)) := do
  let nd ← nodes[i]?
  if nd.isLeaf then do
    let ps ← nodePrims? ⟨nodes, prims⟩ nd
    let p0 ← ps.head?
    some (nodes.set i { nd with bbox := ps.tail.foldl Box.extend p0 })
  else do
    let n1 ← refitRecurse prims nodes (i + 1)
    let n2 ← refitRecurse prims n1 (i + nd.rightOffset)
    let nd' ← n2[i]?
    let l ← n2[i + 1]?
    let r ← n2[i + nd.rightOffset]?
    some (n2.set i { nd' with bbox := (nd'.bbox.extend l.bbox).extend r.bbox })
partial_fixpoint

/-- Bvh.cpp:195-202 `refit`. -/
def bvhRefit (b : Bvh K) : Option (Bvh K) :=
  if b.flat.length = 0 then some b else (refitRecurse b.prims b.flat 0).map fun f => ⟨f, b.prims⟩

/-- Bvh.cpp:328-353 `checkBoundingBoxesRecurse`. -/
def checkRecurse (b : Bvh K) (i : Nat) : Option Bool := do
  let nd ← b.flat[i]?
  if nd.isLeaf then do
    let ps ← nodePrims? b nd
    some (ps.all fun p => nd.bbox.contains p)
  else do
    let l ← b.flat[i + 1]?
    let r ← b.flat[i + nd.rightOffset]?
    if nd.bbox.contains l.bbox = false then some false
    else if nd.bbox.contains r.bbox = false then some false
    else do
      let cl ← checkRecurse b (i + 1)
      let cr ← checkRecurse b (i + nd.rightOffset)
      some (cl && cr)
partial_fixpoint

/-- Bvh.cpp:356-362 `checkBoundingBoxes`. -/
def checkBoundingBoxes (b : Bvh K) : Option Bool := if b.flat.length = 0 then some true else checkRecurse b 0

end
end Momentum
