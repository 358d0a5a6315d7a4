import Verif.Model.Bvh
import Mathlib.Algebra.BigOperators.Fin

/-!
# axel/SimdKdTree.h, axel/SimdKdTree.cpp

The tree for `n`-dimensional points with SIMD packets of `P` lanes, over a linearly ordered field (the code has `n` = 2 or
3, and `float`; `P` is `drjit::DefaultSize`).  The AVX version (SimdKdTree.cpp:1045-1600, SimdKdTree.h:325-430) is the same
algorithm with `P = 8` and is not modelled separately.  `int` indices are natural numbers; the index `INT_MAX` of a padding
lane is `none`.
-/

namespace Momentum

/-- SimdKdTree.h:60 `kMaxDepth`. -/
def kdMaxDepth : Nat := 20

section
variable (K : Type) (n P : Nat)

/-- `Eigen::AlignedBox`, never empty here. -/
structure KdBox where
  min : Fin n → K
  max : Fin n → K

/-- One lane of a `PointBlock`, `NormalBlock` and `ColorBlock` (SimdKdTree.cpp:86-97). -/
structure KdLane where
  point : Fin n → K
  index : Option Nat
  normal : Fin n → K
  color : Fin 4 → K

/-- The blocks of SimdKdTree.cpp:86-97 at one position. -/
abbrev KdBlock := Fin P → KdLane K n

/-- SimdKdTree.h:171-213 `Node`; `splitDim = none` stands for 255, the mark of a leaf; `left` and `right` are the unions of
the children and the block range. -/
structure KdNode where
  splitVal : K
  splitDim : Option (Fin n)
  left : Nat
  right : Nat
  box : KdBox K n

/-- SimdKdTree.h:215-234, the data members. -/
structure KdTree where
  numPoints : Nat
  nodes : List (KdNode K n)
  blocks : List (KdBlock K n P)
  root : Nat
  depth : Nat
  hasNormals : Bool
  hasColors : Bool

/-- What `split` appends to. -/
structure KdBuild where
  nodes : List (KdNode K n)
  blocks : List (KdBlock K n P)
  depth : Nat

end

/-- A point and its position in the input. -/
abbrev KdPoint (K : Type) (n : Nat) := Nat × (Fin n → K)

/-- What the C++ standard promises of `std::partition` and `std::nth_element`, and nothing else: the order they leave the
elements in is up to the library. -/
structure StdAlgorithms (α K : Type) [LE K] where
  /-- The elements in front of, and from, the returned iterator. -/
  partition : (α → Bool) → List α → List α × List α
  partition_perm : ∀ p l, ((partition p l).1 ++ (partition p l).2).Perm l
  partition_true : ∀ p l, ∀ x ∈ (partition p l).1, p x = true
  partition_false : ∀ p l, ∀ x ∈ (partition p l).2, p x = false
  /-- Reordered by the key, up to position `mid`. -/
  nthElement : (α → K) → Nat → List α → List α
  nth_perm : ∀ key mid l, (nthElement key mid l).Perm l
  nth_left : ∀ key mid l m, (nthElement key mid l)[mid]? = some m → ∀ x ∈ (nthElement key mid l).take mid, key x ≤ key m
  nth_right : ∀ key mid l m, (nthElement key mid l)[mid]? = some m → ∀ x ∈ (nthElement key mid l).drop mid, key m ≤ key x

section
variable {K : Type} [Field K] [LinearOrder K] {n P : Nat}

/-- `box.extend(point)`. -/
def KdBox.extend (b : KdBox K n) (p : Fin n → K) : KdBox K n := ⟨fun d => b.min d ⊓ p d, fun d => b.max d ⊔ p d⟩

/-- SimdKdTree.cpp:746-750: the box of the points, `none` if there are none. -/
def kdHull : List (KdPoint K n) → Option (KdBox K n)
  | [] => none
  | p :: ps => some (ps.foldl (fun b q => b.extend q.2) ⟨p.2, p.2⟩)

/-- `Eigen::AlignedBox::squaredExteriorDistance`. -/
def KdBox.extDist (b : KdBox K n) (q : Fin n → K) : K :=
  ∑ d, if b.min d > q d then (b.min d - q d) * (b.min d - q d)
    else if q d > b.max d then (q d - b.max d) * (q d - b.max d) else 0

/-- The squared distance of two points, lane by lane in the code (SimdKdTree.cpp:182-186). -/
def kdSqDist (p q : Fin n → K) : K := ∑ d, (p d - q d) * (p d - q d)

/-- `box.diagonal().maxCoeff(&splitDim)`: the first longest axis. -/
def KdBox.longestAxis [NeZero n] (b : KdBox K n) : Fin n :=
  (List.finRange n).foldl (fun a d => if b.max a - b.min a < b.max d - b.min d then d else a) 0

/-- SimdKdTree.cpp:757-758, 917: number of blocks for `k` points. -/
def kdNumBlocks (P k : Nat) : Nat := k / P + if k % P = 0 then 0 else 1

/-- SimdKdTree.cpp:845-903: lane `k` of the block of the points from `i` on; `far` is `kFarValueFloat`.  Reading an absent
normal or colour gives zero here; the size checks in `init` exclude it. -/
def kdLane (far : K) (normals : List (Fin n → K)) (colors : List (Fin 4 → K)) (pts : List (KdPoint K n)) (i : Nat) :
    KdLane K n :=
  match pts[i]? with
  | some p => ⟨p.2, some p.1, normals.getD p.1 fun _ => 0, colors.getD p.1 fun _ => 0⟩
  | none => ⟨fun _ => far, none, fun _ => 0, fun _ => 0⟩

/-- SimdKdTree.cpp:843-903: the blocks of a leaf. -/
def kdBlocks (P : Nat) (far : K) (normals : List (Fin n → K)) (colors : List (Fin 4 → K)) (pts : List (KdPoint K n)) :
    List (KdBlock K n P) :=
  (List.range (kdNumBlocks P pts.length)).map fun b => fun k => kdLane far normals colors pts (b * P + k)

/-- SimdKdTree.cpp:829-910 `createLeafNode`, with the checks of `Node`'s constructor (:1017-1025).  The split value of a
leaf (`FLT_MAX` in the code) is never read; here it is zero. -/
def kdLeaf (far : K) (normals : List (Fin n → K)) (colors : List (Fin 4 → K)) (pts : List (KdPoint K n))
    (box : KdBox K n) (st : KdBuild K n P) : Outcome (KdBuild K n P × Nat) :=
  let blocks := st.blocks ++ kdBlocks P far normals colors pts
  if st.blocks.length < blocks.length then
    .ok (⟨st.nodes ++ [⟨0, none, st.blocks.length, blocks.length, box⟩], blocks, st.depth⟩, st.nodes.length)
  else .throws

/-- SimdKdTree.cpp:765-792: the split of a range: left part, right part, split value. -/
def kdPartition (lib : StdAlgorithms (KdPoint K n) K) (P : Nat) (pts : List (KdPoint K n)) (dim : Fin n) (center : K) :
    Outcome (List (KdPoint K n) × List (KdPoint K n) × K) :=
  let ab := lib.partition (fun e => decide (e.2 dim < center)) pts
  if ab.1.length < P ∨ ab.2.length < P then
    let mid := pts.length / 2
    let l := lib.nthElement (fun e => e.2 dim) mid (ab.1 ++ ab.2)
    match l[mid]? with
    | some m => .ok (l.take mid, l.drop mid, m.2 dim)
    | none => .ub
  else .ok (ab.1, ab.2, center)

/-- SimdKdTree.cpp:734-827 `split`, on the list of the points in the range; the points outside the range are not touched.
`fuel` is `kMaxDepth - depth`, so the depth is `kMaxDepth - fuel`. -/
def kdSplit [NeZero n] (lib : StdAlgorithms (KdPoint K n) K) (far : K) (normals : List (Fin n → K))
    (colors : List (Fin 4 → K)) : Nat → List (KdPoint K n) → KdBuild K n P → Outcome (KdBuild K n P × Nat)
  | fuel, pts, st =>
    match kdHull pts with
    | none => .throws
    | some box =>
      let st := { st with depth := max (kdMaxDepth - fuel) st.depth }
      match fuel with
      | 0 => kdLeaf far normals colors pts box st
      | fuel + 1 =>
        if kdNumBlocks P pts.length ≤ 8 then kdLeaf far normals colors pts box st
        else
          let dim := box.longestAxis
          (kdPartition lib P pts dim ((box.min dim + box.max dim) / 2)).bind fun r =>
            if r.1 = [] ∨ r.2.1 = [] then .throws
            else
              let nodeId := st.nodes.length
              let st := { st with nodes := st.nodes ++ [⟨r.2.2, some dim, 0, 0, box⟩] }
              (kdSplit lib far normals colors fuel r.1 st).bind fun sl =>
                (kdSplit lib far normals colors fuel r.2.1 sl.1).bind fun sr =>
                  .ok (⟨sr.1.nodes.set nodeId ⟨r.2.2, some dim, sl.2, sr.2, box⟩, sr.1.blocks, sr.1.depth⟩, nodeId)

/-- SimdKdTree.cpp:914-950 `init` and the constructor. -/
def kdInit [NeZero n] (P : Nat) (lib : StdAlgorithms (KdPoint K n) K) (far : K) (points normals : List (Fin n → K))
    (colors : List (Fin 4 → K)) : Outcome (KdTree K n P) :=
  if ¬ (normals = [] ∨ normals.length = points.length) then .throws
  else if ¬ (colors = [] ∨ colors.length = points.length) then .throws
  else
    let hasNormals := decide (points.length = normals.length)
    let hasColors := decide (colors ≠ [])
    if points = [] then .ok ⟨0, [], [], 0, 0, hasNormals, hasColors⟩
    else
      (kdSplit lib far normals colors kdMaxDepth (points.zipIdx.map fun p => (p.2, p.1)) ⟨[], [], 0⟩).bind fun r =>
        .ok ⟨points.length, r.1.nodes, r.1.blocks, r.2, r.1.depth, hasNormals, hasColors⟩

/-! ### Queries -/

/-- SimdKdTree.cpp:151: size of the array used as a stack. -/
def kdStackSize : Nat := kdMaxDepth + 1

/-- The loop over the stack, shared by all queries; `step` gets the popped node and the stack below it.  `none` is
non-termination. -/
def kdLoop {σ : Type} (step : Nat → List Nat → σ → Outcome (List Nat × σ)) (stack : List Nat) (s : σ) :
    Option (Outcome σ) :=
  match stack with
  | [] => some (.ok s)
  | i :: rest =>
    match step i rest s with
    | .ok r => kdLoop step r.1 r.2
    | .throws => some .throws
    | .ub => some .ub
partial_fixpoint

/-- Reading the blocks of a leaf; an empty range fails the check at SimdKdTree.cpp:175. -/
def kdLeafBlocks (t : KdTree K n P) (nd : KdNode K n) : Outcome (List (KdBlock K n P)) :=
  if nd.right > nd.left then
    (List.range (nd.right - nd.left)).foldl
      (fun (acc : Outcome (List (KdBlock K n P))) k => acc.bind fun l => (readAt t.blocks (nd.left + k)).bind fun b => .ok (l ++ [b]))
      (.ok [])
  else .throws

/-- The closest point so far (`none`: not found) and the squared distance to beat. -/
abbrev KdBest (K : Type) := Option Nat × K

/-- SimdKdTree.cpp:180-192, :302-327, :441-480, :572-586: one block; `mask` is what a lane has to satisfy besides being
closer. -/
def kdBlockStep (q : Fin n → K) (mask : KdLane K n → Bool) (acc : Fin P → KdBest K) (block : KdBlock K n P) :
    Fin P → KdBest K := fun k =>
  if kdSqDist (block k).point q < (acc k).2 ∧ mask (block k) = true then ((block k).index, kdSqDist (block k).point q)
  else acc k

/-- SimdKdTree.cpp:200-209, :335-346, :487-497, :594-603: the best lane.  With `skip`, padding lanes are skipped; without,
a padding lane that is closer fails the check. -/
def kdLanes (skip : Bool) (lanes : Fin P → KdBest K) (s : KdBest K) : Outcome (KdBest K) :=
  (List.finRange P).foldl (fun (acc : Outcome (KdBest K)) k => acc.bind fun s =>
    if skip = true ∧ (lanes k).1 = none then .ok s
    else if (lanes k).2 < s.2 then
      match (lanes k).1 with
      | none => .throws
      | some i => .ok (some i, (lanes k).2)
    else .ok s) (.ok s)

/-- SimdKdTree.cpp:162-239: one iteration of the loop of `closestPoint` (:280-375, :420-520, :552-633 alike).  The second
check of line 597, that the index is in range, is left out: it follows from how the tree is built. -/
def kdClosestStep (t : KdTree K n P) (q : Fin n → K) (mask : KdLane K n → Bool) (skip : Bool) (cur : Nat) (rest : List Nat)
    (s : KdBest K) : Outcome (List Nat × KdBest K) :=
  (readAt t.nodes cur).bind fun nd =>
    if nd.box.extDist q > s.2 then .ok (rest, s)
    else match nd.splitDim with
      | none =>
        (kdLeafBlocks t nd).bind fun blocks =>
          (kdLanes skip (blocks.foldl (kdBlockStep q mask) fun _ => (none, s.2)) s).bind fun s' => .ok (rest, s')
      | some dim =>
        let near := (q dim - nd.splitVal) * (q dim - nd.splitVal) < s.2
        if q dim ≥ nd.splitVal then
          (pushIf kdStackSize (decide near) nd.left rest).bind fun st1 =>
            (pushIf kdStackSize true nd.right st1).bind fun st2 => .ok (st2, s)
        else
          (pushIf kdStackSize (decide near) nd.right rest).bind fun st1 =>
            (pushIf kdStackSize true nd.left st1).bind fun st2 => .ok (st2, s)

/-- SimdKdTree.cpp:136-243: the whole query, ending with the check that the index is in range. -/
def kdClosest (t : KdTree K n P) (q : Fin n → K) (maxSqrDist : K) (mask : KdLane K n → Bool) (skip : Bool) :
    Option (Outcome (KdBest K)) :=
  if t.numPoints = 0 then some (.ok (none, maxSqrDist))
  else (kdLoop (kdClosestStep t q mask skip) [t.root] (none, maxSqrDist)).map fun r => r.bind fun s =>
    match s.1 with
    | none => .ok s
    | some i => if i < t.numPoints then .ok s else .throws

/-- SimdKdTree.cpp:136-243 `closestPoint(queryPoint, maxSqrDist)`. -/
def kdClosestPoint (t : KdTree K n P) (q : Fin n → K) (maxSqrDist : K) : Option (Outcome (KdBest K)) :=
  kdClosest t q maxSqrDist (fun _ => true) false

/-- SimdKdTree.cpp:524-634 `closestPointWithAcceptance`; the function gets `none` for the index `INT_MAX`. -/
def kdClosestAccept (t : KdTree K n P) (q : Fin n → K) (maxSqrDist : K) (accept : Option Nat → Bool) :
    Option (Outcome (KdBest K)) :=
  kdClosest t q maxSqrDist (fun l => accept l.index) false

/-- SimdKdTree.cpp:246-376 `closestPoint` with a normal. -/
def kdClosestNormal (t : KdTree K n P) (q normal : Fin n → K) (maxSqrDist maxNormalDot : K) :
    Option (Outcome (KdBest K)) :=
  if t.hasNormals = false then some .throws
  else kdClosest t q maxSqrDist (fun l => decide (∑ d, normal d * l.normal d ≥ maxNormalDot)) true

/-- SimdKdTree.cpp:459-469: the distance of colours, weighted with both certainties. -/
def kdColorDist (c l : Fin 4 → K) : K :=
  ((c 0 - l 0) * (c 0 - l 0) + (c 1 - l 1) * (c 1 - l 1) + (c 2 - l 2) * (c 2 - l 2)) * l 3 * c 3

/-- SimdKdTree.cpp:378-522 `closestPoint` with a normal and a colour.  Without colours the code reads colour blocks that do
not exist as soon as a block has a closer point; here that is undefined behaviour for every non-empty tree. -/
def kdClosestColor (t : KdTree K n P) (q normal : Fin n → K) (color : Fin 4 → K)
    (maxSqrDist maxNormalDot maxColorSqrDist : K) : Option (Outcome (KdBest K)) :=
  if t.hasNormals = false then some .throws
  else if t.numPoints ≠ 0 ∧ t.hasColors = false then some .ub
  else kdClosest t q maxSqrDist
    (fun l => decide (∑ d, normal d * l.normal d ≥ maxNormalDot) && decide (kdColorDist color l.color ≤ maxColorSqrDist)) true

/-- SimdKdTree.cpp:675-699: the lanes of a block within the radius; a padding lane there fails the check. -/
def kdSphereBlock (center : Fin n → K) (radiusSqr : K) (acc : Outcome (List Nat)) (block : KdBlock K n P) :
    Outcome (List Nat) :=
  (List.finRange P).foldl (fun (acc : Outcome (List Nat)) k => acc.bind fun pts =>
    if kdSqDist (block k).point center ≤ radiusSqr then
      match (block k).index with
      | none => .throws
      | some i => .ok (pts ++ [i])
    else .ok pts) acc

/-- SimdKdTree.cpp:656-717: one iteration of the loop of `pointsInNSphere`. -/
def kdSphereStep (t : KdTree K n P) (center : Fin n → K) (radius : K) (cur : Nat) (rest : List Nat) (pts : List Nat) :
    Outcome (List Nat × List Nat) :=
  (readAt t.nodes cur).bind fun nd =>
    if nd.box.extDist center > radius * radius then .ok (rest, pts)
    else match nd.splitDim with
      | none =>
        (kdLeafBlocks t nd).bind fun blocks =>
          (blocks.foldl (kdSphereBlock center (radius * radius)) (.ok pts)).bind fun pts' => .ok (rest, pts')
      | some dim =>
        (pushIf kdStackSize (decide (center dim - radius ≤ nd.splitVal)) nd.left rest).bind fun st1 =>
          (pushIf kdStackSize (decide (center dim + radius ≥ nd.splitVal)) nd.right st1).bind fun st2 => .ok (st2, pts)

/-- SimdKdTree.cpp:636-718 `pointsInNSphere`. -/
def kdPointsInNSphere (t : KdTree K n P) (center : Fin n → K) (radius : K) : Option (Outcome (List Nat)) :=
  if radius < 0 then some .throws
  else if t.numPoints = 0 then some (.ok [])
  else kdLoop (kdSphereStep t center radius) [t.root] []

end
end Momentum
