import Verif.Model.Bvh
import Mathlib.Data.List.ProdSigma

/-!
# What a bounding volume hierarchy is, independently of the code
-/

namespace Momentum

section
variable {K : Type} [Field K] [LinearOrder K]

/-- The point lies in the box. -/
def Box.HasPoint (a : Box K) (p : Vec3 K) : Prop := ∀ d : Fin 3, a.min.get d ≤ p.get d ∧ p.get d ≤ a.max.get d

/-- Two boxes share a point. -/
def Box.Overlap (a b : Box K) : Prop := ∃ p, a.HasPoint p ∧ b.HasPoint p

/-- `a` contains `b`, coordinate by coordinate. -/
def Box.Includes (a b : Box K) : Prop := ∀ d : Fin 3, a.min.get d ≤ b.min.get d ∧ b.max.get d ≤ a.max.get d

/-- `a` is the smallest box containing all boxes of `ps`. -/
def Box.IsHull (a : Box K) (ps : List (Box K)) : Prop :=
  (∀ p ∈ ps, a.Includes p) ∧ ∀ c : Box K, (∀ p ∈ ps, c.Includes p) → c.Includes a

/-- A binary tree over primitives. -/
inductive BvhTree (K : Type) where
  | leaf (bbox : Box K) (ps : List (Box K))
  | node (bbox : Box K) (l r : BvhTree K)

namespace BvhTree

/-- Box of the root node. -/
def bbox : BvhTree K → Box K
  | leaf b _ => b
  | node b _ _ => b

/-- Primitives of the leaves, from left to right. -/
def prims : BvhTree K → List (Box K)
  | leaf _ ps => ps
  | node _ l r => l.prims ++ r.prims

/-- Number of nodes. -/
def size : BvhTree K → Nat
  | leaf _ _ => 1
  | node _ l r => 1 + l.size + r.size

/-- Number of edges on the longest path to a leaf. -/
def height : BvhTree K → Nat
  | leaf _ _ => 0
  | node _ l r => 1 + max l.height r.height

/-- Leaves hold between one and `cap` primitives. -/
def LeavesWithin (cap : Nat) : BvhTree K → Prop
  | leaf _ ps => 1 ≤ ps.length ∧ ps.length ≤ cap
  | node _ l r => l.LeavesWithin cap ∧ r.LeavesWithin cap

/-- Every node box is the hull of the primitives below it. -/
def Tight : BvhTree K → Prop
  | leaf b ps => b.IsHull ps
  | node b l r => b.IsHull (l.prims ++ r.prims) ∧ l.Tight ∧ r.Tight

/-- Every node box contains the boxes of all primitives below it. -/
def Bounds : BvhTree K → Prop
  | leaf b ps => ∀ p ∈ ps, b.Includes p
  | node b l r => (∀ p ∈ l.prims ++ r.prims, b.Includes p) ∧ l.Bounds ∧ r.Bounds

end BvhTree

/-- Elements `s, …, e-1` of a list. -/
def slice {α : Type} (l : List α) (s e : Nat) : List α := (l.drop s).take (e - s)

/-- The flat arrays hold the tree: the node of the tree root is at position `i`, covers the primitives
`s, …, e-1` of the primitive array, is marked as a leaf by offset zero, and otherwise has its left child
at the next position and its right child `rightOffset` positions further. -/
def Holds (b : Bvh K) : BvhTree K → Nat → Nat → Nat → Prop
  | .leaf bb ps, i, s, e => s < e ∧ e ≤ b.prims.length ∧ slice b.prims s e = ps ∧ b.flat[i]? = some ⟨bb, s, e - s, 0⟩
  | .node bb l r, i, s, e => ∃ m ro, s < m ∧ m < e ∧ ro ≠ 0 ∧ b.flat[i]? = some ⟨bb, s, e - s, ro⟩ ∧
      Holds b l (i + 1) s m ∧ Holds b r (i + ro) m e

/-- The histories of a tree object with leaf capacity `c`: it is built from some list of boxes, and from
then on the caller overwrites boxes in place (`getPrimitives()`) and calls `refit()`, any number of times.
(A later rebuild starts a new history.) -/
inductive BvhReachable (c : Nat) : Bvh K → Prop
  | build (prims : List (Box K)) (b : Bvh K) : 2 * prims.length < kRootParentIndex →
      bvhBuild c kBuildStack prims = some (.ok b) → BvhReachable c b
  | refit (b : Bvh K) (moved : List (Box K)) (b' : Bvh K) : BvhReachable c b → moved.length = b.prims.length →
      bvhRefit ⟨b.flat, moved⟩ = some b' → BvhReachable c b'

/-! ### Pairs -/

/-- All unordered pairs of entries at different positions, the earlier entry first. -/
def distinctPairs {α : Type} : List α → List (α × α)
  | [] => []
  | x :: xs => xs.map (fun y => (x, y)) ++ distinctPairs xs

/-- The unordered pairs of primitives stored in different leaves. -/
def crossPairs : BvhTree K → List (Box K × Box K)
  | .leaf _ _ => []
  | .node _ l r => crossPairs l ++ crossPairs r ++ l.prims ×ˢ r.prims

/-- The two boxes of the pair intersect. -/
def pairTest (q : Box K × Box K) : Bool := q.1.intersects q.2

/-- The state after calling the callback on each pair of the list in turn (ignoring what it returns). -/
def callAll {σ : Type} (func : σ → Nat → Nat → σ × Bool) (L : List (Box K × Box K)) (s : σ) : σ :=
  L.foldl (fun s q => (func s q.1.id q.2.id).1) s

/-- The calls `L` report the pairs `P`: the calls on intersecting pairs are, up to order, exactly the
intersecting pairs of `P` (each once), and no pair is called more often than it occurs in `P`. -/
def Reports (L P : List (Box K × Box K)) : Prop := (L.filter pairTest).Perm (P.filter pairTest) ∧ L.Subperm P

end
end Momentum
