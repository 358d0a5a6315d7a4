import Verif.Spec.GltfHierarchy

/-!
# What the roots of skins are
-/

namespace Momentum.Gltf

/-- A node lists another as its child. -/
def Lists (nodes : List Node) (p c : Nat) : Prop := ∃ node, nodes[p]? = some node ∧ (c : Int) ∈ node.children

/-- A node is another or below it in the file. -/
inductive Below (nodes : List Node) (a : Nat) : Nat → Prop
  | self : Below nodes a a
  | step {b c : Nat} : Below nodes a b → Lists nodes b c → Below nodes a c

/-- A node is in the scene. -/
def InScene (nodes : List Node) (scene : List Nat) (n : Nat) : Prop := ∃ r ∈ scene, Below nodes r n

/-- The nodes are strict trees, as glTF asks for: every node has at most one parent, the nodes of the scene have none, and no node is below itself (nodes
have ranks, up to a bound, that grow from parents to children). -/
structure StrictTrees (nodes : List Node) (scene : List Nat) (rank : Nat → Nat) (bound : Nat) : Prop where
  oneParent : ∀ p p' c : Nat, Lists nodes p c → Lists nodes p' c → p = p'
  top : ∀ r ∈ scene, ∀ p, ¬ Lists nodes p r
  grows : ∀ p c : Nat, Lists nodes p c → rank p < rank c
  bounded : ∀ n, rank n ≤ bound

/-- The node that all the joints of a skin are below, and that is below every other such node. -/
def Closest (nodes : List Node) (skin : List Nat) (r : Nat) : Prop :=
  (∀ j ∈ skin, Below nodes r j) ∧ ∀ d, (∀ j ∈ skin, Below nodes d j) → Below nodes d r

/-- No node is above both. -/
def Apart (parents : List (Option Nat)) (r r' : Nat) : Prop := ∀ d, Above parents d r → ¬ Above parents d r'

end Momentum.Gltf
