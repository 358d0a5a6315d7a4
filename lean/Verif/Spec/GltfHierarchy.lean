import Verif.Model.GltfHierarchy

/-!
# Hierarchies of nodes

Independent of how they are walked.
-/

namespace Momentum.Gltf

/-- A node becomes a joint: by its type, or in files without the extension by having no mesh, unless it is a capsule or locator. -/
def IsJoint (useExtension : Bool) (node : Node) : Prop :=
  node.type ≠ "collision_capsule" ∧ node.type ≠ "locator" ∧ (node.type = "skeleton_joint" ∨ useExtension = false ∧ node.mesh = false)

/-- A node is a child of another that belongs to the hierarchy. -/
def Child (nodes : List Node) (a b : Nat) : Prop := ∃ node, nodes[a]? = some node ∧ node.inHierarchy = true ∧ (b : Int) ∈ node.children

/-- A node is below another, with no joint in between. -/
inductive Via (nodes : List Node) (useExtension : Bool) (a : Nat) : Nat → Prop
  | direct {b : Nat} : Child nodes a b → Via nodes useExtension a b
  | step {c b : Nat} {node : Node} : Via nodes useExtension a c → nodes[c]? = some node → ¬ IsJoint useExtension node → Child nodes c b →
      Via nodes useExtension a b

/-- A node is the root, or below it with no joint above. -/
inductive Top (nodes : List Node) (useExtension : Bool) (root : Nat) : Nat → Prop
  | root : Top nodes useExtension root root
  | step {c b : Nat} {node : Node} : Top nodes useExtension root c → nodes[c]? = some node → ¬ IsJoint useExtension node → Child nodes c b →
      Top nodes useExtension root b

/-- The parent of an object of a node is right: its nearest joint above, or none if there is none. -/
def ParentRight (nodes : List Node) (useExtension : Bool) (root : Nat) (joints : List Loaded) (node : Nat) : Option Nat → Prop
  | none => Top nodes useExtension root node
  | some q => ∃ above, joints[q]? = some above ∧ Via nodes useExtension above.node node

/-- What is loaded is well formed: joints come from the nodes of joints, after their parents, capsules and locators have a joint, every parent is right,
and the map leads from nodes to their objects. -/
structure WellFormed (nodes : List Node) (ext : Bool) (root : Nat) (st : Hierarchy) : Prop where
  joints : ∀ (k : Nat) (o : Loaded), st.joints[k]? = some o → (∃ node, nodes[o.node]? = some node ∧ node.inHierarchy = true ∧ IsJoint ext node) ∧
    (∀ q, o.parent = some q → q < k) ∧ ParentRight nodes ext root st.joints o.node o.parent
  capsules : ∀ o ∈ st.capsules, (∃ node, nodes[o.node]? = some node ∧ node.inHierarchy = true ∧ node.type = "collision_capsule") ∧ o.parent ≠ none ∧
    ParentRight nodes ext root st.joints o.node o.parent
  locators : ∀ o ∈ st.locators, (∃ node, nodes[o.node]? = some node ∧ node.inHierarchy = true ∧ node.type = "locator") ∧ o.parent ≠ none ∧
    ParentRight nodes ext root st.joints o.node o.parent
  size : st.map.length = nodes.length
  map : ∀ (n k : Nat) (node : Node), st.map[n]? = some (some k) → nodes[n]? = some node → ∃ o, o.node = n ∧
    ((IsJoint ext node ∧ st.joints[k]? = some o) ∨ (node.type = "collision_capsule" ∧ st.capsules[k]? = some o) ∨
      (node.type = "locator" ∧ st.locators[k]? = some o))

/-- A node can be reached from another through nodes of the hierarchy. -/
inductive Reach (nodes : List Node) (a : Nat) : Nat → Prop
  | self : Reach nodes a a
  | step {b c : Nat} : Reach nodes a b → Child nodes b c → Reach nodes a c

/-- A joint is another or above it. -/
inductive Above (parents : List (Option Nat)) (a : Nat) : Nat → Prop
  | self : Above parents a a
  | step {b c : Nat} : Above parents a b → parents[c]? = some (some b) → Above parents a c

/-- Joints are listed depth first: the parent of each is the joint before it or above that. -/
def DepthFirst (parents : List (Option Nat)) : Prop := ∀ j : Nat, j + 1 < parents.length → ∃ p, parents[j + 1]? = some (some p) ∧ Above parents p j

end Momentum.Gltf
