import Verif.Model.Limits

/-!
# The hierarchy of a glTF file (gltf_io.cpp, gltf_builder.cpp)

A joint, capsule or locator is made from its node alone (gltf_io.cpp:56-106 `createCollisionCapsule`, `createLocator`, `createJoint`), so it is
represented by the index of that node; the errors of malformed extensions are not modelled.  The recursion can be endless for a file with a cycle:
`none` stands for a recursion that is deeper than a given bound.
-/

namespace Momentum.Gltf

/-- `fx::gltf::Node`: the children, whether it has neither skin nor camera (gltf_io.cpp:112-114 `isHierarchyNode`), whether it has a mesh, and the type
in its extension. -/
structure Node where
  children : List Int
  inHierarchy : Bool
  mesh : Bool
  type : String
deriving DecidableEq

/-- A joint, capsule or locator: the node it was made from and the index of its parent joint. -/
structure Loaded where
  node : Nat
  parent : Option Nat
deriving DecidableEq

/-- gltf_io.cpp:333-338: what is loaded, and the indices of the objects of nodes. -/
structure Hierarchy where
  joints : List Loaded
  capsules : List Loaded
  locators : List Loaded
  map : List (Option Nat)
deriving DecidableEq

/-- gltf_io.cpp:284-309: the object of a node, and the parent of its children. -/
def place (useExtension : Bool) (node : Node) (id : Nat) (parent : Option Nat) (st : Hierarchy) : Outcome (Hierarchy × Option Nat) :=
  if node.type = "collision_capsule" then
    if parent = none then .throws
    else .ok ({ st with capsules := st.capsules ++ [⟨id, parent⟩], map := st.map.set id (some st.capsules.length) }, parent)
  else if node.type = "locator" then
    if parent = none then .throws
    else .ok ({ st with locators := st.locators ++ [⟨id, parent⟩], map := st.map.set id (some st.locators.length) }, parent)
  else if (!useExtension && !node.mesh) || node.type = "skeleton_joint" then
    .ok ({ st with joints := st.joints ++ [⟨id, parent⟩], map := st.map.set id (some st.joints.length) }, some st.joints.length)
  else .ok (st, parent)

/-- One step after another. -/
def andThen {α β : Type} : Option (Outcome α) → (α → Option (Outcome β)) → Option (Outcome β)
  | none, _ => none
  | some .throws, _ => some .throws
  | some .ub, _ => some .ub
  | some (.ok a), f => f a

/-- gltf_io.cpp:313-328: the loop over the children; their index is checked in the loop as it is in the call. -/
def loadList (f : Int → Hierarchy → Option (Outcome Hierarchy)) : List Int → Hierarchy → Option (Outcome Hierarchy)
  | [], st => some (.ok st)
  | c :: cs, st => andThen (f c st) (loadList f cs)

/-- gltf_io.cpp:259-329 `loadHierarchyRecursive`.  An index equal to the number of nodes passes the check (268-271) and is out of range.  The checks
of the size of the map (278-283) hold: it is made with the number of nodes. -/
def loadNode (nodes : List Node) (useExtension : Bool) : Nat → Int → Option Nat → Hierarchy → Option (Outcome Hierarchy)
  | 0, _, _, _ => none
  | fuel + 1, id, parent, st =>
    if id < 0 ∨ id > nodes.length then some .throws
    else
      match nodes[id.toNat]? with
      | none => some .ub
      | some node =>
        if node.inHierarchy = false then some (.ok st)
        else
          match place useExtension node id.toNat parent st with
          | .throws => some .throws
          | .ub => some .ub
          | .ok r => loadList (fun c s => loadNode nodes useExtension fuel c r.2 s) node.children r.1

/-- gltf_io.cpp:346-352: the loop over the roots, which ends when there are joints. -/
def loadRoots (nodes : List Node) (useExtension : Bool) (fuel : Nat) : List Int → Hierarchy → Option (Outcome Hierarchy)
  | [], st => some (.ok st)
  | r :: rs, st =>
    andThen (loadNode nodes useExtension fuel r none st) fun st =>
      if st.joints ≠ [] then some (.ok st) else loadRoots nodes useExtension fuel rs st

/-- gltf_io.cpp:333-366 `loadHierarchy` for the given roots: those that `hierarchyRoots` of `Model/GltfRoots.lean` finds;
the sorting of capsules and locators by parent is not modelled. -/
def loadHierarchy (nodes : List Node) (useExtension : Bool) (fuel : Nat) (roots : List Int) : Option (Outcome Hierarchy) :=
  loadRoots nodes useExtension fuel roots ⟨[], [], [], List.replicate nodes.length none⟩

/-- gltf_builder.cpp:638-680: the nodes, the roots of the scene and the nodes of the joints so far. -/
structure Built where
  nodes : List Node
  roots : List Int
  jointToNode : List Nat
deriving DecidableEq

/-- gltf_builder.cpp:646-677: one joint.  The rotation and offset of the node are not modelled. -/
def addJoint (extension : Bool) (st : Built) (parent : Option Nat) : Outcome Built :=
  let idx := st.nodes.length
  let nodes := st.nodes ++ [⟨[], true, false, if extension then "skeleton_joint" else ""⟩]
  let roots := if st.jointToNode = [] then st.roots ++ [(idx : Int)] else st.roots
  match parent with
  | none => .ok ⟨nodes, roots, st.jointToNode ++ [idx]⟩
  | some p =>
    match st.jointToNode[p]? with
    | none => .throws
    | some q =>
      if q < nodes.length then
        .ok ⟨nodes.modify q fun n => { n with children := n.children ++ [(idx : Int)] }, roots, st.jointToNode ++ [idx]⟩
      else .throws

/-- gltf_builder.cpp:638-680 `addSkeletonToModel` without a given root node, for joints with these parents. -/
def addSkeleton (extension : Bool) : List (Option Nat) → Built → Outcome Built
  | [], st => .ok st
  | p :: ps, st => (addJoint extension st p).bind fun st => addSkeleton extension ps st

end Momentum.Gltf
