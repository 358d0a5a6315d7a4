import Verif.Model.GltfHierarchy

/-!
# The skeletons of the skins of a glTF file (gltf_io.cpp)

`kInvalidNodeId` is `none`.  A loop that never ends is `none`: loops have a bound on the number of steps.  `MT_CHECK` (checks.h:14-22) is an error if
checks are compiled in, and nothing otherwise.
-/

namespace Momentum.Gltf

/-- gltf_io.cpp:117-128 `getAncestorsIncludingSelf`, before the list is reversed; `parents[curNode]` is not checked. -/
def climb (parents : List (Option Nat)) : Nat → Option Nat → Option (Outcome (List Nat))
  | _, none => some (.ok [])
  | 0, some _ => none
  | fuel + 1, some n =>
    match parents[n]? with
    | none => some .ub
    | some p => andThen (climb parents fuel p) fun l => some (.ok (n :: l))

/-- gltf_io.cpp:137-144: the loop over two lists of ancestors. -/
def lastCommon : List Nat → List Nat → Option Nat → Option Nat
  | a :: as, b :: bs, found => if a = b then lastCommon as bs (some a) else found
  | _, _, found => found

/-- gltf_io.cpp:130-146 `findClosestCommonAncestor`. -/
def findClosestCommonAncestor (parents : List (Option Nat)) (fuel a b : Nat) : Option (Outcome (Option Nat)) :=
  andThen (climb parents fuel (some a)) fun l1 => andThen (climb parents fuel (some b)) fun l2 => some (.ok (lastCommon l1.reverse l2.reverse none))

/-- gltf_io.cpp:188-200: a joint without its parent in the skin is merged into the first root it has an ancestor in common with, or is a new root. -/
def mergeJoint (parents : List (Option Nat)) (fuel joint : Nat) : List Nat → Option (Outcome (List Nat))
  | [] => some (.ok [joint])
  | r :: rs =>
    andThen (findClosestCommonAncestor parents fuel joint r) fun c =>
      match c with
      | some c => some (.ok (c :: rs))
      | none => andThen (mergeJoint parents fuel joint rs) fun rs => some (.ok (r :: rs))

/-- gltf_io.cpp:183-202: the loop over the joints of a skin. -/
def mergeJoints (parents : List (Option Nat)) (fuel : Nat) (skin : List Nat) : List Nat → List Nat → Option (Outcome (List Nat))
  | [], roots => some (.ok roots)
  | joint :: joints, roots =>
    match parents[joint]? with
    | none => some .ub
    | some (some p) =>
      if p ∈ skin then mergeJoints parents fuel skin joints roots
      else andThen (mergeJoint parents fuel joint roots) fun roots => mergeJoints parents fuel skin joints roots
    | some none => andThen (mergeJoint parents fuel joint roots) fun roots => mergeJoints parents fuel skin joints roots

/-- gltf_io.cpp:182-202: the roots of a skin. -/
def skinRoots (parents : List (Option Nat)) (fuel : Nat) (skin : List Nat) : Option (Outcome (List Nat)) := mergeJoints parents fuel skin skin []

/-- gltf_io.cpp:178-203: the roots of each skin. -/
def allSkinRoots (parents : List (Option Nat)) (fuel : Nat) : List (List Nat) → Option (Outcome (List (List Nat)))
  | [] => some (.ok [])
  | skin :: skins =>
    andThen (skinRoots parents fuel skin) fun roots => andThen (allSkinRoots parents fuel skins) fun all => some (.ok (roots :: all))

/-- A failed `MT_CHECK` that guards the access to the first element of a list. -/
def failed (checks : Bool) {α : Type} : Option (Outcome α) := some (if checks then .throws else .ub)

/-- gltf_io.cpp:219-233: whether the root of a skin is independent: no other skin with one root has that among the ancestors. -/
def isIndependent (all : List (List Nat)) (i : Nat) (ancestors : List Nat) : Bool :=
  all.zipIdx.all fun s => s.2 == i || decide (s.1.length > 1) || !(s.1.head?.any fun r => ancestors.contains r)

/-- gltf_io.cpp:205-247: the skeletons of the skins, given the roots of each: skins with several roots are kept, those with one if it is independent.
A skin without roots fails the checks (208-212, 221-225); the loop over the other skins may end before it comes to that one, but the outer loop does
come to it.  Skeletons that were skipped are removed. -/
def keepSkins (checks : Bool) (parents : List (Option Nat)) (fuel : Nat) (all : List (List Nat)) :
    List (List Nat × Nat) → Option (Outcome (List (List Nat)))
  | [] => some (.ok [])
  | ([], _) :: _ => failed checks
  | ([r], i) :: rest =>
    andThen (climb parents fuel (some r)) fun ancestors =>
      if all.any (·.isEmpty) then failed checks
      else andThen (keepSkins checks parents fuel all rest) fun out => some (.ok (if isIndependent all i ancestors then [r] :: out else out))
  | (r :: r' :: rs, _) :: rest => andThen (keepSkins checks parents fuel all rest) fun out => some (.ok ((r :: r' :: rs) :: out))

/-- gltf_io.cpp:167-169: the children of a node get it as parent; their index is not checked. -/
def setParents (n : Nat) : List Int → List (Option Nat) → Outcome (List (Option Nat))
  | [], m => .ok m
  | c :: cs, m => if 0 ≤ c ∧ c.toNat < m.length then setParents n cs (m.set c.toNat (some n)) else .ub

/-- gltf_io.cpp:161-171: the nodes of one level, and those of the next. -/
def levelParents (nodes : List Node) : List Int → List (Option Nat) → Outcome (List (Option Nat) × List Int)
  | [], m => .ok (m, [])
  | n :: ns, m =>
    if n < 0 then .ub
    else
      match nodes[n.toNat]? with
      | none => .ub
      | some node =>
        (setParents n.toNat node.children m).bind fun m => (levelParents nodes ns m).bind fun r => .ok (r.1, node.children ++ r.2)

/-- gltf_io.cpp:160-173: level by level. -/
def buildParents (nodes : List Node) : Nat → List Int → List (Option Nat) → Option (Outcome (List (Option Nat)))
  | _, [], m => some (.ok m)
  | 0, _ :: _, _ => none
  | fuel + 1, n :: ns, m =>
    match levelParents nodes (n :: ns) m with
    | .throws => some .throws
    | .ub => some .ub
    | .ok r => buildParents nodes fuel r.2 r.1

/-- gltf_io.cpp:150-249 `gatherSkeletonRoots`; the index of the scene is taken to be right (151). -/
def gatherSkeletonRoots (checks hasMesh : Bool) (nodes : List Node) (scene : List Nat) (skins : List (List Nat)) (fuel : Nat) :
    Option (Outcome (List (List Nat))) :=
  if hasMesh = false ∨ skins = [] then some (.ok [scene])
  else
    andThen (buildParents nodes fuel (scene.map Int.ofNat) (List.replicate nodes.length none)) fun parents =>
      andThen (allSkinRoots parents fuel skins) fun all => keepSkins checks parents fuel all all.zipIdx

/-- gltf_io.cpp:344-346: the roots that `loadHierarchy` loads. -/
def hierarchyRoots (checks hasMesh : Bool) (nodes : List Node) (scene : List Nat) (skins : List (List Nat)) (fuel : Nat) : Option (Outcome (List Nat)) :=
  andThen (gatherSkeletonRoots checks hasMesh nodes scene skins fuel) fun out =>
    match out with
    | [] => failed checks
    | [roots] => some (.ok roots)
    | roots :: _ :: _ => some (if checks then .throws else .ok roots)

end Momentum.Gltf
