import Mathlib.Algebra.BigOperators.Group.List.Basic
import Mathlib.Algebra.Ring.Defs
import Mathlib.Algebra.Field.Defs

/-!
# momentum/character/parameter_transform.{h,cpp}, parameter_limits.{h,cpp},
inverse_parameter_transform.cpp and `Character::splitParameters`

Vectors are lists.  `none` stands for a failed check, an exception or an out-of-range access.
-/

namespace Momentum

/-- math/types.h:401 `kMaxModelParams`. -/
def kMaxModelParams : Nat := 2048

/-- math/types.h:402 `ParameterSet = std::bitset<2048>`. -/
def ParameterSet := Fin kMaxModelParams → Bool

namespace ParameterSet

/-- `std::bitset::test`, which throws on an out-of-range position. -/
def test (s : ParameterSet) (i : Nat) : Option Bool :=
  if h : i < kMaxModelParams then some (s ⟨i, h⟩) else none

/-- The empty set (default-constructed bitset). -/
def empty : ParameterSet := fun _ => false

/-- utility.h:35-39 `allParams`. -/
def all : ParameterSet := fun _ => true

/-- `std::bitset::set(i, b)`, which throws on an out-of-range position. -/
def set (s : ParameterSet) (i : Nat) (b : Bool) : Option ParameterSet :=
  if i < kMaxModelParams then some (fun j => if j.val = i then b else s j) else none

/-- `~s`. -/
def compl (s : ParameterSet) : ParameterSet := fun j => !(s j)

/-- `a & b`. -/
def inter (a b : ParameterSet) : ParameterSet := fun j => a j && b j

end ParameterSet

/-- A stored coefficient of a sparse matrix. -/
structure Triplet (K : Type) where
  row : Nat
  col : Nat
  val : K

/-- `Eigen::SparseMatrix` in the order its `InnerIterator`s visit it.  Eigen's storage layout is not
modelled; two stored entries at the same place stand for their sum (as `setFromTriplets` makes it). -/
structure SparseMat (K : Type) where
  rows : Nat
  cols : Nat
  entries : List (Triplet K)

/-- Eigen's guarantee that stored coefficients lie inside the matrix. -/
def SparseMat.WF {K : Type} (A : SparseMat K) : Prop :=
  ∀ e ∈ A.entries, e.row < A.rows ∧ e.col < A.cols

section
variable {K : Type} [CommRing K]

/-- Eigen `A * p` (sizes checked by the callers). -/
def SparseMat.mulVec (A : SparseMat K) (p : List K) : List K :=
  (List.range A.rows).map fun i =>
    ((A.entries.filter (·.row == i)).map fun e => e.val * p.getD e.col 0).sum

/-- Eigen coefficient-wise `a + b`. -/
def addVec (a b : List K) : List K := List.zipWith (· + ·) a b

/-- Eigen coefficient-wise `a - b`. -/
def subVec (a b : List K) : List K := List.zipWith (· - ·) a b

end

/-- parameter_transform.h:55-115 `ParameterTransformT`; unordered maps are association lists. -/
structure ParameterTransform (K : Type) where
  name : List String
  transform : SparseMat K
  offsets : List K
  activeJointParams : List Bool
  parameterSets : List (String × ParameterSet)
  poseConstraints : List (String × List (Nat × K))
  blendShapeParameters : List Int
  faceExpressionParameters : List Int

/-- types.h `CharacterParametersT`. -/
structure CharacterParameters (K : Type) where
  pose : List K
  offsets : List K

/-- parameter_limits.h:26-73: the limit variants with the data of each.  For ellipsoids only the two joint
indices are kept here. -/
inductive LimitData (K : Type)
  | minMax (parameterIndex : Nat) (lo hi : K)
  | minMaxJoint (jointIndex jointParameter : Nat) (lo hi : K)
  | minMaxJointPassive (jointIndex jointParameter : Nat) (lo hi : K)
  | linear (referenceIndex targetIndex : Nat) (scale offset rangeMin rangeMax : K)
  | ellipsoid (ellipsoidParent parent : Nat)
  | halfPlane (param1 param2 : Nat) (normal0 normal1 offset : K)

/-- parameter_limits.h:91-101 `ParameterLimit`. -/
structure ParameterLimit (K : Type) where
  data : LimitData K
  weight : K

namespace ParameterTransform
variable {K : Type} [CommRing K]

/-- parameter_transform.cpp:86-98 `apply(ModelParameters)`. -/
def apply (pt : ParameterTransform K) (p : List K) : Option (List K) :=
  if p.length = pt.transform.cols then
    if pt.offsets.length = pt.transform.rows then
      some (addVec (pt.transform.mulVec p) pt.offsets)
    else none
  else none

/-- parameter_transform.cpp:101-118 `apply(CharacterParameters)`. -/
def applyCharacter (pt : ParameterTransform K) (p : CharacterParameters K) : Option (List K) :=
  if p.pose.length = pt.transform.cols then
    let result := pt.transform.mulVec p.pose
    if p.offsets.length > 0 then
      if p.offsets.length = pt.transform.rows then some (addVec result p.offsets) else none
    else some result
  else none

/-- inverse_parameter_transform.cpp:30-42 `InverseParameterTransformT::apply`; `solve` stands for the
sparse QR solver, about which nothing is assumed except the length of its result. -/
def inverseApply (pt : ParameterTransform K) (solve : List K → List K) (jp : List K) :
    Option (CharacterParameters K) :=
  if jp.length = pt.transform.rows then
    if pt.offsets.length = pt.transform.rows then
      let pose := solve (subVec jp pt.offsets)
      some ⟨pose, subVec jp (pt.transform.mulVec pose)⟩
    else none
  else none

/-- character.cpp:557-570 `splitParameters`. -/
def splitParameters (pt : ParameterTransform K) (p : CharacterParameters K) (s : ParameterSet) :
    Option (CharacterParameters K) := do
  let flags ← (List.range p.pose.length).mapM s.test
  let parameterSplit := List.zipWith (fun x (b : Bool) => if b then 0 else x) p.pose flags
  let offsetSplit := List.zipWith (fun x (b : Bool) => if b then x else 0) p.pose flags
  let offsets ← pt.applyCharacter ⟨offsetSplit, p.offsets⟩
  some ⟨parameterSplit, offsets⟩

/-- parameter_transform.cpp:72-83 `computeActiveJointParams`. -/
def computeActiveJointParams (pt : ParameterTransform K) (ps : ParameterSet) : Option (List Bool) :=
  pt.transform.entries.foldlM (init := List.replicate pt.transform.rows false) fun acc e => do
    let b ← ps.test e.col
    some (if b then acc.set e.row true else acc)

/-- parameter_transform.cpp:235-247: the loop computing the index maps of `subsetParameterTransform`. -/
def subsetIndices (nOld : Nat) (s : ParameterSet) : Option (List (Option Nat) × List Nat) :=
  (List.range nOld).foldlM (init := ([], [])) fun st i => do
    let b ← s.test i
    some (if b then (st.1 ++ [some st.2.length], st.2 ++ [i]) else (st.1 ++ [none], st.2))

/-- parameter_transform.cpp:266-280: remapping of the matrix coefficients. -/
def subsetEntries (o2n : List (Option Nat)) (es : List (Triplet K)) : Option (List (Triplet K)) := do
  let l ← es.mapM fun e => do
    let m ← o2n[e.col]?
    some (m.map fun c => (⟨e.row, c, e.val⟩ : Triplet K))
  some (l.filterMap id)

/-- parameter_transform.cpp:259, 277: the active flags of the remapped matrix. -/
def activeOf (rows : Nat) (es : List (Triplet K)) : List Bool :=
  es.foldl (fun acc e => acc.set e.row true) (List.replicate rows false)

/-- parameter_transform.cpp:285-295: remapping of one pose constraint. -/
def subsetConstraint (o2n : List (Option Nat)) (c : List (Nat × K)) : Option (List (Nat × K)) := do
  let l ← c.mapM fun iv => do
    let m ← o2n[iv.1]?
    some (m.map fun k => (k, iv.2))
  some (l.filterMap id)

/-- parameter_transform.cpp:298-309 and 311-323: remapping of blend-shape parameter indices. -/
def subsetBlend (o2n : List (Option Nat)) (b : List Int) : Option (List Int) :=
  b.mapM fun old =>
    if 0 ≤ old then do
      let m ← o2n[old.toNat]?
      some (match m with | some k => (k : Int) | none => -1)
    else some (-1)

/-- parameter_transform.cpp:325-335: remapping of one parameter set. -/
def subsetSet (n2o : List Nat) (old : ParameterSet) : Option ParameterSet :=
  n2o.zipIdx.foldlM (init := ParameterSet.empty) fun acc ik => do
    let b ← old.test ik.1
    acc.set ik.2 b

/-- parameter_transform.cpp:339-381: remapping of one limit; the inner `none` means the limit is
dropped.  All the indices of a limit are looked up before the check, as in the code. -/
def subsetLimit (o2n : List (Option Nat)) (l : ParameterLimit K) :
    Option (Option (ParameterLimit K)) :=
  match l.data with
  | .minMax i lo hi => do
    let m ← o2n[i]?
    some (m.map fun k => ⟨.minMax k lo hi, l.weight⟩)
  | .linear r t sc off rmin rmax => do
    let mr ← o2n[r]?
    let mt ← o2n[t]?
    some (match mr, mt with
      | some kr, some kt => some ⟨.linear kr kt sc off rmin rmax, l.weight⟩
      | _, _ => none)
  | .halfPlane a b n0 n1 off => do
    let ma ← o2n[a]?
    let mb ← o2n[b]?
    some (match ma, mb with
      | some ka, some kb => some ⟨.halfPlane ka kb n0 n1 off, l.weight⟩
      | _, _ => none)
  | .minMaxJoint .. | .minMaxJointPassive .. | .ellipsoid .. => some (some l)

/-- parameter_transform.cpp:230-384 `subsetParameterTransform`. -/
def subset (pt : ParameterTransform K) (limits : List (ParameterLimit K)) (s : ParameterSet) :
    Option (ParameterTransform K × List (ParameterLimit K)) := do
  let (o2n, n2o) ← subsetIndices pt.transform.cols s
  let name ← n2o.mapM fun i => pt.name[i]?
  let entries ← subsetEntries o2n pt.transform.entries
  let poseConstraints ← pt.poseConstraints.mapM fun nc => do
    let c ← subsetConstraint o2n nc.2
    some (nc.1, c)
  let blend ← subsetBlend o2n pt.blendShapeParameters
  let face ← subsetBlend o2n pt.faceExpressionParameters
  let sets ← pt.parameterSets.mapM fun ns => do
    let t ← subsetSet n2o ns.2
    some (ns.1, t)
  let limitsNew ← limits.mapM (subsetLimit o2n)
  some ({ name := name
          transform := ⟨pt.transform.rows, n2o.length, entries⟩
          offsets := pt.offsets
          activeJointParams := activeOf pt.transform.rows entries
          parameterSets := sets
          poseConstraints := poseConstraints
          blendShapeParameters := blend
          faceExpressionParameters := face }, limitsNew.filterMap id)

/-- parameter_transform.cpp:396-406 `getBlendShapeParameters` (and :408-418 for faces). -/
def indexSet (b : List Int) : Option ParameterSet :=
  b.foldlM (init := ParameterSet.empty) fun acc i =>
    if 0 ≤ i then acc.set i.toNat true else some acc

/-- parameter_transform.cpp:420-443 `addBlendShapeParameters`.  `conservativeResize` keeps the
coefficients and appends empty columns (there are never fewer names than columns when it succeeds). -/
def addBlendShapeParameters (pt : ParameterTransform K) (limits : List (ParameterLimit K)) (n : Nat) :
    Option (ParameterTransform K × List (ParameterLimit K)) := do
  let bs ← indexSet pt.blendShapeParameters
  let (q, l) ← pt.subset limits bs.compl
  some ({ q with
          name := q.name ++ (List.range n).map fun i => "blend_" ++ toString i
          transform := { q.transform with cols := q.name.length + n }
          blendShapeParameters := (List.range n).map fun i => ((q.name.length + i : Nat) : Int) }, l)

/-- parameter_transform.cpp:445-468 `addFaceExpressionParameters`. -/
def addFaceExpressionParameters (pt : ParameterTransform K) (limits : List (ParameterLimit K)) (n : Nat) :
    Option (ParameterTransform K × List (ParameterLimit K)) := do
  let bs ← indexSet pt.faceExpressionParameters
  let (q, l) ← pt.subset limits bs.compl
  some ({ q with
          name := q.name ++ (List.range n).map fun i => "face_expre_" ++ toString i
          transform := { q.transform with cols := q.name.length + n }
          faceExpressionParameters := (List.range n).map fun i => ((q.name.length + i : Nat) : Int) }, l)

/-- One checked write `v[i] = x`. -/
def setChecked {α : Type} (v : List α) (i : Nat) (x : α) : Option (List α) :=
  if i < v.length then some (v.set i x) else none

/-- parameter_transform.cpp:186-193: copying the seven offsets of one joint. -/
def mapJointOffsets (old : List K) (acc : List K) (i : Nat) (m : Option Nat) : Option (List K) :=
  match m with
  | none => some acc
  | some t => (List.range 7).foldlM (init := acc) fun acc d => do
    let x ← old[i * 7 + d]?
    setChecked acc (t * 7 + d) x

/-- parameter_transform.cpp:196-214: remapping of the coefficients. -/
def mapJointEntries (jointMapping : List (Option Nat)) (es : List (Triplet K)) : Option (List (Triplet K)) := do
  let l ← es.mapM fun e => do
    let m ← jointMapping[e.row / 7]?
    some (m.map fun t => (⟨t * 7 + e.row % 7, e.col, e.val⟩ : Triplet K))
  some (l.filterMap id)

/-- parameter_transform.cpp:170-228 `mapParameterTransformJoints`.  The two loops over coefficients and
flags are separated; the cast of values through `float` is not modelled.  The blend-shape and
face-expression index vectors are not copied by the code, hence empty. -/
def mapJoints (pt : ParameterTransform K) (numTargetJoints : Nat) (jointMapping : List (Option Nat)) :
    Option (ParameterTransform K) := do
  let offsets ← jointMapping.zipIdx.foldlM (init := List.replicate (numTargetJoints * 7) 0) fun acc mi =>
    mapJointOffsets pt.offsets acc mi.2 mi.1
  let entries ← mapJointEntries jointMapping pt.transform.entries
  let active ← entries.foldlM (init := List.replicate (numTargetJoints * 7) false) fun acc e =>
    setChecked acc e.row true
  some { name := pt.name
         transform := ⟨numTargetJoints * 7, pt.name.length, entries⟩
         offsets := offsets
         activeJointParams := active
         parameterSets := pt.parameterSets
         poseConstraints := pt.poseConstraints
         blendShapeParameters := []
         faceExpressionParameters := [] }

end ParameterTransform

end Momentum
