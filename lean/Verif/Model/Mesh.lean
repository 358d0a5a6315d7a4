import Verif.Model.Vec
import Mathlib.Analysis.Real.Sqrt

/-!
# momentum/math/mesh.cpp: `MeshT::updateNormals`

The accumulation over the faces is written for any number type with a NaN test, so that it can be read over the reals
(which have no NaN) and over the reals with a NaN added.  `none` is an out-of-range access.
-/

namespace Momentum

section
variable {K : Type} [Zero K] [Add K] [Sub K] [Mul K]

/-- mesh.cpp:31-32: the cross product of two edges of the face. -/
def edgeCross (a b c : Vec3 K) : Vec3 K :=
  let u := b - a
  let v := c - a
  ⟨u.y * v.z - u.z * v.y, u.z * v.x - u.x * v.z, u.x * v.y - u.y * v.x⟩

/-- mesh.cpp:25-28: the bounds test of one face.  The number of vertices is cast to `int` in the code. -/
def faceInRange (n : Nat) (f : Int × Int × Int) : Bool :=
  !([f.1, f.2.1, f.2.2].any fun idx => idx < 0 || idx ≥ (n : Int))

/-- mesh.cpp:35-37: add the face normal at the three vertices. -/
def addNormal (normal : Vec3 K) (normals : List (Vec3 K)) (idxs : List Nat) : Option (List (Vec3 K)) :=
  idxs.foldlM (fun ns i => do
    let x ← ns[i]?
    some (ns.set i (x + normal))) normals

/-- mesh.cpp:24-38: one pass of the face loop. -/
def addFace (isNan : K → Bool) (vs : List (Vec3 K)) (normals : List (Vec3 K)) (f : Int × Int × Int) :
    Option (List (Vec3 K)) :=
  if !faceInRange vs.length f then some normals
  else do
    let a ← vs[f.1.toNat]?
    let b ← vs[f.2.1.toNat]?
    let c ← vs[f.2.2.toNat]?
    let normal := edgeCross a b c
    if isNan normal.x then some normals
    else addNormal normal normals [f.1.toNat, f.2.1.toNat, f.2.2.toNat]

/-- mesh.cpp:20-38: the sums of the face normals. -/
def sumNormals (isNan : K → Bool) (vs : List (Vec3 K)) (faces : List (Int × Int × Int)) : Option (List (Vec3 K)) :=
  faces.foldlM (addFace isNan vs) (List.replicate vs.length 0)

end

open Classical in
/-- mesh.cpp:40-46: one pass of the normalisation. -/
noncomputable def normalizeOrKeep (v : Vec3 ℝ) : Vec3 ℝ :=
  let len := Real.sqrt v.sqNorm
  if len ≠ 0 then ⟨v.x / len, v.y / len, v.z / len⟩ else v

/-- mesh.cpp:17-47 `updateNormals`. -/
noncomputable def updateNormals (vs : List (Vec3 ℝ)) (faces : List (Int × Int × Int)) : Option (List (Vec3 ℝ)) := do
  let sums ← sumNormals (fun _ => false) vs faces
  some (sums.map normalizeOrKeep)

/-! ### Numbers with a NaN -/

/-- The reals with a NaN (`none`), which every operation hands on. -/
def NanReal : Type := Option ℝ

noncomputable instance : Zero NanReal := ⟨some 0⟩
noncomputable instance : Add NanReal := ⟨fun a b => Option.map₂ (· + ·) (a : Option ℝ) b⟩
noncomputable instance : Sub NanReal := ⟨fun a b => Option.map₂ (· - ·) (a : Option ℝ) b⟩
noncomputable instance : Mul NanReal := ⟨fun a b => Option.map₂ (· * ·) (a : Option ℝ) b⟩

/-- utility.h:22-28 `IsNanNoOpt`, on the model's numbers. -/
def NanReal.isNan (a : NanReal) : Bool := Option.isNone (a : Option ℝ)

end Momentum
