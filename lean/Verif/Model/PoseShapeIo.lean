import Verif.Model.BinaryIo

/-!
# Files of shapes that depend on the pose (momentum/io/shape/pose_shape_io.cpp)

Streams, undefined memory and floats are those of `Model/BinaryIo.lean`; allocation failures are not modelled.
-/

namespace Momentum.PoseShapeIo
open BinaryIo

/-- A `PoseShape` that was loaded (pose_shape.h:16-21); a rotation is of type `R`, the matrix is stored column by column. -/
structure Loaded (R : Type) where
  baseJoint : Nat
  baseRot : R
  jointMap : List Nat
  baseShape : List UInt32
  shapeVectors : FMat (Option UInt32)
deriving DecidableEq

/-- pose_shape_io.cpp:39-42, 53-55: the length is read into the variable that still has the last length, then the characters into as many zeros. -/
def readCounted (s : IStream) (count : Nat) : List UInt8 × Nat × IStream :=
  let (c, s) := s.read ((leBytes 8 count).map some)
  let count := leValue ((defined c).getD [])
  let (b, s) := s.read (List.replicate count (some 0))
  (b.map (·.getD 0), count, s)

/-- pose_shape_io.cpp:52-56: the names of the joints. -/
def readCountedNames (s : IStream) (count : Nat) : Nat → List (List UInt8) × IStream
  | 0 => ([], s)
  | n + 1 =>
    let (a, count, s) := readCounted s count
    let (l, s) := readCountedNames s count n
    (a :: l, s)

/-- skeleton.cpp `getJointIdByName` for names of bytes; joints have a name and a rotation. -/
def jointId {R : Type} (joints : List (List UInt8 × R)) (name : List UInt8) : Option Nat := joints.findIdx? fun j => j.1 = name

/-- pose_shape_io.cpp:18-81 `loadPoseShape`.  `mesh` has the coordinates of the vertices of the character, if it has a mesh, `file` the bytes of the
file, if it can be opened, and `add` is the addition of floats.  `ok none` is the shape without numbers (24-25), `throws` a failed check.  `ub`: a
dimension (31-33) or a number (64) that was not read is used, or the first vertex of a mesh without vertices (62-63). -/
def loadPoseShape {R : Type} (add : UInt32 → UInt32 → UInt32) (joints : List (List UInt8 × R)) (mesh : Option (List UInt32))
    (file : Option (List UInt8)) : Outcome (Option (Loaded R)) :=
  match mesh with
  | none => .throws
  | some mesh =>
    match file with
    | none => .ok none
    | some file =>
      let (numRows, s) := (⟨file, false⟩ : IStream).readU64 none
      let (numJoints, s) := s.readU64 none
      match numRows, numJoints with
      | some numRows, some numJoints =>
        if mesh.length ≠ numRows then .throws
        else
          let (base, count, s) := readCounted s 0
          match jointId joints base with
          | none => .throws
          | some b =>
            match joints[b]? with
            | none => .throws
            | some joint =>
              let (names, s) := readCountedNames s count numJoints
              let (mean, s) := s.readFloats numRows
              if mesh = [] then .ub
              else
                match mean.mapM id with
                | none => .ub
                | some mean =>
                  let (data, _) := s.readFloats (numRows * (numJoints * 4))
                  match names.mapM (jointId joints) with
                  | none => .throws
                  | some map => .ok (some ⟨b, joint.2, map, List.zipWith add mean mesh, ⟨numRows, numJoints * 4, data⟩⟩)
      | _, _ => .ub

end Momentum.PoseShapeIo
