import Verif.Model.Skeleton
import Verif.Model.Limits

/-!
# Binary files: momentum/io/motion/mmo_io.cpp, momentum/io/shape/blend_shape_io.cpp, momentum/io/skeleton/mppca_io.cpp

A file is a list of bytes.  Memory that is read into is a list of bytes that may be undefined (`none`): a vector or matrix
just allocated, or an uninitialised variable.  A `float` is its 32-bit pattern, a `std::string` a list of bytes; the
machine is little endian with 8-byte `size_t`.  Allocation failures and failures to open or write a file are not modelled.
-/

namespace Momentum
namespace BinaryIo

/-! ### Streams -/

/-- `std::istream` on a file: the bytes not read yet, and the fail bit. -/
structure IStream where
  rest : List UInt8
  fail : Bool
deriving DecidableEq, Repr

/-- `std::istream::read` into a buffer.  A stream that has failed does nothing; at the end of the file the bytes that are
left are stored, the others keep what they were, and the stream fails. -/
def IStream.read (s : IStream) (buf : List (Option UInt8)) : List (Option UInt8) × IStream :=
  if s.fail then (buf, s)
  else ((s.rest.take buf.length).map some ++ buf.drop s.rest.length,
    ⟨s.rest.drop buf.length, decide (s.rest.length < buf.length)⟩)

/-- The `k` bytes of a number, least significant first. -/
def leBytes : Nat → Nat → List UInt8
  | 0, _ => []
  | k + 1, n => UInt8.ofNat (n % 256) :: leBytes k (n / 256)

/-- The number with these bytes. -/
def leValue : List UInt8 → Nat
  | [] => 0
  | b :: bs => b.toNat + 256 * leValue bs

/-- All bytes defined. -/
def defined (buf : List (Option UInt8)) : Option (List UInt8) := buf.mapM id

/-- An 8-byte number is read into a variable whose bytes were `init`; `none` if the variable is indeterminate afterwards. -/
def IStream.readU64 (s : IStream) (init : Option UInt8) : Option Nat × IStream :=
  let (b, s) := s.read (List.replicate 8 init)
  ((defined b).map leValue, s)

/-- The float at this place of a buffer; `none` if one of its bytes is undefined. -/
def floatAt (buf : List (Option UInt8)) (i : Nat) : Option UInt32 :=
  (defined ((buf.drop (4 * i)).take 4)).map fun b => UInt32.ofNat (leValue b)

/-- Read `n` floats into newly allocated memory. -/
def IStream.readFloats (s : IStream) (n : Nat) : List (Option UInt32) × IStream :=
  let (b, s) := s.read (List.replicate (4 * n) none)
  ((List.range n).map (floatAt b), s)

/-- The bytes of an array of floats. -/
def floatBytes (l : List UInt32) : List UInt8 := l.flatMap fun x => leBytes 4 x.toNat

/-- A length and the characters (mmo_io.cpp:143-147). -/
def nameBytes (s : List UInt8) : List UInt8 := leBytes 8 s.length ++ s

/-- mmo_io.cpp:261-268: `size_t count = 0`, read it, `name.resize(count)`, which fills with zeros, read the characters. -/
def IStream.readName (s : IStream) : List UInt8 × IStream :=
  let (c, s) := s.readU64 (some 0)
  let (b, s) := s.read (List.replicate (c.getD 0) (some 0))
  (b.map (·.getD 0), s)

/-- The loops over the names. -/
def IStream.readNames (s : IStream) : Nat → List (List UInt8) × IStream
  | 0 => ([], s)
  | n + 1 =>
    let (a, s) := s.readName
    let (l, s) := s.readNames n
    (a :: l, s)

/-- `MatrixXf`: column by column. -/
structure FMat (α : Type) where
  rows : Nat
  cols : Nat
  data : List α
deriving DecidableEq

/-! ### Motions -/

/-- What a motion file holds (mmo_io.cpp:243-249). -/
structure Motion (α : Type) where
  poses : FMat α
  scale : List α
  parameterNames : List (List UInt8)
  jointNames : List (List UInt8)

/-- mmo_io.cpp:112-167 `saveMmo`: the bytes of the file; `none` if nothing is written. -/
def saveMmo (m : Motion UInt32) : Option (List UInt8) :=
  if m.poses.rows ≠ m.parameterNames.length then none
  else if m.scale.length ≠ m.jointNames.length * 7 then none
  else some (leBytes 8 m.parameterNames.length ++ leBytes 8 m.jointNames.length ++ leBytes 8 m.poses.cols ++
    m.parameterNames.flatMap nameBytes ++ m.jointNames.flatMap nameBytes ++ floatBytes m.scale ++ floatBytes m.poses.data)

/-- mmo_io.cpp:242-301 `loadMmo(filename)`, for a file that can be opened. -/
def loadMmo (file : List UInt8) : Motion (Option UInt32) :=
  let s : IStream := ⟨file, false⟩
  let (nParams, s) := s.readU64 (some 0)
  let (nJoints, s) := s.readU64 (some 0)
  let (nFrames, s) := s.readU64 (some 0)
  let (parameterNames, s) := s.readNames (nParams.getD 0)
  let (jointNames, s) := s.readNames (nJoints.getD 0)
  let (scale, s) := s.readFloats (nJoints.getD 0 * 7)
  let (data, _) := s.readFloats (nParams.getD 0 * nFrames.getD 0)
  ⟨⟨nParams.getD 0, nFrames.getD 0, data⟩, scale, parameterNames, jointNames⟩

/-- What `saveMmo` needs of a character: the names of model parameters and joints, and the number of model parameters. -/
structure Names where
  parameters : List (List UInt8)
  joints : List (List UInt8)
  numParameters : Nat

/-- The two underscores around the name of an additional parameter (mmo_io.cpp:91). -/
def decorate (s : List UInt8) : List UInt8 := 95 :: 95 :: (s ++ [95, 95])

/-- mmo_io.cpp:43-110 `saveMmo` with a character and additional parameters.  `ub` is the assignment at :107 of a matrix with
the wrong number of columns; `ok none` means that nothing is written. -/
def saveMmoCharacter (poses : FMat UInt32) (scale : List UInt32) (ch : Names) (additional : FMat UInt32)
    (additionalNames : List (List UInt8)) : Outcome (Option (List UInt8)) :=
  if poses.rows ≠ ch.numParameters then .ok none
  else if scale.length ≠ ch.joints.length * 7 then .ok none
  else if additional.rows ≠ additionalNames.length then .ok none
  else if additional.cols ≠ 0 ∧ additional.cols ≠ poses.cols then .ok none
  else if 0 < additional.rows ∧ additional.cols ≠ poses.cols then .ub
  else
    let column (m : FMat UInt32) (j : Nat) := (m.data.drop (j * m.rows)).take m.rows
    let joined := (List.range poses.cols).flatMap fun j => column poses j ++ column additional j
    .ok (saveMmo ⟨⟨poses.rows + additional.rows, poses.cols, joined⟩, scale,
      ch.parameters ++ additionalNames.map decorate, ch.joints⟩)

/-- The entry of a matrix; `none` outside. -/
def FMat.get {α : Type} (m : FMat α) (i j : Nat) : Option α := if i < m.rows then m.data[j * m.rows + i]? else none

/-- Assign row `k` of `src` to row `i` of `dst`, both with the same number of columns; `none` if a row does not exist. -/
def FMat.setRow {α : Type} (dst : FMat α) (i : Nat) (src : FMat α) (k : Nat) : Option (FMat α) :=
  (List.range dst.cols).foldlM (init := dst) fun d j => do
    let x ← src.get k j
    if i < d.rows then some { d with data := d.data.set (j * d.rows + i) x } else none

/-- mmo_io.cpp:199-204: the seven offsets of joint `i` of the file go to the joint of the character with its name. -/
def mapOffsetStep {α : Type} (scale : List α) (jMap : List (Option Nat)) (out : List α) (i : Nat) : Option (List α) :=
  match jMap[i]? with
  | some (some j) => (List.range 7).foldlM (init := out) fun out k => do
    let x ← scale[i * 7 + k]?
    some (out.set (j * 7 + k) x)
  | _ => some out

/-- mmo_io.cpp:208-212: the frames of parameter `i` of the file go to the parameter of the character with its name. -/
def mapPoseStep {α : Type} (poses : FMat α) (pMap : List (Option Nat)) (out : FMat α) (i : Nat) : Option (FMat α) :=
  match pMap[i]? with
  | some (some r) => out.setRow r poses i
  | _ => some out

/-- mmo_io.cpp:169-214 `mapMotionToCharacter`.  `zero` is the bit pattern of 0. -/
def mapMotionToCharacter {α : Type} (zero : α) (m : Motion α) (ch : Names) : Option (FMat α × List α) := do
  let pMap := m.parameterNames.map fun n => ch.parameters.findIdx? (· == n)
  let jMap := m.jointNames.map fun n => ch.joints.findIdx? (· == n)
  let outOffset ← (List.range jMap.length).foldlM (mapOffsetStep m.scale jMap) (List.replicate (ch.joints.length * 7) zero)
  let outPoses ← (List.range pMap.length).foldlM (mapPoseStep m.poses pMap)
    ⟨ch.numParameters, m.poses.cols, List.replicate (ch.numParameters * m.poses.cols) zero⟩
  some (outPoses, outOffset)

/-- mmo_io.cpp:224-231: the name is long enough and has the underscores. -/
def isDecorated (n : List UInt8) : Bool :=
  decide (4 < n.length) && n.take 2 == [95, 95] && n.drop (n.length - 2) == [95, 95]

/-- mmo_io.cpp:222-240 `getAuxilaryDataFromMotion`; `none` if a row does not exist. -/
def getAuxilaryDataFromMotion {α : Type} (poses : FMat α) (parameterNames : List (List UInt8)) :
    Option (FMat α × List (List UInt8)) := do
  let map := (List.range parameterNames.length).filter fun i => (parameterNames[i]?.map isDecorated).getD false
  let names := map.filterMap fun i => parameterNames[i]?.map fun n => (n.drop 2).take (n.length - 4)
  let data ← ((List.range poses.cols).flatMap fun j => map.map fun i => (i, j)).mapM fun ij => poses.get ij.1 ij.2
  some (⟨names.length, poses.cols, data⟩, names)

/-! ### Blend shapes -/

/-- The base shape as floats, three per vertex, and the shape vectors. -/
structure Shapes (α : Type) where
  base : List α
  shapes : FMat α

/-- blend_shape_io.cpp:116-139 `saveBlendShape`; `none` is the failed check. -/
def saveBlendShape (b : Shapes UInt32) : Option (List UInt8) :=
  if b.shapes.rows ≠ b.base.length then none
  else some (leBytes 8 b.shapes.rows ++ leBytes 8 b.shapes.cols ++ floatBytes b.base ++ floatBytes b.shapes.data)

/-- `conservativeResize` to fewer rows and columns. -/
def FMat.top {α : Type} (m : FMat α) (r c : Nat) : FMat α :=
  ⟨r, c, (List.range c).flatMap fun j => (m.data.drop (j * m.rows)).take r⟩

/-- blend_shape_io.cpp:90-114 `ReadShapeVectors`; `expectedVertices * 3` is assumed to fit. -/
def readShapeVectors (s : IStream) (numRows numCols : Nat) (expectedShapes expectedVertices : Int) : FMat (Option UInt32) :=
  let (data, _) := s.readFloats (numRows * numCols)
  let m : FMat (Option UInt32) := ⟨numRows, numCols, data⟩
  let m := if expectedShapes > 0 then m.top m.rows (min expectedShapes.toNat m.cols) else m
  if expectedVertices > 0 then m.top (min m.rows (expectedVertices.toNat * 3)) m.cols else m

/-- blend_shape_io.cpp:69-88 `loadBlendShape`.  `ub`: a dimension that could not be read is used, or more floats are read than
the base shape has (:80-81). -/
def loadBlendShape (file : List UInt8) (expectedShapes expectedVertices : Int) : Outcome (Shapes (Option UInt32)) :=
  let s : IStream := ⟨file, false⟩
  let (numRows, s) := s.readU64 none
  let (numCols, s) := s.readU64 none
  match numRows, numCols with
  | some numRows, some numCols =>
    if numRows % 3 ≠ 0 then .ub
    else
      let (base, s) := s.readFloats numRows
      let base := if expectedVertices > 0 then base.take (min (numRows / 3) expectedVertices.toNat * 3) else base
      .ok ⟨base, readShapeVectors s numRows numCols expectedShapes expectedVertices⟩
  | _, _ => .ub

/-- blend_shape_io.cpp:46-61 `loadBlendShapeBase`. -/
def loadBlendShapeBase (file : List UInt8) (expectedShapes expectedVertices : Int) : Outcome (FMat (Option UInt32)) :=
  let s : IStream := ⟨file, false⟩
  let (numRows, s) := s.readU64 none
  let (numCols, s) := s.readU64 none
  match numRows, numCols with
  | some numRows, some numCols => .ok (readShapeVectors s numRows numCols expectedShapes expectedVertices)
  | _, _ => .ub

/-! ### Mixture models -/

/-- `MppcaT<float>` without the factors `L`, which are recomputed from `Cinv` on loading (mppca_io.cpp:73); the matrices are
stored column by column. -/
structure MppcaData (α : Type) where
  d : Nat
  p : Nat
  names : List (List UInt8)
  rpre : List α
  cinv : List (FMat α)
  mu : FMat α

/-- mppca_io.cpp:83-113 `saveMppca`; `none` is the failed check, or a vector with fewer entries than are written. -/
def saveMppca (m : MppcaData UInt32) : Option (List UInt8) :=
  if m.names.length < m.d then none
  else if m.rpre.length < m.p ∨ (∃ c ∈ m.cinv, c.data.length < m.d * m.d) ∨ m.mu.data.length < m.p * m.d then none
  else some (leBytes 8 m.d ++ leBytes 8 m.p ++ (m.names.take m.d).flatMap nameBytes ++ floatBytes (m.rpre.take m.p) ++
    m.cinv.flatMap (fun c => floatBytes (c.data.take (m.d * m.d))) ++ floatBytes (m.mu.data.take (m.p * m.d)))

/-- Read `n` square matrices (mppca_io.cpp:70-74). -/
def IStream.readMats (s : IStream) (d : Nat) : Nat → List (FMat (Option UInt32)) × IStream
  | 0 => ([], s)
  | n + 1 =>
    let (data, s) := s.readFloats (d * d)
    let (l, s) := s.readMats d n
    (⟨d, d, data⟩ :: l, s)

/-- mppca_io.cpp:36-81 `loadMppca`.  `ub`: a dimension that could not be read is used. -/
def loadMppca (file : List UInt8) : Outcome (MppcaData (Option UInt32)) :=
  let s : IStream := ⟨file, false⟩
  let (od, s) := s.readU64 none
  let (op, s) := s.readU64 none
  match od, op with
  | some od, some op =>
    let (names, s) := s.readNames od
    let (rpre, s) := s.readFloats op
    let (cinv, s) := s.readMats od op
    let (mu, _) := s.readFloats (op * od)
    .ok ⟨od, op, names, rpre, cinv, ⟨op, od, mu⟩⟩
  | _, _ => .ub

end BinaryIo
end Momentum
