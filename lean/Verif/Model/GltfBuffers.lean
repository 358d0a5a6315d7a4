import Verif.Model.TrackerUtils
import Mathlib.Algebra.Order.Floor.Semiring

/-!
# glTF buffers and marker sequences

momentum/io/gltf/utils/accessor_utils.h: `createAccessorBuffer`, `copyAccessorBuffer`; momentum/io/gltf/gltf_builder.cpp:
`addActorAnimationToModel`; momentum/io/gltf/gltf_io.cpp: `loadMarkerSequence`.  Of a document only accessors, views and buffers are kept.
An element is the list of its bytes.  The numbers of fx::gltf documents are `uint32_t`.  `throws` is an exception, a failed check, or the
end of the program by a failed contract of `gsl::span`.
-/

namespace Momentum.Gltf

/-- `fx::gltf::Accessor::ComponentType`. -/
inductive ComponentType
  | none | byte | unsignedByte | short | unsignedShort | unsignedInt | float
deriving DecidableEq

/-- `fx::gltf::Accessor::Type`. -/
inductive AccessorType
  | none | scalar | vec2 | vec3 | vec4 | mat2 | mat3 | mat4
deriving DecidableEq

/-- `fx::gltf::Accessor`, without minimum and maximum. -/
structure Accessor where
  bufferView : Int
  byteOffset : Nat
  count : Nat
  componentType : ComponentType
  type : AccessorType
  normalized : Bool

/-- `fx::gltf::BufferView`, without the target. -/
structure BufferView where
  buffer : Int
  byteOffset : Nat
  byteLength : Nat
  byteStride : Nat

/-- `fx::gltf::Buffer`. -/
structure Buffer where
  byteLength : Nat
  data : List UInt8

/-- What matters of `fx::gltf::Document`. -/
structure Document where
  accessors : List Accessor
  bufferViews : List BufferView
  buffers : List Buffer

/-- accessor_utils.h:17-31 `getComponentSize`. -/
def getComponentSize : ComponentType → Int
  | .byte | .unsignedByte => 1
  | .short | .unsignedShort => 2
  | .unsignedInt | .float => 4
  | .none => -1

/-- accessor_utils.h:34-53 `getTypeSize`. -/
def getTypeSize : AccessorType → Int
  | .scalar => 1
  | .vec2 => 2
  | .vec3 => 3
  | .vec4 => 4
  | .mat2 => 4
  | .mat3 => 9
  | .mat4 => 16
  | .none => -1

/-- `vector[id]` with an `int`: undefined behaviour, `none`, out of range. -/
def at? {α : Type} (l : List α) (id : Int) : Option α := if 0 ≤ id then l[id.toNat]? else none

/-- accessor_utils.h:81-84: the loop from element `i` on, with `left` elements left.  The span starts at `start` and has `len` bytes.  Its index
is checked; `std::memcpy` is not: it reads what follows the span, and past the end of the buffer it is undefined behaviour. -/
def readElements (data : List UInt8) (start len stride elsize : Nat) : Nat → Nat → Outcome (List (List UInt8))
  | 0, _ => .ok []
  | left + 1, i =>
    if i * stride ≥ len then .throws
    else if start + i * stride + elsize > data.length then .ub
    else (readElements data start len stride elsize left (i + 1)).bind fun r => .ok ((data.drop (start + i * stride)).take elsize :: r)

/-- accessor_utils.h:73-86: the elements of a view.  `subspan` checks its arguments. -/
def readView (data : List UInt8) (view : BufferView) (accessor : Accessor) (elsize : Nat) : Outcome (List (List UInt8)) :=
  let stride := if view.byteStride = 0 then elsize else view.byteStride
  if view.byteOffset > data.length ∨ view.byteLength > data.length - view.byteOffset then .throws
  else if accessor.byteOffset > view.byteLength then .throws
  else readElements data (view.byteOffset + accessor.byteOffset) (view.byteLength - accessor.byteOffset) stride elsize accessor.count 0

/-- accessor_utils.h:55-87 `copyAccessorBuffer` for a type of `size` bytes. -/
def copyAccessorBuffer (size : Nat) (model : Document) (id : Int) : Outcome (List (List UInt8)) :=
  match at? model.accessors id with
  | none => .ub
  | some accessor =>
    if getTypeSize accessor.type * getComponentSize accessor.componentType ≠ size then .ok []
    else
      match at? model.bufferViews accessor.bufferView with
      | none => .ub
      | some view =>
        match at? model.buffers view.buffer with
        | none => .ub
        | some buf => readView buf.data view accessor size

/-- The types that can be stored (accessor_utils.h:206-258). -/
inductive Element
  | int32 | float | vector2f | vector3f | vector4f | vector3b | vector3i | vector4s | matrix4f
deriving DecidableEq

/-- `sizeof`. -/
def Element.size : Element → Nat
  | .int32 | .float => 4
  | .vector2f => 8
  | .vector3f => 12
  | .vector4f => 16
  | .vector3b => 3
  | .vector3i => 12
  | .vector4s => 8
  | .matrix4f => 64

/-- accessor_utils.h:206-258 `setAccessorType`. -/
def Element.componentType : Element → ComponentType
  | .int32 => .unsignedInt
  | .float | .vector2f | .vector3f | .vector4f | .matrix4f => .float
  | .vector3b => .unsignedByte
  | .vector3i => .unsignedInt
  | .vector4s => .unsignedShort

/-- accessor_utils.h:206-258 `setAccessorType`. -/
def Element.type : Element → AccessorType
  | .int32 | .float => .scalar
  | .vector2f => .vec2
  | .vector3f | .vector3b | .vector3i => .vec3
  | .vector4f | .vector4s => .vec4
  | .matrix4f => .mat4

/-- accessor_utils.h:155-162: the size of an element with the bytes that align it. -/
def alignedSize (elementSize : Nat) (align : Bool) : Nat :=
  if align ∧ elementSize % 4 ≠ 0 then (elementSize / 4 + 1) * 4 else elementSize

/-- accessor_utils.h:153-175: the bytes that are appended; new bytes are zero until an element is copied. -/
def elementBytes (elementSize : Nat) (align : Bool) (data : List (List UInt8)) : List UInt8 :=
  data.flatMap fun e => e ++ List.replicate (alignedSize elementSize align - elementSize) 0

/-- accessor_utils.h:134-204 `createAccessorBuffer`; the index of the accessor is returned too.  Taking the address of the byte after the last
one, for no elements, is taken to be harmless. -/
def createAccessorBuffer (model : Document) (T : Element) (data : List (List UInt8)) (align normalized : Bool) : Document × Nat :=
  let buffers := if model.buffers.isEmpty then [⟨0, []⟩] else model.buffers
  let old := (buffers.headD ⟨0, []⟩).data
  let dataSize := data.length * alignedSize T.size align
  let bytes := old ++ elementBytes T.size align data
  let view : BufferView := ⟨0, old.length % 2 ^ 32, dataSize % 2 ^ 32, if align ∧ T.size % 4 ≠ 0 then alignedSize T.size align else 0⟩
  let accessor : Accessor := ⟨model.bufferViews.length, 0, data.length % 2 ^ 32, T.componentType, T.type, normalized⟩
  (⟨model.accessors ++ [accessor], model.bufferViews ++ [view], ⟨bytes.length % 2 ^ 32, bytes⟩ :: buffers.tail⟩, model.accessors.length)

section
variable {K : Type}

/-- A channel of an animation with its node and its sampler.  The times and positions go through accessors, see `C92_read_back`. -/
structure Channel (K : Type) where
  name : String
  path : String
  marker : Bool
  skinOrCamera : Bool
  timestamps : List K
  positions : List (Vec3 K)

variable [Field K] [LinearOrder K] [FloorSemiring K]

/-- coordinate_utils.h:23-25 `fromMomentumVec3f`. -/
def fromMomentum (v : Vec3 K) : Vec3 K := ⟨v.x * (1 / 100), v.y * (1 / 100), v.z * (1 / 100)⟩

/-- coordinate_utils.h:41-47 `toMomentumVec3f`, for one position. -/
def toMomentum (v : Vec3 K) : Vec3 K := ⟨v.x * 100, v.y * 100, v.z * 100⟩

/-- gltf_builder.cpp:304-323: the arrays of a marker get one more entry; a new marker gets new arrays at the end. -/
def addPosition (name : String) (t : K) (p : Vec3 K) : List (Channel K) → List (Channel K)
  | [] => [⟨name, "translation", true, false, [t], [p]⟩]
  | c :: cs =>
    if c.name = name then { c with timestamps := c.timestamps ++ [t], positions := c.positions ++ [p] } :: cs
    else c :: addPosition name t p cs

/-- gltf_builder.cpp:304-323: one marker of a frame. -/
def addMarker (t : K) (cs : List (Channel K)) (m : Marker K) : List (Channel K) :=
  if m.occluded then cs else addPosition m.name t (fromMomentum m.pos) cs

/-- gltf_builder.cpp:302-324: one frame. -/
def addFrame (fps : K) (cs : List (Channel K)) (f : List (Marker K) × Nat) : List (Channel K) :=
  f.1.foldl (addMarker ((f.2 : K) / fps)) cs

/-- gltf_builder.cpp:290-366 `addActorAnimationToModel`: the channels of the animation. -/
def addActorAnimation (fps : K) (sequence : List (List (Marker K))) : List (Channel K) := sequence.zipIdx.foldl (addFrame fps) []

/-- gltf_io.cpp:1014, 1021 `static_cast<size_t>(t * fps + 0.5f)`: negative numbers from -1 on are undefined behaviour.  Numbers of frames are
taken to fit. -/
def frameIndex (fps t : K) : Outcome Nat := if t * fps + 1 / 2 ≤ -1 then .ub else .ok ⌊t * fps + 1 / 2⌋₊

/-- gltf_io.cpp:1020-1028: the entries of one marker; `frames[index]` is not checked. -/
def placeAll (fps : K) (name : String) : List (K × Vec3 K) → List (List (Marker K)) → Outcome (List (List (Marker K)))
  | [], frames => .ok frames
  | e :: es, frames =>
    (frameIndex fps e.1).bind fun index =>
      if index < frames.length then placeAll fps name es (frames.modify index fun ms => ms ++ [⟨name, toMomentum e.2, false⟩]) else .ub

/-- gltf_io.cpp:1001-1028: a channel with a marker; `timestamps.back()` of an empty vector is undefined behaviour. -/
def loadMarker (fps : K) (frames : List (List (Marker K))) (c : Channel K) : Outcome (List (List (Marker K))) :=
  if c.timestamps.length ≠ c.positions.length then .throws
  else
    match c.timestamps.getLast? with
    | none => .ub
    | some last =>
      (frameIndex fps last).bind fun n =>
        placeAll fps c.name (c.timestamps.zip c.positions) (frames ++ List.replicate (n + 1 - frames.length) [])

/-- gltf_io.cpp:985-1030: the loop over the channels. -/
def loadChannels (fps : K) : List (Channel K) → List (List (Marker K)) → Outcome (List (List (Marker K)))
  | [], frames => .ok frames
  | c :: cs, frames =>
    if c.path ≠ "translation" ∨ c.skinOrCamera ∨ ¬ c.marker then loadChannels fps cs frames
    else (loadMarker fps frames c).bind fun frames => loadChannels fps cs frames

/-- gltf_io.cpp:971-1033 `loadMarkerSequence`, with the channels of the first animation. -/
def loadMarkerSequence (fps : K) (channels : List (Channel K)) : Outcome (List (List (Marker K))) := loadChannels fps channels []

end

end Momentum.Gltf
