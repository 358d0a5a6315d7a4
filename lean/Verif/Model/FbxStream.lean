import Verif.Model.Limits

/-!
# The memory stream of FBX files (fbx_memory_stream.cpp)

Positions are integers: `long` and `FbxInt64` are taken not to overflow.
-/

namespace Momentum.Fbx

/-- fbx_memory_stream.h:54-63: the stream.  The error code is not set by the constructor: `none` stands for an indeterminate value. -/
structure Stream where
  data : List UInt8
  position : Int
  isOpen : Bool
  error : Option Int
deriving DecidableEq

/-- fbx_memory_stream.cpp:12-17: the constructor. -/
def create (data : List UInt8) : Stream := ⟨data, 0, false, none⟩

/-- `FbxFile::ESeekPos`. -/
inductive SeekPos
  | begin | current | fromEnd

/-- What can be called. -/
inductive Op
  | openIt
  | closeIt
  | flush
  | write (count : Nat)
  | read (count : Int)
  | seek (offset : Int) (pos : SeekPos)
  | setPosition (position : Int)
  | clearError

/-- fbx_memory_stream.cpp:52-66 `Read`.  From FBX SDK 2020.3.2 on (`newSdk`) the count is unsigned, so that the comparison converts what remains to an
unsigned number too; before, both are signed.  `std::memcpy` outside of the buffer, or of a negative count, is undefined behaviour; none of nothing is
taken to be harmless. -/
def read (newSdk : Bool) (s : Stream) (count : Int) : Outcome (Stream × List UInt8) :=
  let remaining := (s.data.length : Int) - s.position
  if count > (if newSdk then remaining % 2 ^ 64 else remaining) then .ok ({ s with error := some 1 }, [])
  else if count = 0 then .ok (s, [])
  else if count < 0 ∨ s.position < 0 ∨ s.position + count > s.data.length then .ub
  else .ok ({ s with position := s.position + count }, (s.data.drop s.position.toNat).take count.toNat)

/-- fbx_memory_stream.cpp:76-88 `Seek`. -/
def seek (s : Stream) (offset : Int) : SeekPos → Stream
  | .current => { s with position := s.position + offset }
  | .fromEnd => { s with position := s.data.length - offset }
  | .begin => { s with position := offset }

/-- fbx_memory_stream.cpp:27-50, 52-66, 76-88, 98-113: one call, with the bytes it gives. -/
def step (newSdk : Bool) (s : Stream) : Op → Outcome (Stream × List UInt8)
  | .openIt => .ok ({ s with position := 0, isOpen := true }, [])
  | .closeIt => .ok ({ s with position := 0, isOpen := false }, [])
  | .flush => .ok (s, [])
  | .write _ => .ok ({ s with error := some 1 }, [])
  | .read count => read newSdk s count
  | .seek offset pos => .ok (seek s offset pos, [])
  | .setPosition position => .ok ({ s with position := position }, [])
  | .clearError => .ok ({ s with error := some 0 }, [])

/-- Calls in order, with the bytes of each. -/
def run (newSdk : Bool) : List Op → Stream → Outcome (Stream × List (List UInt8))
  | [], s => .ok (s, [])
  | op :: ops, s => (step newSdk s op).bind fun r => (run newSdk ops r.1).bind fun q => .ok (q.1, r.2 :: q.2)

end Momentum.Fbx
