import Verif.Model.BinaryIo

/-!
# Binary files of joint parameters (momentum/io/motion/joint_params_binary_io.cpp)

Streams, undefined memory and floats are those of `Model/BinaryIo.lean`; allocation failures are not modelled.
-/

namespace Momentum.JointParamsIo
open BinaryIo

/-- joint_params_binary_io.cpp:27-31: the frames, each read into new memory. -/
def readFrames (s : IStream) (numParams : Nat) : Nat → List (List (Option UInt32))
  | 0 => []
  | n + 1 =>
    let (frame, s) := s.readFloats numParams
    frame :: readFrames s numParams n

/-- joint_params_binary_io.cpp:14-34 `loadJointParamsBinary`; without a file the stream has failed from the beginning.  `ub`: a number that was not
read is used (23-24), a vector of negative size (24), or the counter of frames, an `int`, overflows (27).  `throws`: a negative number of frames (24). -/
def loadJointParamsBinary (file : Option (List UInt8)) : Outcome (List (List (Option UInt32))) :=
  let s : IStream := match file with
    | none => ⟨[], true⟩
    | some file => ⟨file, false⟩
  let (numFrames, s) := s.readU64 none
  let (numParams, s) := s.readU64 none
  match numFrames, numParams with
  | some numFrames, some numParams =>
    if numParams ≥ 2 ^ 63 then .ub
    else if numFrames ≥ 2 ^ 63 then .throws
    else if numFrames ≥ 2 ^ 31 then .ub
    else .ok (readFrames s numParams numFrames)
  | _, _ => .ub

end Momentum.JointParamsIo
