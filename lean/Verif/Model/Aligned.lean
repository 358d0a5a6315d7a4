import Verif.Model.Limits

/-!
# Aligned memory (aligned.h)

`std::size_t` has 64 bits: results are modulo `2 ^ 64`.
-/

namespace Momentum

/-- aligned.h:52-55 `roundUpToAlignment`. -/
def roundUpToAlignment (value alignment : Nat) : Outcome Nat :=
  if alignment = 0 then .throws else .ok ((value + alignment - 1) % 2 ^ 64 / alignment * alignment % 2 ^ 64)

/-- aligned.h:62-71 `alignedAlloc`: the number of bytes of the block; `malloc` tells whether the system has a block of that size.  The block itself is
not modelled. -/
def alignedAlloc (malloc : Nat → Bool) (size alignment n : Nat) : Outcome Nat :=
  if (2 ^ 64 - 1) / size < n then .throws
  else (roundUpToAlignment (n * size % 2 ^ 64) alignment).bind fun bytes => if malloc bytes then .ok bytes else .throws

end Momentum
