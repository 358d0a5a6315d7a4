import Verif.Model.FbxStream

/-!
# A file in memory

What a reader expects of a file: a position from the start, bytes from there on, and an error if there are not enough.
-/

namespace Momentum.Fbx

/-- Where a call moves to, in a file of this size, from a position; `bytes` if the call reads that many bytes. -/
def moved (size pos : Int) : Op → Int
  | .openIt | .closeIt => 0
  | .flush | .write _ | .clearError => pos
  | .read count => if count ≤ size - pos then pos + count else pos
  | .seek offset .begin => offset
  | .seek offset .current => pos + offset
  | .seek offset .fromEnd => size - offset
  | .setPosition p => p

/-- The calls stay inside the file: after each of them the position is not before its start nor after its end, and no negative count is read. -/
def Inside (size : Int) : Int → List Op → Prop
  | _, [] => True
  | pos, op :: ops => (∀ count, op = .read count → 0 ≤ count) ∧ 0 ≤ moved size pos op ∧ moved size pos op ≤ size ∧ Inside size (moved size pos op) ops

/-- The bytes that a call at a position gives. -/
def bytesAt (data : List UInt8) (pos : Int) : Op → List UInt8
  | .read count => if count ≤ data.length - pos then (data.drop pos.toNat).take count.toNat else []
  | _ => []

/-- The bytes of calls in order. -/
def expected (data : List UInt8) : Int → List Op → List (List UInt8)
  | _, [] => []
  | pos, op :: ops => bytesAt data pos op :: expected data (moved data.length pos op) ops

/-- The calls set or clear the error, or read more than there is. -/
def fails (size pos : Int) : Op → Bool
  | .write _ => true
  | .read count => decide (size - pos < count)
  | _ => false

/-- Reads of these sizes only. -/
def reads (counts : List Nat) : List Op := counts.map fun c => .read c

end Momentum.Fbx
