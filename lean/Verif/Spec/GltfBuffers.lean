import Verif.Model.GltfBuffers

/-!
# What is stored in a glTF document

Independent of buffers, views and channels.
-/

namespace Momentum.Gltf

/-- A call that stores elements. -/
structure Request where
  element : Element
  data : List (List UInt8)
  align : Bool
  normalized : Bool

/-- Each element has the size of its type. -/
def Request.Good (r : Request) : Prop := ∀ e ∈ r.data, e.length = r.element.size

/-- The bytes that elements of a request take: their size, rounded up to a multiple of four if they are to be aligned. -/
def Request.bytes (r : Request) : Nat := r.data.length * if r.align then (r.element.size + 3) / 4 * 4 else r.element.size

/-- A document after calls, in order. -/
def stored (rs : List Request) : Document :=
  rs.foldl (fun doc r => (createAccessorBuffer doc r.element r.data r.align r.normalized).1) ⟨[], [], []⟩

section
variable {K : Type}

/-- The visible markers of a frame, none if there is no such frame. -/
def seen (sequence : List (List (Marker K))) (i : Nat) : List (Marker K) := (sequence.getD i []).filter fun m => !m.occluded

/-- The names of visible markers in the order in which they are first seen. -/
def seenNames (sequence : List (List (Marker K))) : List String := (sequence.flatten.filter fun m => !m.occluded).map (·.name) |>.eraseDups

end

end Momentum.Gltf
