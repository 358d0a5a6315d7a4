import Verif.Model.Limits
import Mathlib.Data.List.Basic

/-!
# Polygons of a mesh file

momentum/io/openfbx/polygon_data.cpp: `triangulate`, `PolygonData::errorMessage` and `PolygonData::warnMessage`; and the loop of
momentum/io/openfbx/openfbx_io.cpp that reads the polygons of an FBX file.  An unsigned 32-bit number is a natural number; where the code
can wrap around, the model does.  A failed bounds check of `gsl::span` ends the program: `ub`.
-/

namespace Momentum.Polygons

/-- Conversion of an unsigned 32-bit number to `int`. -/
def asInt (n : Nat) : Int := if n < 2 ^ 31 then n else (n : Int) - 2 ^ 32

/-- Conversion of an `int` to an unsigned 32-bit number. -/
def asUnsigned (i : Int) : Nat := (i % 2 ^ 32).toNat

/-- A triangle: `Eigen::Vector3i`. -/
abbrev Triangle := Int × Int × Int

/-- polygon_data.cpp:34-36: one triangle of the face that starts at `s`. -/
def fanTriangle (indices : List Nat) (s j : Nat) : Outcome Triangle :=
  match indices[s + 0]?, indices[s + j]?, indices[s + j + 1]? with
  | some a, some b, some c => .ok (asInt a, asInt b, asInt c)
  | _, _, _ => .ub

/-- polygon_data.cpp:34: the loop over `j`, with the number of turns left. -/
def fanLoop (indices : List Nat) (s : Nat) : Nat → Nat → List Triangle → Outcome (List Triangle)
  | _, 0, acc => .ok acc
  | j, k + 1, acc => (fanTriangle indices s j).bind fun t => fanLoop indices s (j + 1) k (acc ++ [t])

/-- polygon_data.cpp:28-37: the loop over the faces, each between one offset and the next. -/
def faceLoop (indices : List Nat) : List Nat → List Triangle → Outcome (List Triangle)
  | s :: e :: offsets, acc =>
    let nv := (e + (2 ^ 32 - s)) % 2 ^ 32
    if nv < 3 then .throws
    else (fanLoop indices s 1 (nv - 2) acc).bind fun acc' => faceLoop indices (e :: offsets) acc'
  | _, acc => .ok acc

/-- polygon_data.cpp:17-41 `triangulate`.  Without offsets the number of faces wraps around and `reserve` throws. -/
def triangulate (indices offsets : List Nat) : Outcome (List Triangle) :=
  if indices = [] then .ok []
  else if offsets = [] then .throws
  else faceLoop indices offsets []

/-- polygon_data.h `PolygonData`; `textureIndices` with `kInvalidTexCoord = 2^32 - 1`. -/
structure PolygonData where
  indices : List Nat
  offsets : List Nat
  textureIndices : List Nat
deriving DecidableEq

/-- polygon_data.cpp:60-73: the loop over the faces. -/
def facesError (indices : List Nat) : List Nat → String
  | s :: e :: offsets =>
    if s ≥ e then "Non-monotonic offsets array"
    else if e > indices.length then "Too-large offset"
    else if e - s < 3 then "Too few vertices in face"
    else facesError indices (e :: offsets)
  | _ => ""

/-- polygon_data.cpp:48-84 `errorMessage`. -/
def errorMessage (p : PolygonData) (numVertices : Nat) : String :=
  match p.offsets with
  | [] => "Empty offsets array"
  | o :: offsets =>
    if o ≠ 0 then "Invalid first offset (expected 0)"
    else if p.textureIndices ≠ [] ∧ p.textureIndices.length ≠ p.indices.length then "Mismatch between indices and textureIndices"
    else if facesError p.indices (o :: offsets) ≠ "" then facesError p.indices (o :: offsets)
    else if p.indices.any (fun i => i ≥ numVertices) then "Invalid too-large vertex"
    else if (o :: offsets).getLast? ≠ some p.indices.length then "Unused trailing vertices"
    else ""

/-- polygon_data.cpp:86-94 `warnMessage`. -/
def warnMessage (p : PolygonData) (numTexVertices : Nat) : String :=
  if p.textureIndices.any (fun i => i ≠ 2 ^ 32 - 1 && decide (i ≥ numTexVertices)) then "Invalid too-large texture vertex" else ""

/-- openfbx_io.cpp:506-514: one number of the file.  A negative one ends a polygon.  The negation in `int` is exact for all values. -/
def readIndex (p : PolygonData) (i : Int) : PolygonData :=
  if i < 0 then { p with indices := p.indices ++ [asUnsigned (-(i + 1))], offsets := p.offsets ++ [(p.indices.length + 1) % 2 ^ 32] }
  else { p with indices := p.indices ++ [asUnsigned i] }

/-- openfbx_io.cpp:504-514: the polygons of a file; `offsets` starts with 0. -/
def readPolygons (numbers : List Int) : PolygonData := numbers.foldl readIndex ⟨[], [0], []⟩

end Momentum.Polygons
