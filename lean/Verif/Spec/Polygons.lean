import Verif.Model.Polygons
import Mathlib.Algebra.BigOperators.Group.List.Basic

/-!
# Polygons and their triangles

Independent of the code: polygons as lists of vertices, how FBX files write them, and sums along their boundary.
-/

namespace Momentum.Polygons

/-- The places where the polygons start and end in the list of all vertices. -/
def offsetsFrom (s : Nat) : List (List Nat) → List Nat
  | [] => [s]
  | f :: fs => s :: offsetsFrom (s + f.length) fs

/-- The two arrays describe the polygons. -/
def Describes (faces : List (List Nat)) (indices offsets : List Nat) : Prop :=
  indices = faces.flatten ∧ offsets = offsetsFrom 0 faces

/-- Each polygon has three vertices or more. -/
def ThreeVertices (faces : List (List Nat)) : Prop := ∀ f ∈ faces, 3 ≤ f.length

/-- How an FBX file writes a polygon: the last vertex `i` is written as `-(i + 1)`. -/
def written : List Nat → List Int
  | [] => []
  | [i] => [-((i : Int) + 1)]
  | i :: j :: f => (i : Int) :: written (j :: f)

section
variable {G : Type} [AddCommGroup G]

/-- The sum of a function of edges along the boundary of a polygon, from each vertex to the next and from the last to the first. -/
def boundarySum (w : Int → Int → G) (f : List Nat) : G :=
  ((f.zip (f.rotate 1)).map fun e => w e.1 e.2).sum

/-- The sum along the boundary of a triangle. -/
def triangleSum (w : Int → Int → G) (t : Triangle) : G := w t.1 t.2.1 + w t.2.1 t.2.2 + w t.2.2 t.1

end

end Momentum.Polygons
