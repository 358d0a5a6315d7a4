import Verif.Model.Bvh

/-!
# axel/TriBvh.cpp: ray queries against triangles

The ray/triangle test of one triangle is a parameter `hit : Nat → Option K` (triangle index to ray
parameter, `none` when `rayTriangleIntersect` fails); barycentric coordinates are left out.
-/

namespace Momentum
section
variable {K : Type} [Field K] [LinearOrder K]

/-- TriBvh.cpp:120-138: the callback of `closestHit`; the state is (best hit, maxT). -/
def closestHitStep (hit : Nat → Option K) (minT : K) (s : Option (K × Nat) × K) (id : Nat) : Option (K × Nat) × K :=
  match hit id with
  | some t => if minT ≤ t ∧ t ≤ s.2 then (some (t, id), t) else s
  | none => s

/-- TriBvh.cpp:114-150 `closestHit`: ray parameter and triangle of the hit, `none` when there is none. -/
def triClosestHit (b : Bvh K) (big : K) (origin direction : Vec3 K) (minT maxT : K) (hit : Nat → Option K) :
    Option (Outcome (Option (K × Nat))) :=
  (rayQueryClosestHit b big origin direction (closestHitStep hit minT) (none, maxT)).map fun r => r.bind fun s => .ok s.1

/-- TriBvh.cpp:159-174: the callback of `allHits`, which does not change maxT. -/
def allHitsStep (hit : Nat → Option K) (minT maxT : K) (s : List (K × Nat)) (id : Nat) : List (K × Nat) :=
  match hit id with
  | some t => if minT ≤ t ∧ t ≤ maxT then s ++ [(t, id)] else s
  | none => s

/-- TriBvh.cpp:153-187 `allHits`. -/
def triAllHits (b : Bvh K) (big : K) (origin direction : Vec3 K) (minT maxT : K) (hit : Nat → Option K) :
    Option (Outcome (List (K × Nat))) :=
  rayQueryClosestHit b big origin direction (allHitsStep hit minT maxT) []

/-- TriBvh.cpp:192-203: the callback of `anyHit`. -/
def anyHitTest (hit : Nat → Option K) (minT maxT : K) (id : Nat) : Bool :=
  match hit id with
  | some t => decide (minT ≤ t ∧ t ≤ maxT)
  | none => false

/-- TriBvh.cpp:190-204 `anyHit`. -/
def triAnyHit (b : Bvh K) (big : K) (origin direction : Vec3 K) (minT maxT : K) (hit : Nat → Option K) : Option (Outcome Bool) :=
  rayQueryAnyHit b big origin direction (anyHitTest hit minT maxT)

end
end Momentum
