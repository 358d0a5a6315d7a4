import Verif.Model.Vec
import Mathlib.Algebra.Order.Field.Basic

/-!
# axel/BoundingBox.h, axel/BoundingBox.cpp and the parts of `Eigen::AlignedBox` they use

Exact arithmetic in a linearly ordered field: no rounding, no NaN, no infinities.
-/

namespace Momentum

/-- Coordinate `d` of a vector (`v[d]`). -/
def Vec3.get {K : Type*} (v : Vec3 K) (d : Fin 3) : K := if d = 0 then v.x else if d = 1 then v.y else v.z

/-- BoundingBox.h:18-52: an axis-aligned box with an id. `min` may exceed `max` (Eigen's empty box). -/
@[ext] structure Box (K : Type) where
  min : Vec3 K
  max : Vec3 K
  id : Nat
  deriving DecidableEq

namespace Box
variable {K : Type} [Field K] [LinearOrder K]

/-- `Eigen::AlignedBox::extend(box)` (BoundingBox.cpp:147-150); the id is kept. -/
def extend (a b : Box K) : Box K :=
  ⟨⟨a.min.x ⊓ b.min.x, a.min.y ⊓ b.min.y, a.min.z ⊓ b.min.z⟩,
   ⟨a.max.x ⊔ b.max.x, a.max.y ⊔ b.max.y, a.max.z ⊔ b.max.z⟩, a.id⟩

/-- BoundingBox.cpp:142-145 `extend(point)`. -/
def extendPoint (a : Box K) (p : Vec3 K) : Box K :=
  ⟨⟨a.min.x ⊓ p.x, a.min.y ⊓ p.y, a.min.z ⊓ p.z⟩, ⟨a.max.x ⊔ p.x, a.max.y ⊔ p.y, a.max.z ⊔ p.z⟩, a.id⟩

/-- BoundingBox.cpp:21-27 with thickness 0. -/
def ofPoint (p : Vec3 K) : Box K := ⟨p - ⟨0, 0, 0⟩, p + ⟨0, 0, 0⟩, 0⟩

/-- `Eigen::AlignedBox::center`. -/
def center (a : Box K) : Vec3 K :=
  ⟨(a.min.x + a.max.x) / 2, (a.min.y + a.max.y) / 2, (a.min.z + a.max.z) / 2⟩

/-- `Eigen::AlignedBox::intersects(box)` (BoundingBox.cpp:158-161). -/
def intersects (a b : Box K) : Bool :=
  (a.min.x ≤ b.max.x ∧ a.min.y ≤ b.max.y ∧ a.min.z ≤ b.max.z) ∧
  (b.min.x ≤ a.max.x ∧ b.min.y ≤ a.max.y ∧ b.min.z ≤ a.max.z)

/-- `Eigen::AlignedBox::contains(box)` (BoundingBox.cpp:137-140). -/
def contains (a b : Box K) : Bool :=
  (a.min.x ≤ b.min.x ∧ a.min.y ≤ b.min.y ∧ a.min.z ≤ b.min.z) ∧
  (b.max.x ≤ a.max.x ∧ b.max.y ≤ a.max.y ∧ b.max.z ≤ a.max.z)

/-- `Eigen::AlignedBox::contains(point)` (BoundingBox.cpp:132-135). -/
def containsPoint (a : Box K) (p : Vec3 K) : Bool :=
  (a.min.x ≤ p.x ∧ a.min.y ≤ p.y ∧ a.min.z ≤ p.z) ∧ (p.x ≤ a.max.x ∧ p.y ≤ a.max.y ∧ p.z ≤ a.max.z)

/-- BoundingBox.cpp:152-155. -/
def maxDimension (a : Box K) : Fin 3 :=
  let s := a.max - a.min
  if s.x > s.y then (if s.x > s.z then 0 else 2) else (if s.y > s.z then 1 else 2)

/-- BoundingBox.cpp:45-48: the squared length of the diagonal. -/
def squaredVolume (a : Box K) : K := (a.max - a.min).sqNorm

/-- One coordinate of `Eigen::AlignedBox::squaredExteriorDistance(point)`. -/
def exteriorSq (lo hi p : K) : K := if lo > p then (lo - p) * (lo - p) else if p > hi then (p - hi) * (p - hi) else 0

/-- `Eigen::AlignedBox::squaredExteriorDistance(point)`. -/
def squaredExteriorDistance (a : Box K) (p : Vec3 K) : K :=
  exteriorSq a.min.x a.max.x p.x + exteriorSq a.min.y a.max.y p.y + exteriorSq a.min.z a.max.z p.z

/-- BoundingBox.cpp:52-107: the slab interval of one axis, with ends swapped into order. -/
def slab (lo hi o d : K) : K × K :=
  let t0 := (lo - o) / d
  let t1 := (hi - o) / d
  if t0 > t1 then (t1, t0) else (t0, t1)

/-- BoundingBox.cpp:50-107 `intersects(origin, direction)`. Division is that of the field (division by
zero gives zero); theorems about it assume nonzero direction components. -/
def intersectsRay (a : Box K) (o d : Vec3 K) : Bool :=
  let sx := slab a.min.x a.max.x o.x d.x
  let sy := slab a.min.y a.max.y o.y d.y
  if sx.1 > sy.2 ∨ sy.1 > sx.2 then false else
  let tmin := if sy.1 > sx.1 then sy.1 else sx.1
  let tmax := if sy.2 < sx.2 then sy.2 else sx.2
  let sz := slab a.min.z a.max.z o.z d.z
  if tmin > sz.2 ∨ sz.1 > tmax then false else
  let tmin' := if sz.1 > tmin then sz.1 else tmin
  let tmax' := if sz.2 < tmax then sz.2 else tmax
  if tmin' < 0 ∧ tmax' < 0 then false else true

/-- BoundingBox.cpp:119-126: one iteration of the loop of `intersectsBranchless`. -/
def branchlessStep (lo hi o inv : K) (t : K × K) : K × K :=
  let t1 := (lo - o) * inv
  let t2 := (hi - o) * inv
  ((t.1 ⊔ t1) ⊓ (t.1 ⊔ t2), (t.2 ⊓ t1) ⊔ (t.2 ⊓ t2))

/-- BoundingBox.cpp:110-129 `intersectsBranchless`; `big` is `numeric_limits::max()`. -/
def intersectsBranchless (big : K) (a : Box K) (o inv : Vec3 K) : Bool :=
  let t := branchlessStep a.min.z a.max.z o.z inv.z
    (branchlessStep a.min.y a.max.y o.y inv.y (branchlessStep a.min.x a.max.x o.x inv.x (0, big)))
  t.1 ≤ t.2

end Box
end Momentum
