import Verif.Model.ParameterTransform
import Mathlib.Algebra.BigOperators.Group.Finset.Basic

/-!
# Specification vocabulary for parameter transforms
-/

namespace Momentum

/-- Membership of a parameter index in a parameter set. -/
def ParameterSet.mem (s : ParameterSet) (i : Nat) : Bool :=
  if h : i < kMaxModelParams then s ⟨i, h⟩ else false

/-- The matrix coefficient at row `i`, column `j` that a sparse matrix stands for. -/
def SparseMat.coeff {K : Type} [CommRing K] (A : SparseMat K) (i j : Nat) : K :=
  ((A.entries.filter fun e => e.row == i && e.col == j).map (·.val)).sum

/-- The parameters below `n` that belong to `s`, in increasing order. -/
def keptParams (s : ParameterSet) (n : Nat) : List Nat := (List.range n).filter s.mem

/-- The entries of `v` whose index is in `s`, in order. -/
def restrictTo {α : Type} (s : ParameterSet) (v : List α) : List α :=
  (keptParams s v.length).filterMap fun i => v[i]?

/-- `v` with the entries outside `s` replaced by zero. -/
def zeroOutside {K : Type} [Zero K] (s : ParameterSet) (v : List K) : List K :=
  v.mapIdx fun i x => if s.mem i then x else 0

/-- The model parameters a limit refers to. -/
def LimitData.params {K : Type} : LimitData K → List Nat
  | .minMax i _ _ => [i]
  | .minMaxJoint .. => []
  | .minMaxJointPassive .. => []
  | .linear r t _ _ _ _ => [r, t]
  | .ellipsoid .. => []
  | .halfPlane a b _ _ _ => [a, b]

/-- Renaming of the model parameters a limit refers to. -/
def LimitData.rename {K : Type} (f : Nat → Nat) : LimitData K → LimitData K
  | .minMax i lo hi => .minMax (f i) lo hi
  | .minMaxJoint j d lo hi => .minMaxJoint j d lo hi
  | .minMaxJointPassive j d lo hi => .minMaxJointPassive j d lo hi
  | .linear r t a b c d => .linear (f r) (f t) a b c d
  | .ellipsoid a b => .ellipsoid a b
  | .halfPlane a b n0 n1 o => .halfPlane (f a) (f b) n0 n1 o

/-- Renaming in a limit. -/
def ParameterLimit.rename {K : Type} (f : Nat → Nat) (l : ParameterLimit K) : ParameterLimit K :=
  ⟨l.data.rename f, l.weight⟩

/-- A parameter transform (with its limits) whose indices are all in range, as loaders produce. -/
structure ParameterTransform.Valid {K : Type} (pt : ParameterTransform K)
    (limits : List (ParameterLimit K)) : Prop where
  names : pt.name.length = pt.transform.cols
  bound : pt.transform.cols ≤ kMaxModelParams
  offs : pt.offsets.length = pt.transform.rows
  wf : pt.transform.WF
  constraints : ∀ nc ∈ pt.poseConstraints, ∀ iv ∈ nc.2, iv.1 < pt.transform.cols
  blend : ∀ b ∈ pt.blendShapeParameters, b < pt.transform.cols
  face : ∀ b ∈ pt.faceExpressionParameters, b < pt.transform.cols
  lims : ∀ l ∈ limits, ∀ i ∈ l.data.params, i < pt.transform.cols

end Momentum
