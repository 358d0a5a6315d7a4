import Verif.Model.Character
import Verif.Spec.Skeleton
import Verif.Spec.ParameterTransform

/-!
# Specification vocabulary for removing joints and parameters from a character
-/

namespace Momentum
open Classical

/-- The numbers below `n` that satisfy `P`, in increasing order. -/
noncomputable def keptBelow (P : Nat → Prop) (n : Nat) : List Nat := (List.range n).filter (P ·)

/-- The position of `i` among the numbers that satisfy `P`: how many smaller ones satisfy it. -/
noncomputable def rankIn (P : Nat → Prop) (i : Nat) : Nat := (keptBelow P i).length

/-- Neither `j` nor any of its ancestors is in the list of joints to remove. -/
def Skeleton.Kept {K : Type} (s : Skeleton K) (rem : List Nat) (j : Nat) : Prop :=
  ∀ a, s.Anc j a → a ∉ rem

/-- `a` is the nearest joint satisfying `P` at or above `j`: it is reached from `j` by following parents,
and every other such joint lies above it. -/
structure Skeleton.NearestUp {K : Type} (s : Skeleton K) (P : Nat → Prop) (j a : Nat) : Prop where
  up : s.Anc j a
  sat : P a
  nearest : ∀ b, s.Anc j b → P b → s.Anc a b

/-- Parameter `p` has a stored coefficient in one of the rows of a joint satisfying `P`. -/
def Character.Influences {K : Type} (c : Character K) (P : Nat → Prop) (p : Nat) : Prop :=
  ∃ e ∈ c.parameterTransform.transform.entries, e.col = p ∧ P (e.row / 7)

/-- Parameter `k` belongs to the named parameter set `nm`. -/
def NamedMem (sets : List (String × ParameterSet)) (nm : String) (k : Nat) : Prop :=
  ∃ t, (nm, t) ∈ sets ∧ t.mem k = true

/-- The joints a limit refers to. -/
def LimitData.joints {K : Type} : LimitData K → List Nat
  | .minMax _ _ _ => []
  | .minMaxJoint j _ _ _ => [j]
  | .minMaxJointPassive j _ _ _ => [j]
  | .linear _ _ _ _ _ _ => []
  | .ellipsoid a b => [a, b]
  | .halfPlane _ _ _ _ _ => []

/-- Renaming of the joints a limit refers to. -/
def LimitData.renameJoints {K : Type} (f : Nat → Nat) : LimitData K → LimitData K
  | .minMax i lo hi => .minMax i lo hi
  | .minMaxJoint j d lo hi => .minMaxJoint (f j) d lo hi
  | .minMaxJointPassive j d lo hi => .minMaxJointPassive (f j) d lo hi
  | .linear r t a b c d => .linear r t a b c d
  | .ellipsoid a b => .ellipsoid (f a) (f b)
  | .halfPlane a b n0 n1 o => .halfPlane a b n0 n1 o

/-- A character whose indices are all in range, as loaders produce. -/
structure Character.Valid {K : Type} (c : Character K) : Prop where
  skel : c.skeleton.Valid
  rows : c.parameterTransform.transform.rows = 7 * c.skeleton.joints.length
  pt : c.parameterTransform.Valid c.parameterLimits
  locs : ∀ l ∈ c.locators, l.parent < c.skeleton.joints.length
  caps : ∀ g, c.collision = some g → ∀ k ∈ g, k.parent < c.skeleton.joints.length
  lims : ∀ l ∈ c.parameterLimits, ∀ j ∈ l.data.joints, j < c.skeleton.joints.length
  skin : ∀ w, c.skinWeights = some w → ∀ row ∈ w, ∀ iw ∈ row, iw.1 < c.skeleton.joints.length

end Momentum
