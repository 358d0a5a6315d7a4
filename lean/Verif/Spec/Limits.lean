import Verif.Model.Limits
import Verif.Spec.ParameterTransform

/-!
# Specification vocabulary for limits
-/

namespace Momentum

/-- `x` clamped to the interval from `lo` to `hi` (to `hi` if the interval is empty). -/
def clampTo {K : Type} [LinearOrder K] (lo hi x : K) : K := min hi (max lo x)

/-- The interval of a passive limit on joint parameter `k`, if it is one. -/
def ParameterLimit.passiveOn {K : Type} (l : ParameterLimit K) (k : Nat) : Option (K × K) :=
  match l.data with
  | .minMaxJointPassive j d lo hi => if j * 7 + d = k then some (lo, hi) else none
  | _ => none

/-- The passive joint-parameter index a limit refers to, if it is a passive limit. -/
def ParameterLimit.passiveIndex {K : Type} (l : ParameterLimit K) : Option Nat :=
  match l.data with
  | .minMaxJointPassive j d _ _ => some (j * 7 + d)
  | _ => none

/-- A limit is satisfied by model parameters `p` and joint parameters `jp`; limits on parameters that are
not enabled (joint parameters that are not active) count as satisfied. -/
def LimitSatisfied (enabled : Nat → Bool) (active : Nat → Bool) (p jp : Nat → ℝ) : LimitData ℝ → Prop
  | .minMax i lo hi => enabled i → lo ≤ p i ∧ p i ≤ hi
  | .minMaxJoint j d lo hi => active (j * 7 + d) → lo ≤ jp (j * 7 + d) ∧ jp (j * 7 + d) ≤ hi
  | .minMaxJointPassive .. => True
  | .linear r t scale offset rangeMin rangeMax => enabled t ∨ enabled r →
      (rangeMin = 0 ∧ rangeMax = 0) ∨ (rangeMin ≤ p t ∧ p t < rangeMax) → p r = scale * p t - offset
  | .halfPlane a b n0 n1 offset => enabled a ∨ enabled b → offset ≤ n0 * p a + n1 * p b
  | .ellipsoid .. => True

/-- The indices of a limit are in range for `n` model and `m` joint parameters, and it is not an
ellipsoid limit (which is not modelled). -/
def LimitInRange (n m : Nat) : LimitData ℝ → Prop
  | .minMax i _ _ => i < n
  | .minMaxJoint j d _ _ => j * 7 + d < m
  | .minMaxJointPassive .. => True
  | .linear r t .. => r < n ∧ t < n
  | .halfPlane a b .. => a < n ∧ b < n
  | .ellipsoid .. => False

/-- `p t` is not on the edge of the range of a linear limit (there the error may jump). -/
def OffRangeEdge (p : Nat → ℝ) : LimitData ℝ → Prop
  | .linear _ t _ _ rangeMin rangeMax => (rangeMin = 0 ∧ rangeMax = 0) ∨ (p t ≠ rangeMin ∧ p t ≠ rangeMax)
  | _ => True

/-- The linear and half-plane limits of the list have weight one. -/
def UnitLinearWeights (limits : List (ParameterLimit ℝ)) : Prop :=
  ∀ l ∈ limits, match l.data with
    | .linear .. | .halfPlane .. => l.weight = 1
    | _ => True

/-- The two parameters of every linear and half-plane limit are different. -/
def DistinctPairs (limits : List (ParameterLimit ℝ)) : Prop :=
  ∀ l ∈ limits, match l.data with
    | .linear r t .. => r ≠ t
    | .halfPlane a b .. => a ≠ b
    | _ => True

/-- Every min/max limit has a nonempty interval. -/
def OrderedIntervals (limits : List (ParameterLimit ℝ)) : Prop :=
  ∀ l ∈ limits, match l.data with
    | .minMax _ lo hi => lo ≤ hi
    | .minMaxJoint _ _ lo hi => lo ≤ hi
    | _ => True

/-- A limit error function whose limits, parameter transform and flags fit together, for transform `pt`. -/
structure LimitErrorFunction.Valid (f : LimitErrorFunction) (pt : ParameterTransform ℝ) : Prop where
  transform : f.transform = pt.transform
  wf : pt.transform.WF
  offs : pt.offsets.length = pt.transform.rows
  rows : pt.transform.rows = f.numJoints * 7
  cols : pt.transform.cols ≤ 2048
  active : f.activeJointParams.length = pt.transform.rows
  range : ∀ l ∈ f.limits, LimitInRange pt.transform.cols pt.transform.rows l.data

/-- The limit error as a function of the model parameters alone (the joint parameters are those the parameter
transform produces). -/
noncomputable def LimitErrorFunction.errorAt (f : LimitErrorFunction) (pt : ParameterTransform ℝ)
    (p : List ℝ) : Option ℝ := (pt.apply p).bind fun jp => f.getError p jp

end Momentum
