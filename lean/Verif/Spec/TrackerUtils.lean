import Verif.Model.TrackerUtils
import Verif.Spec.TransformPose
import Verif.Spec.Character

/-!
# Calibrating locators: what is meant
-/

namespace Momentum

/-- The axes along which a locator may be moved. -/
def Locator.axes {K : Type} (l : Locator K) : List (Fin 3) := ([0, 1, 2] : List (Fin 3)).filter fun j => l.locked.coord j = 0

/-- All free axes of a list of locators, in order: the number of the locator and the axis. -/
def freeAxes {K : Type} (locators : List (Locator K)) : List (Nat × Fin 3) :=
  locators.zipIdx.flatMap fun lk => lk.1.axes.map fun j => (lk.2, j)

/-- How far locator `k` is moved along axis `j`, where the parameters from `n` on are the free axes in order. -/
def axisShift (locators : List (Locator ℝ)) (n : Nat) (p : List ℝ) (k : Nat) (j : Fin 3) : ℝ :=
  if (k, j) ∈ freeAxes locators then p.getD (n + (freeAxes locators).idxOf (k, j)) 0 else 0

/-- How far locator `k` is moved in the frame of its joint. -/
def locatorShift (locators : List (Locator ℝ)) (n : Nat) (p : List ℝ) (k : Nat) : Vec3 ℝ :=
  ⟨axisShift locators n p k 0, axisShift locators n p k 1, axisShift locators n p k 2⟩

/-- The locators with their offsets moved by the parameters. -/
def movedLocators (locators : List (Locator ℝ)) (n : Nat) (p : List ℝ) : List (Locator ℝ) :=
  locators.mapIdx fun k l => { l with offset := l.offset + locatorShift locators n p k }

/-- `x` is where the locators are in the world, in the pose given by the world transforms of the joints. -/
def LocatorsAt (ts : List (Transform ℝ)) (locators : List (Locator ℝ)) (x : List (Vec3 ℝ)) : Prop :=
  x.length = locators.length ∧ ∀ (k : Nat) (l : Locator ℝ), locators[k]? = some l →
    ∃ T, ts[l.parent]? = some T ∧ x[k]? = some (T.transformPoint l.offset)

/-- The constraint for a marker: none if it is occluded or has no locator; else it belongs to the last locator of its name. -/
def expectedConstraint {K : Type} (locators : List (Locator K)) (m : Marker K) : Option (MarkerConstraint K) :=
  if m.occluded then none
  else (locators.reverse.find? fun l => l.name == m.name).map fun l => ⟨l.offset, m.pos, l.parent, l.weight⟩

/-- The constraint is met in the pose given by the world transforms of the joints. -/
def MarkerConstraint.Met (ts : List (Transform ℝ)) (mc : MarkerConstraint ℝ) : Prop :=
  ∃ T, ts[mc.parent]? = some T ∧ T.transformPoint mc.offset = mc.target

end Momentum
