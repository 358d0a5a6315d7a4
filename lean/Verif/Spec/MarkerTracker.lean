import Verif.Model.MarkerTracker
import Verif.Spec.TrackerUtils
import Verif.Spec.SequenceFunction

/-!
# What a tracked motion is

Independent of the loops of the tracker.
-/

namespace Momentum.MarkerTracker

section
variable {K : Type} [Field K] [LinearOrder K]

/-- The solver changes enabled parameters only. -/
def Keeps (solve : SolveCall K → List K → List K) : Prop :=
  ∀ call x, (solve call x).length = x.length ∧ ∀ i, call.enabled i = false → (solve call x)[i]? = x[i]?

/-- The target of a term without weight does not matter. -/
def Weightless (solve : SolveCall K → List K → List K) : Prop :=
  ∀ enabled maxIter cs t t' x, solve ⟨enabled, maxIter, cs, 0, t⟩ x = solve ⟨enabled, maxIter, cs, 0, t'⟩ x

/-- The constraints of the visible markers of a frame that have a locator. -/
def visible (locators : List (Locator K)) (frame : List (Marker K)) : List (MarkerConstraint K) := frame.filterMap (expectedConstraint locators)

/-- More than the required part of the markers of the first frame is visible in frame `f`. -/
def EnoughSeen (cfg : TrackConfig K) (locators : List (Locator K)) (data : List (List (Marker K))) (f : Nat) : Prop :=
  ∃ first frame, data[0]? = some first ∧ data[f]? = some frame ∧ ((visible locators frame).length : K) > (first.length : K) * cfg.minVisPercent

/-- A first, rigid solve is done: the frames are far apart, or the given pose has no root and no frame was solved before. -/
def NeedsRigid (cfg : TrackConfig K) (locators : List (Locator K)) (data : List (List (Marker K))) (globals : List K) (stride f : Nat) : Prop :=
  5 ≤ stride ∨ ((∀ x ∈ globals.take 6, x = 0) ∧ ∀ g < f, stride ∣ g → ¬ EnoughSeen cfg locators data g)

/-- The input is as required. -/
def GoodInput (P : TrackParameters) (data : List (List (Marker K))) (globals : List K) : Prop :=
  data ≠ [] ∧ globals.length = P.count ∧ 6 ≤ P.count

end

end Momentum.MarkerTracker
