import Verif.Model.Multipose
import Verif.Spec.SequenceFunction

/-!
# Specification: several poses as a sequence without terms between frames
-/

namespace Momentum

/-- The poses as a sequence: the generic parameters are the per-frame ones, there are no sequence error functions. -/
def MultiposeFunction.asSequence (M : MultiposeFunction) : SequenceFunction where
  np := M.np
  nFrames := M.nFrames
  universalParameters := M.flag
  perFrame := M.generic
  universal := M.universal
  frames := M.frames
  frameErrors := M.frameErrors
  sequenceErrors := fun _ => []

/-- The lists have every parameter once, in order, as universal or generic, and the map gives the places in them. -/
structure MultiposeFunction.Laid (M : MultiposeFunction) : Prop where
  sets : M.asSequence.Sets fun _ => true
  map : ∀ i < M.np, (if M.flag i then M.universal else M.generic)[M.indexMap i]? = some i

/-- Entry `j` of the joined vector is the value of parameter `i` in frame `f` (see `SequenceFunction.StandsFor`). -/
def MultiposeFunction.StandsFor (M : MultiposeFunction) (j f i : Nat) : Prop := M.asSequence.StandsFor j f i

/-- The Jacobians of the error functions fit into the rows announced. -/
def MultiposeFunction.RowsFit (M : MultiposeFunction) (v : Nat → ℝ) : Prop :=
  ∀ f < M.nFrames, ∀ F ∈ M.frameErrors f, 0 < F.weight →
    (F.getJacobian ((M.setJoined v).frames f)).rows ≤ F.jacobianSize

/-- The matrices that `getJacobian` works on are zero: they were, or they have to be made anew because they have too few rows
or another number of columns. -/
def MultiposeFunction.Fresh (M : MultiposeFunction) (b : SequenceFunction.Buffers) : Prop :=
  (∀ j t, b.e j t = 0) ∧ (∀ t, b.residual t = 0) ∨ b.rows < M.jacobianSize ∨ M.numParameters ≠ b.cols

end Momentum
