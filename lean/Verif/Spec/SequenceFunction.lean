import Verif.Model.SequenceFunction
import Verif.Spec.ErrorFunction

/-!
# Specification: what the joined parameters of a sequence stand for
-/

namespace Momentum
open Finset

/-- Entry `j` of the joined vector is the value of parameter `i` in frame `f`: the per-frame parameters come first, frame by
frame, then the universal ones, which belong to every frame. -/
def SequenceFunction.StandsFor (S : SequenceFunction) (j f i : Nat) : Prop :=
  f < S.nFrames ∧ ((∃ k, S.perFrame[k]? = some i ∧ j = S.perFrame.length * f + k) ∨
    ∃ k, S.universal[k]? = some i ∧ j = S.perFrame.length * S.nFrames + k)

/-- The parameter sets belong to a set of enabled parameters: each enabled parameter occurs once, as universal or not. -/
structure SequenceFunction.Sets (S : SequenceFunction) (active : Nat → Bool) : Prop where
  perFrame : ∀ i, i ∈ S.perFrame ↔ i < S.np ∧ active i = true ∧ S.universalParameters i = false
  universal : ∀ i, i ∈ S.universal ↔ i < S.np ∧ active i = true ∧ S.universalParameters i = true
  perFrameSorted : S.perFrame.Pairwise (· < ·)
  universalSorted : S.universal.Pairwise (· < ·)

/-- The frames that the sequence error functions look at exist. -/
def SequenceFunction.Inside (S : SequenceFunction) : Prop := ∀ f, ∀ F ∈ S.sequenceErrors f, f + F.numFrames ≤ S.nFrames

/-- The matrices that `getJacobian` works on are zero: they were, or they have to be made anew because they have too few rows
or another number of columns. -/
def SequenceFunction.Buffers.Fresh (b : SequenceFunction.Buffers) (S : SequenceFunction) : Prop :=
  (∀ j t, b.e j t = 0) ∧ (∀ t, b.residual t = 0) ∨ b.rows < S.jacobianSize ∨ S.numParameters ≠ b.cols

/-- A change of the enabled parameters of `n` frames. -/
def SeqDirection (n np : Nat) (active : Nat → Bool) (w : Nat → Nat → ℝ) : Prop :=
  ∀ k i, ¬ (k < n ∧ i < np ∧ active i = true) → w k i = 0

/-- The sequence error function reports its own error with the gradient, and the gradient gives the derivative of that error in
every direction of enabled parameters. -/
def SeqErrorFunction.GradientIsDerivative (F : SeqErrorFunction) (np : Nat) (active : Nat → Bool) (p : Nat → Nat → ℝ) : Prop :=
  (F.getGradient p).1 = F.getError p ∧ ∀ w, SeqDirection F.numFrames np active w →
    HasDerivAt (fun u : ℝ => F.getError fun k i => p k i + u * w k i)
      (∑ k ∈ range F.numFrames, ∑ i ∈ range np, (F.getGradient p).2 (k * np + i) * w k i) 0

/-- The sequence error function is a sum of squares of residuals, with the Jacobian as derivative in every direction of
enabled parameters. -/
structure SeqErrorFunction.JacobianIsDerivative (F : SeqErrorFunction) (np : Nat) (active : Nat → Bool) (p : Nat → Nat → ℝ) : Prop where
  error : (F.getJacobian p).error = F.getError p
  size : (F.getJacobian p).rows ≤ F.jacobianSize
  rows : ∀ w, SeqDirection F.numFrames np active w → ∀ u : ℝ,
    (F.getJacobian fun k i => p k i + u * w k i).rows = (F.getJacobian p).rows
  squares : ∀ w, SeqDirection F.numFrames np active w → ∀ u : ℝ, F.getError (fun k i => p k i + u * w k i) =
    ∑ t ∈ range (F.getJacobian p).rows, (F.getJacobian fun k i => p k i + u * w k i).residual t ^ 2
  deriv : ∀ w, SeqDirection F.numFrames np active w → ∀ t < (F.getJacobian p).rows,
    HasDerivAt (fun u : ℝ => (F.getJacobian fun k i => p k i + u * w k i).residual t)
      (∑ k ∈ range F.numFrames, ∑ i ∈ range np, (F.getJacobian p).e (k * np + i) t * w k i) 0

end Momentum
