import Verif.Spec.Geometry
import Verif.Spec.Skeleton
import Verif.Model.Capsule
import Mathlib.Analysis.Real.Sqrt
import Mathlib.Data.Finset.Prod

/-!
# Specification: collisions between the capsules of a character
-/

namespace Momentum

/-- The distance of two segments. -/
noncomputable def segmentDistance (o1 d1 o2 d2 : Vec3 ℝ) : ℝ :=
  sInf {x | ∃ s t, (0 ≤ s ∧ s ≤ 1) ∧ (0 ≤ t ∧ t ≤ 1) ∧ x = Real.sqrt (sqDist (segPoint o1 d1 s) (segPoint o2 d2 t))}

/-- How deep two capsules of constant radius are in each other; zero when they are apart. -/
noncomputable def capsuleDepth (a b : CapsuleState ℝ) : ℝ :=
  max 0 (a.radius0 + b.radius0 - segmentDistance a.origin a.direction b.origin b.direction)

/-- The joints are the same, or one is the parent of the other. -/
def Skeleton.Adjacent {K : Type} (s : Skeleton K) (a b : Nat) : Prop := a = b ∨ s.ParentRel a b ∨ s.ParentRel b a

/-- All joints hang on one root. -/
def Skeleton.OneTree {K : Type} (s : Skeleton K) : Prop := ∃ r, ∀ j < s.joints.length, s.Anc j r

/-- The pairs of capsules `i < j` to be kept apart: not on the same joint or on neighbouring joints, and not reported to
overlap in the rest pose. -/
def Watched (s : Skeleton ℝ) (tol eps : ℝ) (g : List (TaperedCapsule ℝ)) (rest : List (CapsuleState ℝ)) (i j : Nat) : Prop :=
  ∃ ga gb ca cb, g[i]? = some ga ∧ g[j]? = some gb ∧ rest[i]? = some ca ∧ rest[j]? = some cb ∧
    ¬ s.Adjacent ga.parent gb.parent ∧ overlaps tol eps ca cb = false

/-- The list contains every pair of distinct numbers below `n` exactly once, in one of its two orders. -/
structure AllPairs (n : Nat) (O : List (Nat × Nat)) : Prop where
  once : O.Pairwise fun p q => p ≠ q ∧ p ≠ q.swap
  mem : ∀ a b, ((a, b) ∈ O ∨ (b, a) ∈ O) ↔ a < n ∧ b < n ∧ a ≠ b

/-- The capsule with number `i`. -/
def capsuleAt (cs : List (CapsuleState ℝ)) (i : Nat) : CapsuleState ℝ := cs.getD i ⟨0, 0, 0, 0, 0⟩

open Classical in
/-- The pairs to be kept apart. -/
noncomputable def watchedPairs (s : Skeleton ℝ) (tol eps : ℝ) (g : List (TaperedCapsule ℝ)) (rest : List (CapsuleState ℝ)) :
    Finset (Nat × Nat) :=
  (Finset.range g.length ×ˢ Finset.range g.length).filter fun p => p.1 < p.2 ∧ Watched s tol eps g rest p.1 p.2

/-- A pair of capsules of constant radius on which the closest point computation is exact whenever they overlap: the axes
are then not nearly parallel and not closer than `eps`, and the closest parameters are not so small that they are rounded
to zero. -/
structure ClearPair (tol eps : ℝ) (a b : CapsuleState ℝ) : Prop where
  constA : a.radius1 = a.radius0
  constB : b.radius1 = b.radius0
  near : segmentDistance a.origin a.direction b.origin b.direction < a.radius0 + b.radius0 →
    tol ≤ (a.direction.cross b.direction).sqNorm ∧ eps ≤ segmentDistance a.origin a.direction b.origin b.direction ∧
    ∃ s t, IsClosestPair a.origin a.direction b.origin b.direction s t ∧
      (s = 0 ∨ tol ≤ s * min (a.direction.cross b.direction).sqNorm a.direction.sqNorm) ∧
      (t = 0 ∨ tol ≤ t * min (a.direction.cross b.direction).sqNorm b.direction.sqNorm)

end Momentum
