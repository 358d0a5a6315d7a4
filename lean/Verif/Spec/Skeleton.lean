import Verif.Model.Skeleton
import Mathlib.Logic.Relation

/-!
# Specification vocabulary for joint hierarchies
-/

namespace Momentum

/-- The skeleton invariant: every joint's parent (if any) has a smaller index. -/
def Skeleton.Valid {K : Type*} (s : Skeleton K) : Prop :=
  ∀ (i : Nat) (jt : Joint K) (p : Nat), s.joints[i]? = some jt → jt.parent = some p → p < i

/-- `p` is the parent joint of `j`. -/
def Skeleton.ParentRel {K : Type*} (s : Skeleton K) (j p : Nat) : Prop :=
  ∃ jt : Joint K, s.joints[j]? = some jt ∧ jt.parent = some p

/-- `a` is `j` or is reached from `j` by following parent links. -/
def Skeleton.Anc {K : Type*} (s : Skeleton K) (j a : Nat) : Prop :=
  Relation.ReflTransGen s.ParentRel j a

/-- `a` is reached from `j` by following one or more parent links. -/
def Skeleton.ProperAnc {K : Type*} (s : Skeleton K) (j a : Nat) : Prop :=
  Relation.TransGen s.ParentRel j a

/-- `l` is the list of joints on the path from a root down to `j` (both included). -/
inductive Skeleton.ChainTo {K : Type*} (s : Skeleton K) : Nat → List Nat → Prop
  | root {j : Nat} {jt : Joint K} (h : s.joints[j]? = some jt) (hp : jt.parent = none) :
      ChainTo s j [j]
  | step {j p : Nat} {l : List Nat} (h : s.ParentRel j p) (hl : ChainTo s p l) :
      ChainTo s j (l ++ [j])

end Momentum
