import Verif.Model.Simplify
import Verif.Spec.Skeleton

/-!
# Specification vocabulary for skeleton simplification
-/

namespace Momentum

/-- Joint `j` is switched on. -/
def EnabledAt (en : List Bool) (j : Nat) : Prop := en[j]? = some true

/-- `a` is the nearest enabled ancestor-or-self of `j`: it is enabled, and every enabled ancestor-or-self of `j`
is an ancestor-or-self of `a`. -/
def Skeleton.Nearest {K : Type} (s : Skeleton K) (en : List Bool) (j a : Nat) : Prop :=
  s.Anc j a ∧ EnabledAt en a ∧ ∀ b, s.Anc j b → EnabledAt en b → s.Anc a b

/-- Position of joint `a` among the enabled joints. -/
def newIndex (en : List Bool) (a : Nat) : Nat := (en.take a).count true

/-- Every root joint is switched on. -/
def Skeleton.RootsEnabled {K : Type} (s : Skeleton K) (en : List Bool) : Prop :=
  ∀ (j : Nat) (jt : Joint K), s.joints[j]? = some jt → jt.parent = none → EnabledAt en j

end Momentum
