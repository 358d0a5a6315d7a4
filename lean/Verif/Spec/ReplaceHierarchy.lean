import Verif.Model.ReplaceHierarchy
import Verif.Spec.Skeleton

/-!
# Specification vocabulary for replacing a skeleton hierarchy
-/

namespace Momentum
open Classical

section
variable {K : Type}

/-- The joints of the combined skeleton, by origin (`true` for the source) and original index: the target
joints that are not strictly below the target root, in order, with the source joints strictly below the source
root inserted just after the target root. -/
noncomputable def combinedOrigins (src tgt : Skeleton K) (srcRoot tgtRoot : Nat) : List (Bool × Nat) :=
  (List.range tgt.joints.length).flatMap fun i =>
    if i = tgtRoot then
      (false, i) :: ((List.range src.joints.length).filter (fun k => src.ProperAnc k srcRoot)).map (true, ·)
    else if tgt.ProperAnc i tgtRoot then [] else [(false, i)]

/-- Joint `jt'` of a combined list of joints is the copy of joint `i` of `s`: same data, no parent if the
original has none, and otherwise a parent with the name of the original parent. -/
structure IsCopy (joints : List (Joint K)) (s : Skeleton K) (i : Nat) (jt' : Joint K) : Prop where
  exists_orig : ∃ jt, s.joints[i]? = some jt ∧ jt'.name = jt.name ∧ jt'.preRotation = jt.preRotation ∧
    jt'.translationOffset = jt.translationOffset ∧
    (jt.parent = none → jt'.parent = none) ∧
    (∀ p, jt.parent = some p → ∃ pj q qj, s.joints[p]? = some pj ∧ jt'.parent = some q ∧
      joints[q]? = some qj ∧ qj.name = pj.name)

/-- The name of a joint that goes into the combined skeleton. -/
def SurvivingName (src tgt : Skeleton K) (srcRoot tgtRoot : Nat) (nm : String) : Prop :=
  (∃ (i : Nat) (jt : Joint K), tgt.joints[i]? = some jt ∧ ¬ tgt.ProperAnc i tgtRoot ∧ jt.name = nm) ∨
  (∃ (i : Nat) (jt : Joint K), src.joints[i]? = some jt ∧ src.ProperAnc i srcRoot ∧ jt.name = nm)

/-- No joint has the same name as its own parent. -/
def Skeleton.ParentNamesDiffer (s : Skeleton K) : Prop :=
  ∀ (i : Nat) (jt : Joint K) (p : Nat) (pj : Joint K), s.joints[i]? = some jt → jt.parent = some p →
    s.joints[p]? = some pj → pj.name ≠ jt.name

end
end Momentum
