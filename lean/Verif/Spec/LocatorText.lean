import Verif.Model.LocatorText
import Verif.Spec.Skeleton

/-!
# What survives saving and loading locators
-/

namespace Momentum.LocatorText

/-- A name that stays on its line. -/
def OnLine (name : List Char) : Prop := ∀ c ∈ name, c ≠ '\n' ∧ c ≠ '\r'

/-- The number is printed without blanks, colons and line ends, and the printed text is read as the same number when a comma follows. -/
def Faithful (F : NumFormat) (x : ℝ) : Prop :=
  (∀ c ∈ F.print x, c ≠ ':' ∧ c ≠ '\n' ∧ c ≠ '\r' ∧ isNumberSpace c = false) ∧ F.read (F.print x ++ [',']) = some x

/-- All three coordinates are. -/
def FaithfulVec (F : NumFormat) (v : Vec3 ℝ) : Prop := Faithful F v.x ∧ Faithful F v.y ∧ Faithful F v.z

/-- The range of an `int`. -/
def IsInt32 (i : Int) : Prop := -2147483648 ≤ i ∧ i ≤ 2147483647

/-- A locator that is attached to a joint of the skeleton and can be written: its name, its joint's name and its numbers stay on their
lines and are read back. -/
structure Writable (F : NumFormat) (sk : Skeleton ℝ) (l : Locator ℝ) : Prop where
  parent : ∃ j, sk.joints[l.parent]? = some j ∧ OnLine j.name.toList
  name : OnLine l.name.toList
  locked : IsInt32 l.locked.x ∧ IsInt32 l.locked.y ∧ IsInt32 l.locked.z
  weight : Faithful F l.weight
  limitWeight : FaithfulVec F l.limitWeight

/-- The names of the joints are different. -/
def NamesDiffer (sk : Skeleton ℝ) : Prop := (sk.joints.map (·.name)).Nodup

/-- The position that is written: the offset, or the world position in the rest pose, can be read back. -/
def PositionWritable (F : NumFormat) (sk : Skeleton ℝ) (space : LocatorSpace) (l : Locator ℝ) : Prop :=
  match space with
  | .localSpace => FaithfulVec F l.offset
  | .global => ∀ st t, skeletonState sk (List.replicate (sk.joints.length * 7) 0) true = some st →
      (worldAffines st)[l.parent]? = some t → FaithfulVec F (t.apply l.offset)

/-- The name of the joint a locator is attached to. -/
def parentName (sk : Skeleton ℝ) (l : Locator ℝ) : List Char := ((sk.joints[l.parent]?).map (·.name.toList)).getD []

/-- What becomes of a locator: it is lost when the name of its joint has a colon, its own name is lost when it has one, and the origin
of its limit becomes its offset. -/
noncomputable def afterReload (sk : Skeleton ℝ) (l : Locator ℝ) : Option (Locator ℝ) :=
  if ':' ∈ parentName sk l then none
  else some { l with name := if ':' ∈ l.name.toList then "uninitialized" else l.name, limitOrigin := l.offset }

end Momentum.LocatorText
