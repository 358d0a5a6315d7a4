import Verif.Model.TensorTransform

/-!
# Rows of eight numbers as transforms, and repetition of tensors
-/

namespace Momentum.TensorTransform

/-- The transform in a row tx, ty, tz, rx, ry, rz, rw, s. -/
def asTransform {K : Type} (r : Fin 8 → K) : Transform K := ⟨⟨r 6, r 3, r 4, r 5⟩, ⟨r 0, r 1, r 2⟩, r 7⟩

/-- A tensor with leading dimensions `left` can be repeated to the dimensions `right`: counted from the last, each is one or equal. -/
def Repeats (left right : List Nat) : Prop :=
  left.length ≤ right.length ∧
  ∀ k (h : k < left.length) (h2 : k < right.length), left.reverse[k]'(by simpa) = 1 ∨
    left.reverse[k]'(by simpa) = right.reverse[k]'(by simpa)

/-- The index in the repeated tensor that is used for the index `idx` of the other tensor: counted from the last, the same, but zero
where there is one only. -/
def repeatedIndex (left idx : List Nat) : List Nat :=
  (List.zipWith (fun d i => if d = 1 then 0 else i) left.reverse idx.reverse).reverse

/-- The index is one of a tensor with these dimensions. -/
def InRange (shape idx : List Nat) : Prop := List.Forall₂ (fun i d => i < d) idx shape

end Momentum.TensorTransform
