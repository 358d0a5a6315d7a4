import Verif.Model.TensorLinear
import Verif.Spec.TensorState
import Verif.Spec.ParameterTransform
import Mathlib.Algebra.BigOperators.Ring.Finset
import Mathlib.Tactic.FinCases
import Mathlib.Tactic.Abel

/-!
# The sums behind the backward passes of the linear functions
-/

namespace Momentum
open Finset

section
variable {K : Type} [CommRing K]

theorem mapM_range_some {α : Type} {n : Nat} {f : Nat → Option α} {g : Nat → α} (h : ∀ i < n, f i = some (g i)) :
    (List.range n).mapM f = some ((List.range n).map g) := by
  have : ∀ l : List Nat, (∀ i ∈ l, f i = some (g i)) → l.mapM f = some (l.map g) := by
    intro l
    induction l with
    | nil => intro _; rfl
    | cons a l ih =>
      intro h
      rw [List.mapM_cons, h a (by simp), ih fun i hi => h i (by simp [hi])]
      rfl
  exact this _ fun i hi => h i (List.mem_range.1 hi)

theorem list_sum_range (n : Nat) (f : Nat → K) : ((List.range n).map f).sum = ∑ i ∈ range n, f i := by
  induction n with
  | zero => rfl
  | succ n ih => rw [List.range_succ, List.map_append, List.sum_append, ih, Finset.sum_range_succ]; simp

theorem weightedPoints_range (w : Nat → K) (n : Nat) (f : Nat → Vec3 K) :
    weightedPoints w ((List.range n).map f) = ∑ i ∈ range n, (segmentVec w i).dot (f i) := by
  unfold weightedPoints
  rw [List.length_map, List.length_range, list_sum_range]
  refine Finset.sum_congr rfl fun i hi => ?_
  have := Finset.mem_range.1 hi
  simp [this, Vec3.dot, segmentVec]

/-- Sum of the products of the coefficients of two matrices. -/
def frob (a b : Mat4 K) : K := ∑ r : Fin 4, ∑ c : Fin 4, a r c * b r c

theorem frob_add (a b c : Mat4 K) : frob (a + b) c = frob a c + frob b c := by
  simp only [frob, Matrix.add_apply, add_mul, Finset.sum_add_distrib]

theorem frob_zero (c : Mat4 K) : frob 0 c = 0 := by simp [frob]

theorem Affine.matrix_homogeneous (a : Affine K) (p : Vec3 K) : (a.matrix.mulVec p.homogeneous) 3 = 1 := by
  simp [Affine.matrix, Vec3.homogeneous, Matrix.mulVec, dotProduct, Fin.sum_univ_four]

theorem frob_block (d : Vec3 K) (p : Fin 4 → K) (hp : p 3 = 1) (w : K) (m : Mat4 K) :
    frob (transformBlock d p w) m = d.dot (head3 ((w • m).mulVec p)) := by
  simp only [frob, transformBlock, Fin.sum_univ_four, Vec3.dot, head3, Matrix.mulVec, dotProduct, Matrix.smul_apply, smul_eq_mul, hp]
  simp
  ring

variable [DecidableEq K]

/-- The weights before the first zero. -/
def activeRow (row : List (Nat × K)) : List (Nat × K) := row.takeWhile fun e => e.2 ≠ 0

theorem skinVertex_eq (full : List (Mat4 K)) (p : Fin 4 → K) (row : List (Nat × K)) (h : ∀ e ∈ activeRow row, e.1 < full.length) :
    ∀ acc, skinVertex full p acc row = some (acc + ((activeRow row).map fun e => (e.2 • full.getD e.1 0).mulVec p).sum) := by
  induction row with
  | nil => intro acc; simp [skinVertex, activeRow]
  | cons e row ih =>
    intro acc
    obtain ⟨i, w⟩ := e
    by_cases hw : w = 0
    · subst hw; simp [skinVertex, activeRow]
    · have ha : activeRow ((i, w) :: row) = (i, w) :: activeRow row := by simp [activeRow, List.takeWhile_cons, hw]
      rw [ha] at h ⊢
      have hi : i < full.length := h (i, w) (by simp)
      have e : full[i]? = some full[i] := List.getElem?_eq_getElem hi
      rw [skinVertex, if_neg hw]
      simp only [e]
      rw [ih fun x hx => h x (by simp [hx])]
      simp [add_assoc, e]

theorem accumRest_eq (full : List (Mat4 K)) (d : Vec3 K) (row : List (Nat × K)) (h : ∀ e ∈ activeRow row, e.1 < full.length)
    (q : Fin 4 → K) (hq : q 3 = 0) :
    ∀ acc, ∃ r, accumRest full d acc row = some r ∧ r.dot (head3 q) = acc.dot (head3 q) +
      d.dot (head3 (((activeRow row).map fun e => (e.2 • full.getD e.1 0).mulVec q).sum)) := by
  induction row with
  | nil => intro acc; exact ⟨acc, rfl, by simp [activeRow, head3, Vec3.dot]⟩
  | cons e row ih =>
    intro acc
    obtain ⟨i, w⟩ := e
    by_cases hw : w = 0
    · subst hw; exact ⟨acc, by simp [accumRest], by simp [activeRow, head3, Vec3.dot]⟩
    · have ha : activeRow ((i, w) :: row) = (i, w) :: activeRow row := by simp [activeRow, List.takeWhile_cons, hw]
      rw [ha] at h ⊢
      have hi : i < full.length := h (i, w) (by simp)
      have e : full[i]? = some full[i] := List.getElem?_eq_getElem hi
      obtain ⟨r, h1, h2⟩ := ih (fun x hx => h x (by simp [hx])) (acc + w • ⟨full[i] 0 0 * d.x + full[i] 1 0 * d.y + full[i] 2 0 * d.z,
        full[i] 0 1 * d.x + full[i] 1 1 * d.y + full[i] 2 1 * d.z, full[i] 0 2 * d.x + full[i] 1 2 * d.y + full[i] 2 2 * d.z⟩)
      refine ⟨r, ?_, ?_⟩
      · rw [accumRest, if_neg hw]
        simp only [e]
        exact h1
      · rw [h2, List.map_cons, List.sum_cons]
        simp [head3, Vec3.dot, Matrix.mulVec, dotProduct, Fin.sum_univ_four, hq, e, Matrix.smul_apply]
        ring

/-- Pairing of a list of matrices with a change of each. -/
def pairing (G : List (Mat4 K)) (n : Nat) (D : Nat → Mat4 K) : K := ∑ j ∈ range n, frob (G.getD j 0) (D j)

theorem pairing_set {G : List (Mat4 K)} {n i : Nat} (hi : i < n) (hG : G.length = n) (a b : Mat4 K) (ha : G[i]? = some a)
    (D : Nat → Mat4 K) : pairing (G.set i (a + b)) n D = pairing G n D + frob b (D i) := by
  have : ∀ j, (G.set i (a + b)).getD j 0 = G.getD j 0 + if j = i then b else 0 := by
    intro j
    by_cases h : j = i
    · subst h
      simp [List.getD_eq_getElem?_getD, List.getElem?_set_self (hG ▸ hi), ha]
    · simp [List.getD_eq_getElem?_getD, List.getElem?_set_ne (fun e => h e.symm), h]
  simp only [pairing, this, frob_add, Finset.sum_add_distrib]
  congr 1
  rw [Finset.sum_eq_single i]
  · simp
  · intro j _ hj; simp [hj, frob_zero]
  · intro h; exact absurd (Finset.mem_range.2 hi) h

theorem accumTransforms_eq (ibp : List (Affine K)) (n : Nat) (hn : ibp.length = n) (d : Vec3 K) (p : Vec3 K) (D : Nat → Mat4 K)
    (row : List (Nat × K)) (h : ∀ e ∈ activeRow row, e.1 < n) : ∀ acc : List (Mat4 K), acc.length = n →
    ∃ g, accumTransforms (ibp.map Affine.matrix) d p.homogeneous acc row = some g ∧ g.length = n ∧
      pairing g n D = pairing acc n D + d.dot (head3 (((activeRow row).map fun e =>
        (e.2 • (D e.1 * (ibp.map Affine.matrix).getD e.1 0)).mulVec p.homogeneous).sum)) := by
  induction row with
  | nil => intro acc ha; exact ⟨acc, rfl, ha, by simp [activeRow, head3, Vec3.dot]⟩
  | cons e row ih =>
    intro acc hacc
    obtain ⟨i, w⟩ := e
    by_cases hw : w = 0
    · subst hw; exact ⟨acc, by simp [accumTransforms], hacc, by simp [activeRow, head3, Vec3.dot]⟩
    · have ha : activeRow ((i, w) :: row) = (i, w) :: activeRow row := by simp [activeRow, List.takeWhile_cons, hw]
      rw [ha] at h ⊢
      have hi : i < n := h (i, w) (by simp)
      have e1 : (ibp.map Affine.matrix)[i]? = some (ibp[i]'(by omega)).matrix := by
        rw [List.getElem?_map, List.getElem?_eq_getElem (by omega)]; rfl
      have e2 : acc[i]? = some (acc[i]'(by omega)) := List.getElem?_eq_getElem _
      obtain ⟨g, h1, h2, h3⟩ := ih (fun x hx => h x (by simp [hx])) (acc.set i (acc[i]'(by omega) +
        transformBlock d ((ibp[i]'(by omega)).matrix.mulVec p.homogeneous) w)) (by simp [hacc])
      refine ⟨g, ?_, h2, ?_⟩
      · rw [accumTransforms, if_neg hw]
        simp only [e1, e2]
        exact h1
      · rw [h3, pairing_set hi hacc _ _ e2, frob_block _ _ (Affine.matrix_homogeneous _ _), List.map_cons, List.sum_cons]
        have hg : (ibp.map Affine.matrix).getD i 0 = (ibp[i]'(by omega)).matrix := by
          rw [List.getD_eq_getElem?_getD, e1]; rfl
        rw [hg, ← smul_mul_assoc, ← Matrix.mulVec_mulVec]
        simp only [head3, Vec3.dot, Pi.add_apply]
        ring

end

end Momentum
