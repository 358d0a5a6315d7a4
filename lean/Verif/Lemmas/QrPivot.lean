import Verif.Lemmas.QrRepresents

/-!
# One reflection seen on the full dense factor

Shared by the block and banded solvers, whose storage is a part of a dense triangular matrix.
-/

namespace Momentum
open Finset

/-- Reflecting row `g` of the factor together with the columns `S` of the block keeps the functional. -/
theorem pivot_functional {n m g : Nat} {D D' A A' : Nat → Nat → ℝ} {y y' b b' v : Nat → ℝ} {beta : ℝ}
    (S : Finset Nat) (hgS : g ∈ S) (hgn : g < n) (hS : S ⊆ Ico g n)
    (hb2 : beta * (1 + ∑ t ∈ range m, v t * v t) = 2)
    (hpiv : ∀ t, A g t - hdot m v (D g g) (A g) * beta * v t = 0)
    (hz : ∀ j ∈ Ico g n, j ∉ S → D g j = 0) (hz' : ∀ j ∈ Ico g n, j ∉ S → D' g j = 0)
    (hrow : ∀ j ∈ S, D' g j = D g j - hdot m v (D g j) (A j) * beta)
    (hother : ∀ r < n, r ≠ g → ∀ j ∈ Ico r n, D' r j = D r j)
    (hy : y' g = y g - hdot m v (y g) b * beta) (hyo : ∀ r < n, r ≠ g → y' r = y r)
    (hcol : ∀ j ∈ S, j ≠ g → ∀ t, A' j t = A j t - hdot m v (D g j) (A j) * beta * v t)
    (hb : ∀ t, b' t = b t - hdot m v (y g) b * beta * v t) (x : Nat → ℝ) :
    factorResidual n D' y' x + ∑ t ∈ range m, (∑ j ∈ S.erase g, A' j t * x j - b' t) ^ 2 =
      factorResidual n D y x + ∑ t ∈ range m, (∑ j ∈ S, A j t * x j - b t) ^ 2 := by
  have hmi : g ∈ range n := mem_range.2 hgn
  unfold factorResidual
  rw [← add_sum_erase _ _ hmi, ← add_sum_erase (range n) (fun r => (∑ j ∈ Ico r n, D r j * x j - y r) ^ 2) hmi]
  have hrest : ∀ r ∈ (range n).erase g, (∑ j ∈ Ico r n, D' r j * x j - y' r) ^ 2 =
      (∑ j ∈ Ico r n, D r j * x j - y r) ^ 2 := by
    intro r hr
    have h1 := ne_of_mem_erase hr
    have h2 := mem_range.1 (mem_of_mem_erase hr)
    rw [hyo r h2 h1, sum_congr rfl fun j hj => by rw [hother r h2 h1 j hj]]
  rw [sum_congr rfl hrest]
  have s1 : ∑ j ∈ Ico g n, D g j * x j = ∑ j ∈ S, D g j * x j :=
    (sum_subset hS fun j hj hn => by rw [hz j hj hn, zero_mul]).symm
  have s2 : ∑ j ∈ Ico g n, D' g j * x j = ∑ j ∈ S, (D g j - hdot m v (D g j) (A j) * beta) * x j := by
    rw [← sum_subset hS fun j hj hn => by rw [hz' j hj hn, zero_mul]]
    exact sum_congr rfl fun j hj => by rw [hrow j hj]
  have s3 : ∀ t, ∑ j ∈ S.erase g, A' j t * x j =
      ∑ j ∈ S, (A j t - hdot m v (D g j) (A j) * beta * v t) * x j := by
    intro t
    rw [← add_sum_erase _ _ hgS, hpiv t, zero_mul, zero_add]
    exact sum_congr rfl fun j hj => by rw [hcol j (mem_of_mem_erase hj) (ne_of_mem_erase hj) t]
  simp only [s1, s2, s3, hy, hb]
  have := reflect_residual hb2 S (fun j => D g j) x A (y g) b
  linarith

/-- A column that is already zero can be left out. -/
theorem skip_functional {m g : Nat} {A : Nat → Nat → ℝ} {b : Nat → ℝ} (S : Finset Nat) (hgS : g ∈ S)
    (h0 : ∀ t < m, A g t = 0) (x : Nat → ℝ) :
    ∑ t ∈ range m, (∑ j ∈ S.erase g, A j t * x j - b t) ^ 2 = ∑ t ∈ range m, (∑ j ∈ S, A j t * x j - b t) ^ 2 := by
  apply sum_congr rfl
  intro t ht
  rw [← add_sum_erase S _ hgS, h0 t (mem_range.1 ht), zero_mul, zero_add]

/-- The trailing rows of a triangular system are a triangular system. -/
theorem factorResidual_split (N c : Nat) (D : Nat → Nat → ℝ) (y x : Nat → ℝ) :
    factorResidual (N + c) D y x =
      ∑ r ∈ range N, (∑ j ∈ Ico r (N + c), D r j * x j - y r) ^ 2 +
      factorResidual c (fun i j => D (N + i) (N + j)) (fun i => y (N + i)) (fun i => x (N + i)) := by
  unfold factorResidual
  rw [sum_range_add]
  congr 1
  apply sum_congr rfl
  intro r _
  congr 2
  rw [← sum_Ico_add_right_sub_eq_aux N r c (fun j => D (N + r) j * x j)]
where
  sum_Ico_add_right_sub_eq_aux (N r c : Nat) (f : Nat → ℝ) :
      ∑ j ∈ Ico r c, f (N + j) = ∑ j ∈ Ico (N + r) (N + c), f j := by
    rw [sum_Ico_add f r c N, Nat.add_comm r N, Nat.add_comm c N]

end Momentum
