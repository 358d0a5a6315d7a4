import Verif.Model.TensorQuat
import Verif.Spec.Rotation

/-!
# Rows of four numbers as quaternions, and what is asked of the eigenvalue solvers
-/

namespace Momentum.TensorQuat

/-- The quaternion whose coefficients are in the row, in the order x, y, z, w. -/
def asQuat {K : Type} (q : Fin 4 → K) : Quat K := ⟨q 3, q 0, q 1, q 2⟩

/-- The row has length one. -/
def IsUnit4 {K : Type} [CommRing K] (q : Fin 4 → K) : Prop := ∑ k, q k * q k = 1

/-- The inner product of two rows. -/
def dot4 (p q : Fin 4 → ℝ) : ℝ := ∑ k, p k * q k

/-- The matrix with complex entries. -/
def toComplex (m : Mat3 ℝ) : Mat3 ℂ :=
  ⟨m.m00, m.m01, m.m02, m.m10, m.m11, m.m12, m.m20, m.m21, m.m22⟩

/-- The eigenvalues and eigenvectors of a real matrix: every eigenvalue is there, the vectors have length one, and those of real
eigenvalues are real. -/
structure IsEig (m : Mat3 ℝ) (e : Eig) : Prop where
  all : ∀ (z : ℂ) (v : Vec3 ℂ), v ≠ 0 → (toComplex m).mulVec v = z • v → ∃ i, e.values i = z
  pair : ∀ i, (toComplex m).mulVec (e.vectors i) = e.values i • e.vectors i
  unit : ∀ i, Complex.normSq (e.vectors i).x + Complex.normSq (e.vectors i).y + Complex.normSq (e.vectors i).z = 1
  real : ∀ i, (e.values i).im = 0 → (e.vectors i).x.im = 0 ∧ (e.vectors i).y.im = 0 ∧ (e.vectors i).z.im = 0

/-- The eigenvalues, in increasing order, and the eigenvectors of a symmetric matrix. -/
structure IsEigh (m : Fin 4 → Fin 4 → ℝ) (e : Eigh) : Prop where
  sorted : Monotone e.values
  pair : ∀ i j, ∑ k, m j k * e.vectors i k = e.values i * e.vectors i j
  orthonormal : ∀ i j, dot4 (e.vectors i) (e.vectors j) = if i = j then 1 else 0

/-- How well the row `r` agrees with the weighted rows `q i`, up to sign; it is maximal at an average rotation. -/
def agreement {n : Nat} (q : Fin n → Fin 4 → ℝ) (w : Fin n → ℝ) (r : Fin 4 → ℝ) : ℝ := ∑ i, w i * dot4 (q i) r ^ 2

end Momentum.TensorQuat
