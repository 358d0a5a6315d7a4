import Mathlib.Analysis.Real.Sqrt
import Mathlib.Algebra.BigOperators.Intervals
import Mathlib.Logic.Function.Basic

/-!
# The online Householder QR solver

momentum/math/online_householder_qr.{h,cpp}: the two shared kernels and `OnlineHouseholderQR`.

Matrices and vectors are functions on indices, with their sizes carried separately; a matrix that is processed in
place is stored by columns (`A j t` is entry `t` of column `j`).  Numbers are real.  Eigen's dense kernels (dot
products, squared norms, triangular solves) are taken to compute their mathematical value.
-/

namespace Momentum

open Finset

/-- online_householder_qr.cpp:28-43 `applyHouseholderTransformation`: the new `y_1` and `y_2m`, for vectors of
length `m`.  The caller passes columns of one matrix, so the size check always holds. -/
def applyHouseholder (m : Nat) (beta : ℝ) (v : Nat → ℝ) (y1 : ℝ) (y : Nat → ℝ) : ℝ × (Nat → ℝ) :=
  let dotProd := y1 + ∑ t ∈ range m, v t * y t
  let scalar := dotProd * beta
  (y1 - scalar, fun t => y t - scalar * v t)

open Classical in
/-- online_householder_qr.cpp:51-69 `computeHouseholderVec`: `beta`, `mu` and the overwritten vector. -/
noncomputable def householderVec (m : Nat) (x1 : ℝ) (vec : Nat → ℝ) : ℝ × ℝ × (Nat → ℝ) :=
  let sigma := ∑ t ∈ range m, vec t * vec t
  if sigma = 0 then (0, x1, vec)
  else
    let mu := Real.sqrt (x1 * x1 + sigma)
    let v1 := if x1 ≤ 0 then x1 - mu else -sigma / (x1 + mu)
    let beta := 2 * (v1 * v1) / (sigma + v1 * v1)
    (beta, mu, fun t => vec t / v1)

/-- The loops of online_householder_qr.cpp:147-149, 251-257, 278-280, 518-530, 559-562: reflect the columns `js` of
a block, together with one row of the factor.  `idx` maps a column number to the column of the underlying matrix.
`v` is a reference to the pivot column in the code; the loops do not write that column when the indices are
distinct. -/
def reflectCols (m : Nat) (beta : ℝ) (v : Nat → ℝ) (idx : Nat → Nat) (js : List Nat)
    (row : Nat → ℝ) (A : Nat → Nat → ℝ) : (Nat → ℝ) × (Nat → Nat → ℝ) :=
  js.foldl (fun s j =>
    let p := applyHouseholder m beta v (s.1 j) (s.2 (idx j))
    (Function.update s.1 j p.1, Function.update s.2 (idx j) p.2)) (row, A)

/-- online_householder_qr.h:24-73 `ColumnIndexedMatrix`: a matrix stored by columns, and the list of the columns to
use. -/
structure ColMat where
  rows : Nat
  matCols : Nat
  e : Nat → Nat → ℝ
  useIndices : Bool
  columnIndices : List Nat

/-- online_householder_qr.h:36-42 `col`: the column of the underlying matrix that column `j` refers to. -/
def ColMat.idx (A : ColMat) (j : Nat) : Nat := if A.useIndices then A.columnIndices.getD j 0 else j

/-- online_householder_qr.h:48-54 `cols`. -/
def ColMat.cols (A : ColMat) : Nat := if A.useIndices then A.columnIndices.length else A.matCols

/-- Entry `(t, j)` of the column-indexed matrix. -/
def ColMat.entry (A : ColMat) (t j : Nat) : ℝ := A.e (A.idx j) t

/-- online_householder_qr.h:60-70 `transpose_times`.  The indexed branch reads column `iCol` of the underlying
matrix, not column `columnIndices_[iCol]`. -/
def ColMat.transposeTimes (A : ColMat) (b : Nat → ℝ) : Nat → ℝ := fun j =>
  if A.useIndices then ∑ t ∈ range A.rows, A.e j t * b t
  else ∑ t ∈ range A.rows, A.e j t * b t

/-- The factor, the transformed right-hand side, and the block being absorbed. -/
structure QrWork where
  R : Nat → Nat → ℝ
  y : Nat → ℝ
  A : Nat → Nat → ℝ
  b : Nat → ℝ

open Classical in
/-- online_householder_qr.cpp:126-157: one pass of the column loop. -/
noncomputable def qrPivot (n m : Nat) (idx : Nat → Nat) (w : QrWork) (i : Nat) : QrWork :=
  let h := householderVec m (w.R i i) (w.A (idx i))
  let A1 := Function.update w.A (idx i) h.2.2
  if h.1 = 0 then { w with A := A1 }
  else
    let row := Function.update (w.R i) i h.2.1
    let p := reflectCols m h.1 (A1 (idx i)) idx (List.range' (i + 1) (n - (i + 1))) row A1
    let q := applyHouseholder m h.1 (p.2 (idx i)) (w.y i) w.b
    { R := Function.update w.R i p.1, y := Function.update w.y i q.1, A := p.2, b := q.2 }

/-- online_householder_qr.h:212-221, the members. -/
structure DenseQr where
  n : Nat
  R : Nat → Nat → ℝ
  y : Nat → ℝ

open Classical in
/-- online_householder_qr.cpp:84-93 `reset(n, lambda)`, also the constructor :74-76. -/
noncomputable def DenseQr.start (n : Nat) (lambda : ℝ) : DenseQr :=
  { n := n, R := fun i j => if lambda ≠ 0 ∧ i = j then lambda else 0, y := fun _ => 0 }

/-- online_householder_qr.cpp:79-81 `reset()`: the default `lambda` is zero. -/
noncomputable def DenseQr.reset (s : DenseQr) : DenseQr := DenseQr.start s.n 0

/-- online_householder_qr.cpp:117-158 `addMutating` (and `add`, :112-114).  `none` is a failed check. -/
noncomputable def DenseQr.add (s : DenseQr) (A : ColMat) (bRows : Nat) (b : Nat → ℝ) : Option DenseQr :=
  if A.rows ≠ bRows then none
  else if A.cols ≠ s.n then none
  else
    let w := (List.range s.n).foldl (qrPivot s.n A.rows A.idx) ⟨s.R, s.y, A.e, b⟩
    some { s with R := w.R, y := w.y }

/-- online_householder_qr.cpp:161-169 `At_times_b`. -/
def DenseQr.atTimesB (s : DenseQr) : Nat → ℝ := fun j => ∑ r ∈ range s.n, s.R r j * s.y r

/-- `triangularView<Upper>().solve(y)`: back substitution from the last row up; only the upper triangle is read. -/
noncomputable def backSub (n : Nat) (R : Nat → Nat → ℝ) (y : Nat → ℝ) : Nat → ℝ :=
  (List.range n).reverse.foldl (fun x i =>
    Function.update x i ((y i - ∑ j ∈ Ico (i + 1) n, R i j * x j) / R i i)) (fun _ => 0)

/-- online_householder_qr.cpp:172-176 `result`. -/
noncomputable def DenseQr.result (s : DenseQr) : Nat → ℝ := backSub s.n s.R s.y

end Momentum
