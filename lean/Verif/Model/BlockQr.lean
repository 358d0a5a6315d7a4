import Verif.Model.HouseholderQr

/-!
# The block online Householder QR solver

momentum/math/online_householder_qr.{h,cpp}: `OnlineBlockHouseholderQR`.

The three deques `R_ii_`, `R_in_`, `y_i_` always have the same length; they are one function of the block index with
that length.  The two column-indexed arguments of `addMutating` are separate matrices here (see Model/BandedQr.lean).
-/

namespace Momentum
open Finset

/-- Entry `i` of the deques: `R_ii_[i]` is `n × n`, `R_in_[i]` is `n × nIn`, `y_i_[i]` has `n` rows. -/
structure Blk where
  n : Nat
  nIn : Nat
  Rii : Nat → Nat → ℝ
  Rin : Nat → Nat → ℝ
  y : Nat → ℝ

/-- online_householder_qr.cpp:201-209, the default-constructed entry. -/
def Blk.empty : Blk := ⟨0, 0, fun _ _ => 0, fun _ _ => 0, fun _ => 0⟩

/-- online_householder_qr.h:320-345, the members. -/
structure BlockQr where
  nCommon : Nat
  lambda : ℝ
  nBlocks : Nat
  blk : Nat → Blk
  Rnn : Nat → Nat → ℝ
  yn : Nat → ℝ

/-- online_householder_qr.cpp:181-187, the constructor. -/
noncomputable def BlockQr.start (nCommon : Nat) (lambda : ℝ) : BlockQr :=
  { nCommon := nCommon, lambda := lambda, nBlocks := 0, blk := fun _ => Blk.empty
    Rnn := fun r c => if r = c then lambda else 0, yn := fun _ => 0 }

/-- online_householder_qr.cpp:421-430 `reset`. -/
noncomputable def BlockQr.reset (s : BlockQr) : BlockQr :=
  { s with
    nBlocks := 0
    blk := fun _ => Blk.empty
    Rnn := fun r c => if r = c then s.lambda else 0
    yn := fun _ => 0 }

/-- The block's part of the factor and the rows being absorbed. -/
structure BlockWork where
  Rii : Nat → Nat → ℝ
  Rin : Nat → Nat → ℝ
  y : Nat → ℝ
  Ai : Nat → Nat → ℝ
  An : Nat → Nat → ℝ
  b : Nat → ℝ

open Classical in
/-- online_householder_qr.cpp:228-266: one pass of the column loop over the block's own columns.  `tol` is the
precision of Eigen's `isZero()` (1e-12 for double, 1e-5 for float): a column whose entries are all at most `tol` in
absolute value is skipped. -/
noncomputable def blockPivot (tol : ℝ) (nCommon k m : Nat) (idxI idxC : Nat → Nat) (w : BlockWork) (i : Nat) :
    BlockWork :=
  if ∀ t < m, |w.Ai (idxI i) t| ≤ tol then w
  else
    let h := householderVec m (w.Rii i i) (w.Ai (idxI i))
    let A1 := Function.update w.Ai (idxI i) h.2.2
    if h.1 = 0 then { w with Ai := A1 }
    else
      let p := reflectCols m h.1 (A1 (idxI i)) idxI (List.range' (i + 1) (k - (i + 1)))
        (Function.update (w.Rii i) i h.2.1) A1
      let q := reflectCols m h.1 (A1 (idxI i)) idxC (List.range nCommon) (w.Rin i) w.An
      let z := applyHouseholder m h.1 (A1 (idxI i)) (w.y i) w.b
      { Rii := Function.update w.Rii i p.1, Rin := Function.update w.Rin i q.1, y := Function.update w.y i z.1
        Ai := p.2, An := q.2, b := z.2 }

/-- online_householder_qr.cpp:211-222: the entry the call works on; a block without rows is (re)initialised.  `none` is
the failed size check. -/
noncomputable def BlockQr.open (s : BlockQr) (i cols : Nat) : Option Blk :=
  if (s.blk i).n = 0 then
    some ⟨cols, s.nCommon, fun r c => if r = c then s.lambda else 0, fun _ _ => 0, fun _ => 0⟩
  else if (s.blk i).n = cols then some (s.blk i)
  else none

/-- online_householder_qr.cpp:189-287 `addMutating`.  `none` is a failed check. -/
noncomputable def BlockQr.add (tol : ℝ) (s : BlockQr) (i : Nat) (Ai An : ColMat) (bRows : Nat) (b : Nat → ℝ) :
    Option BlockQr :=
  if Ai.rows ≠ bRows then none
  else if An.rows ≠ bRows then none
  else if An.cols ≠ s.nCommon then none
  else do
    let B ← s.open i Ai.cols
    let w := (List.range Ai.cols).foldl (blockPivot tol s.nCommon Ai.cols Ai.rows Ai.idx An.idx)
      ⟨B.Rii, B.Rin, B.y, Ai.e, An.e, b⟩
    let u := (List.range s.nCommon).foldl (qrPivot s.nCommon An.rows An.idx) ⟨s.Rnn, s.yn, w.An, w.b⟩
    some { s with
           nBlocks := max s.nBlocks (i + 1)
           blk := Function.update s.blk i { B with Rii := w.Rii, Rin := w.Rin, y := w.y }
           Rnn := u.R
           yn := u.y }

/-- The number of unknowns in the blocks before block `i`: the running `offset_cur` of :300-311, :325-331, :351-357. -/
def BlockQr.off (s : BlockQr) (i : Nat) : Nat := ∑ l ∈ range i, (s.blk l).n

/-- All blocks have as many common columns as the solver: the check at :305, and the size requirement of the products
at :355, :387, :412.  It fails when a block index was skipped and there are common unknowns. -/
def BlockQr.NoGap (s : BlockQr) : Prop := ∀ i < s.nBlocks, (s.blk i).nIn = s.nCommon

/-- online_householder_qr.cpp:289-313 `R_dense`: a zero matrix into which the blocks are written at disjoint places. -/
noncomputable def BlockQr.rDense (s : BlockQr) : Nat → Nat → ℝ := fun r c =>
  ∑ i ∈ range s.nBlocks,
    (if s.off i ≤ r ∧ r < s.off i + (s.blk i).n then
      (if s.off i ≤ c ∧ c < s.off i + (s.blk i).n then (s.blk i).Rii (r - s.off i) (c - s.off i)
       else if s.off s.nBlocks ≤ c then (s.blk i).Rin (r - s.off i) (c - s.off s.nBlocks) else 0)
     else 0) +
  if s.off s.nBlocks ≤ r ∧ s.off s.nBlocks ≤ c then s.Rnn (r - s.off s.nBlocks) (c - s.off s.nBlocks) else 0

/-- online_householder_qr.cpp:315-336 `y_dense`. -/
noncomputable def BlockQr.yDense (s : BlockQr) : Nat → ℝ := fun r =>
  ∑ i ∈ range s.nBlocks, (if s.off i ≤ r ∧ r < s.off i + (s.blk i).n then (s.blk i).y (r - s.off i) else 0) +
  if s.off s.nBlocks ≤ r then s.yn (r - s.off s.nBlocks) else 0

/-- online_householder_qr.cpp:364-367 `x_n`. -/
noncomputable def BlockQr.xN (s : BlockQr) : Nat → ℝ := backSub s.nCommon s.Rnn s.yn

/-- online_householder_qr.cpp:369-374 `x_i`, and the same expression at :354-355. -/
noncomputable def BlockQr.xI (s : BlockQr) (i : Nat) : Nat → ℝ :=
  backSub (s.blk i).n (s.blk i).Rii fun r => (s.blk i).y r - ∑ c ∈ range s.nCommon, (s.blk i).Rin r c * s.xN c

/-- online_householder_qr.cpp:338-362 `x_dense`. -/
noncomputable def BlockQr.xDense (s : BlockQr) : Nat → ℝ := fun j =>
  ∑ i ∈ range s.nBlocks, (if s.off i ≤ j ∧ j < s.off i + (s.blk i).n then s.xI i (j - s.off i) else 0) +
  if s.off s.nBlocks ≤ j then s.xN (j - s.off s.nBlocks) else 0

/-- online_householder_qr.cpp:376-381 `At_times_b_i`: the second summand has `nCommon` entries and the first one `n`;
`none` when these differ. -/
noncomputable def BlockQr.atTimesBI (s : BlockQr) (i : Nat) : Option (Nat → ℝ) :=
  if (s.blk i).n = (s.blk i).nIn then
    some fun j => ∑ r ∈ range (s.blk i).n, (s.blk i).Rii r j * (s.blk i).y r +
      ∑ r ∈ range (s.blk i).n, (s.blk i).Rin r j * (s.blk i).y r
  else none

/-- online_householder_qr.cpp:383-390 `At_times_b_n`. -/
noncomputable def BlockQr.atTimesBN (s : BlockQr) : Nat → ℝ := fun c =>
  ∑ r ∈ range s.nCommon, s.Rnn r c * s.yn r +
    ∑ i ∈ range s.nBlocks, ∑ r ∈ range (s.blk i).n, (s.blk i).Rin r c * (s.blk i).y r

/-- online_householder_qr.cpp:392-419 `At_times_b_dense` (and `At_times_b_dot`, its scalar product). -/
noncomputable def BlockQr.atTimesB (s : BlockQr) : Nat → ℝ := fun j =>
  ∑ i ∈ range s.nBlocks, (if s.off i ≤ j ∧ j < s.off i + (s.blk i).n then
    ∑ r ∈ range (s.blk i).n, (s.blk i).Rii r (j - s.off i) * (s.blk i).y r else 0) +
  if s.off s.nBlocks ≤ j then s.atTimesBN (j - s.off s.nBlocks) else 0

end Momentum
