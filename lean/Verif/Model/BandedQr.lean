import Verif.Model.HouseholderQr

/-!
# The banded online Householder QR solver

momentum/math/online_householder_qr.{h,cpp}: `OnlineBandedHouseholderQR`.

The band part and the common part of a block are separate matrices here.  Callers may pass two column selections of
one matrix (sequence_solver.cpp:214-217); that is the same thing as long as the selections do not overlap.
-/

namespace Momentum
open Finset

/-- online_householder_qr.h:543-575, the members; `Rb` uses band storage (row `bw - 1` is the diagonal). -/
structure BandQr where
  nBand : Nat
  nCommon : Nat
  bw : Nat
  lambda : ℝ
  Rb : Nat → Nat → ℝ
  Rc : Nat → Nat → ℝ
  y : Nat → ℝ

/-- online_householder_qr.h:476-488 `R_band_entry`, reading.  The code's second check is `jCol - iRow <= bandwidth`,
one too wide: for `jCol - iRow = bandwidth` it passes and the row index is `-1`.  Both that and a failed check are
`none`. -/
def bandGet (bw : Nat) (Rb : Nat → Nat → ℝ) (i j : Nat) : Option ℝ :=
  if i ≤ j ∧ j - i < bw then some (Rb (bw + i - j - 1) j) else none

/-- online_householder_qr.h:483-488 `R_band_entry`, writing. -/
def bandSet (bw : Nat) (Rb : Nat → Nat → ℝ) (i j : Nat) (x : ℝ) : Option (Nat → Nat → ℝ) :=
  if i ≤ j ∧ j - i < bw then
    some (Function.update Rb (bw + i - j - 1) (Function.update (Rb (bw + i - j - 1)) j x))
  else none

/-- online_householder_qr.cpp:435-462, the constructor with `initializeDiagonal`; `none` is the failed check of a
zero bandwidth. -/
noncomputable def BandQr.start (nBand nCommon bw : Nat) (lambda : ℝ) : Option BandQr :=
  if bw > 0 then
    some { nBand := nBand, nCommon := nCommon, bw := bw, lambda := lambda
           Rb := fun r _ => if r = bw - 1 then lambda else 0
           Rc := fun r c => if r = nBand + c then lambda else 0
           y := fun _ => 0 }
  else none

/-- online_householder_qr.cpp:464-471 `reset`. -/
noncomputable def BandQr.reset (s : BandQr) : BandQr :=
  { s with
    Rb := fun r _ => if r = s.bw - 1 then s.lambda else 0
    Rc := fun r c => if r = s.nBand + c then s.lambda else 0
    y := fun _ => 0 }

/-- online_householder_qr.cpp:517-523: reflect the remaining band columns together with row `iG` of the band. -/
def bandReflect (m : Nat) (beta : ℝ) (v : Nat → ℝ) (idx : Nat → Nat) (bw iG o : Nat) (js : List Nat)
    (Rb A : Nat → Nat → ℝ) : Option ((Nat → Nat → ℝ) × (Nat → Nat → ℝ)) :=
  js.foldlM (fun (s : (Nat → Nat → ℝ) × (Nat → Nat → ℝ)) j => do
    let r ← bandGet bw s.1 iG (j + o)
    let p := applyHouseholder m beta v r (s.2 (idx j))
    let Rb' ← bandSet bw s.1 iG (j + o) p.1
    some (Rb', Function.update s.2 (idx j) p.2)) (Rb, A)

/-- The factor and the block being absorbed. -/
structure BandWork where
  Rb : Nat → Nat → ℝ
  Rc : Nat → Nat → ℝ
  y : Nat → ℝ
  Ab : Nat → Nat → ℝ
  Ac : Nat → Nat → ℝ
  b : Nat → ℝ

open Classical in
/-- online_householder_qr.cpp:491-533: one pass of the column loop of `zeroBandedPart`. -/
noncomputable def bandPivot (bw nCommon k m o : Nat) (idxB idxC : Nat → Nat) (w : BandWork) (i : Nat) :
    Option BandWork := do
  let r ← bandGet bw w.Rb (i + o) (i + o)
  let h := householderVec m r (w.Ab (idxB i))
  let Ab1 := Function.update w.Ab (idxB i) h.2.2
  if h.1 = 0 then some { w with Ab := Ab1 }
  else do
    let Rb1 ← bandSet bw w.Rb (i + o) (i + o) h.2.1
    let p ← bandReflect m h.1 (Ab1 (idxB i)) idxB bw (i + o) o (List.range' (i + 1) (k - (i + 1))) Rb1 Ab1
    let q := reflectCols m h.1 (Ab1 (idxB i)) idxC (List.range nCommon) (w.Rc (i + o)) w.Ac
    let z := applyHouseholder m h.1 (Ab1 (idxB i)) (w.y (i + o)) w.b
    some { Rb := p.1, Rc := Function.update w.Rc (i + o) q.1, y := Function.update w.y (i + o) z.1
           Ab := p.2, Ac := q.2, b := z.2 }

/-- online_householder_qr.cpp:480-534 `zeroBandedPart`: the solver, and what is left of the common columns and of
the right-hand side.  The code does not compare the row counts of the three arguments except inside the reflections;
here all have `Ab.rows` rows, checked first. -/
noncomputable def BandQr.zeroBandedPart (s : BandQr) (o : Nat) (Ab Ac : ColMat) (bRows : Nat) (b : Nat → ℝ) :
    Option (BandQr × ColMat × (Nat → ℝ)) :=
  if Ab.rows ≠ bRows ∨ Ac.rows ≠ bRows then none
  else if ¬ Ab.cols ≤ s.bw then none
  else if ¬ o + Ab.cols ≤ s.nBand then none
  else if Ac.cols ≠ s.nCommon then none
  else do
    let w ← (List.range Ab.cols).foldlM (bandPivot s.bw s.nCommon Ab.cols Ab.rows o Ab.idx Ac.idx)
      ⟨s.Rb, s.Rc, s.y, Ab.e, Ac.e, b⟩
    some ({ s with Rb := w.Rb, Rc := w.Rc, y := w.y }, { Ac with e := w.Ac }, w.b)

/-- online_householder_qr.cpp:536-566 `addMutating(A_common, b)`.  The bottom `n_common` rows of `R_common_` and of
`y_` are a dense problem of their own; the loop is that of the dense solver on this part. -/
noncomputable def BandQr.addCommon (s : BandQr) (Ac : ColMat) (bRows : Nat) (b : Nat → ℝ) : Option BandQr :=
  if Ac.cols ≠ s.nCommon then none
  else if Ac.rows ≠ bRows then none
  else
    let w := (List.range s.nCommon).foldl (qrPivot s.nCommon Ac.rows Ac.idx)
      ⟨fun i j => s.Rc (i + s.nBand) j, fun i => s.y (s.nBand + i), Ac.e, b⟩
    some { s with
           Rc := fun r j => if r < s.nBand then s.Rc r j else w.R (r - s.nBand) j
           y := fun r => if r < s.nBand then s.y r else w.y (r - s.nBand) }

/-- online_householder_qr.cpp:470-478 `addMutating(iCol_offset, A_band, A_common, b)`. -/
noncomputable def BandQr.add (s : BandQr) (o : Nat) (Ab Ac : ColMat) (bRows : Nat) (b : Nat → ℝ) :
    Option BandQr := do
  let (s1, Ac1, b1) ← s.zeroBandedPart o Ab Ac bRows b
  s1.addCommon Ac1 bRows b1

/-- The matrix that band storage and common columns stand for. -/
noncomputable def denseOfBand (nBand bw : Nat) (Rb Rc : Nat → Nat → ℝ) : Nat → Nat → ℝ := fun r j =>
  if j < nBand then
    if r ≤ j ∧ j - r < bw then Rb (bw + r - j - 1) j else 0
  else Rc r (j - nBand)

/-- online_householder_qr.cpp:568-593 `R_dense`. -/
noncomputable def BandQr.rDense (s : BandQr) : Nat → Nat → ℝ := denseOfBand s.nBand s.bw s.Rb s.Rc

/-- online_householder_qr.cpp:604-607, the sum over the band part of row `i`. -/
def bandRowDot (bw nBand : Nat) (Rb : Nat → Nat → ℝ) (i : Nat) (x : Nat → ℝ) : Option ℝ :=
  (List.range' 1 (min bw (nBand - i) - 1)).foldlM (fun d jo => do
    let r ← bandGet bw Rb i (i + jo)
    some (d + r * x (i + jo))) 0

/-- online_householder_qr.cpp:595-615 `x_dense`; `none` is an access outside the band. -/
noncomputable def BandQr.xDense (s : BandQr) : Option (Nat → ℝ) :=
  let xc := backSub s.nCommon (fun i j => s.Rc (i + s.nBand) j) (fun i => s.y (s.nBand + i))
  (List.range s.nBand).reverse.foldlM (fun (x : Nat → ℝ) i => do
    let d ← bandRowDot s.bw s.nBand s.Rb i x
    let r ← bandGet s.bw s.Rb i i
    some (Function.update x i ((s.y i - (∑ c ∈ range s.nCommon, s.Rc i c * x (s.nBand + c) + d)) / r)))
    (fun j => if s.nBand ≤ j then xc (j - s.nBand) else 0)

/-- online_householder_qr.cpp:617-638 `At_times_b`. -/
noncomputable def BandQr.atTimesB (s : BandQr) : Option (Nat → ℝ) := do
  let band ← (List.range s.nBand).foldlM (fun (res : Nat → ℝ) i =>
    (List.range (min s.bw (s.nBand - i))).foldlM (fun (res : Nat → ℝ) jo => do
      let r ← bandGet s.bw s.Rb i (i + jo)
      some (Function.update res (i + jo) (res (i + jo) + r * s.y i))) res) (fun _ => 0)
  some fun j =>
    if j < s.nBand then band j
    else ∑ r ∈ range (s.nBand + s.nCommon), s.Rc r (j - s.nBand) * s.y r

end Momentum
