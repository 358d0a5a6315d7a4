import Verif.Lemmas.TrcText
import Mathlib.Tactic.FieldSimp
import Mathlib.Tactic.NormNum
import Mathlib.Tactic.LinearCombination

/-! # C88: marker files and their coordinates -/

namespace Momentum.TrcText

open LineReader

section
variable {K : Type} [Field K]

/-- The change of coordinates is a rotation times the number of centimetres of the unit: it multiplies scalar products by the square of
that number, keeps the handedness (vector products go along, with the number once more), and is linear. -/
theorem C88_rotation (u v : Vec3 K) (a b : K) (up : UpVector) (unit : LengthUnit) :
    Vec3.dot (toMomentum u up unit) (toMomentum v up unit) = centimetres unit ^ 2 * Vec3.dot u v ∧
    Vec3.cross (toMomentum u up unit) (toMomentum v up unit) =
      ⟨centimetres unit * (toMomentum (Vec3.cross u v) up unit).x, centimetres unit * (toMomentum (Vec3.cross u v) up unit).y,
        centimetres unit * (toMomentum (Vec3.cross u v) up unit).z⟩ ∧
    toMomentum ⟨a * u.x + b * v.x, a * u.y + b * v.y, a * u.z + b * v.z⟩ up unit =
      ⟨a * (toMomentum u up unit).x + b * (toMomentum v up unit).x, a * (toMomentum u up unit).y + b * (toMomentum v up unit).y,
        a * (toMomentum u up unit).z + b * (toMomentum v up unit).z⟩ := by
  have hs : (unitScale unit : K) = centimetres unit := by cases unit <;> simp [unitScale, centimetres]
  refine ⟨?_, ?_, ?_⟩
  · cases up <;> simp only [toMomentum, turnUp, Vec3.dot, hs] <;> ring
  · cases up <;> simp only [toMomentum, turnUp, Vec3.cross, hs, Vec3.mk.injEq] <;> refine ⟨?_, ?_, ?_⟩ <;> ring
  · cases up <;> simp only [toMomentum, turnUp, hs, Vec3.mk.injEq] <;> refine ⟨?_, ?_, ?_⟩ <;> ring

/-- With `UpVector::Z` only the unit changes. -/
theorem C88_z_up (v : Vec3 K) (unit : LengthUnit) :
    toMomentum v .z unit = ⟨centimetres unit * v.x, centimetres unit * v.y, centimetres unit * v.z⟩ := by
  have hs : (unitScale unit : K) = centimetres unit := by cases unit <;> simp [unitScale, centimetres]
  simp only [toMomentum, turnUp, hs, Vec3.mk.injEq]
  refine ⟨?_, ?_, ?_⟩ <;> ring

/-- The code violates its documentation: the axis that points up in the file does not become the y-axis, for no choice of the up vector.
It becomes the z-axis for `X` and `Z`, and the negative z-axis for `Y` and `YNeg`. -/
theorem C88_up_counterexample (up : UpVector) (unit : LengthUnit) :
    toMomentum (upDirection up) up unit =
      ⟨0, 0, if up = .x ∨ up = .z then (centimetres unit : K) else -centimetres unit⟩ := by
  have hs : (unitScale unit : K) = centimetres unit := by cases unit <;> simp [unitScale, centimetres]
  cases up <;> simp [toMomentum, turnUp, upDirection, hs]

variable {stod : List Char → Option K} {stoi : List Char → Option Int} {up : UpVector} {names : List (List Char)}

/-- A file in centimetres in which every line has a line end is read as it says: the rate, and a frame for every row with the right
number of fields, with all markers in the order of the names; a marker is occluded when one of its coordinates is missing.
Missing: other units, see `C88_units_counterexample`; a last line without line end, see `C88_last_line_lost`. -/
theorem C88_trc_partial {unit : List Char} {fps : K} {h : Fin 5 → List Char} (hh : Header stod stoi unit fps names h)
    (_ : unit = "cm".toList ∨ unit = "CM".toList) {ls : List (List Char)} {text : List Char} {fs : List (List (TrcMarker K))}
    (hl : Lines (h 0 :: h 1 :: h 2 :: h 3 :: h 4 :: ls) text []) (hf : Frames stod up .cm names ls fs) :
    loadTrc stod stoi up text = some (.ok ⟨fps, fs⟩) := by
  obtain ⟨t, h1, h2⟩ := loadTrc_header hh hl
  rw [h2, lineLoop_lines _ h1, hf.steps]
  dsimp only
  rw [lineLoop_rest _ _ ⟨by simp, by simp⟩]
  rfl

/-- The code violates the expectation: the unit in the file is not used.  Whatever unit the header names, coordinates are taken as
centimetres: the unit is looked up in the third coordinate of the first marker. -/
theorem C88_units_counterexample {unit : List Char} {fps : K} {h : Fin 5 → List Char} (hh : Header stod stoi unit fps names h)
    {ls : List (List Char)} {text : List Char} {fs : List (List (TrcMarker K))}
    (hl : Lines (h 0 :: h 1 :: h 2 :: h 3 :: h 4 :: ls) text []) (hf : Frames stod up .cm names ls fs) :
    loadTrc stod stoi up text = some (.ok ⟨fps, fs⟩) := by
  obtain ⟨t, h1, h2⟩ := loadTrc_header hh hl
  rw [h2, lineLoop_lines _ h1, hf.steps]
  dsimp only
  rw [lineLoop_rest _ _ ⟨by simp, by simp⟩]
  rfl

/-- For files in millimetres this is wrong for every marker that is not at the origin: the right coordinates are a tenth. -/
theorem C88_millimetres_wrong [CharZero K] (v : Vec3 K) (up : UpVector) (hv : v ≠ ⟨0, 0, 0⟩) :
    toMomentum v up .mm ≠ toMomentum v up .cm ∧
      toMomentum v up .cm = ⟨10 * (toMomentum v up .mm).x, 10 * (toMomentum v up .mm).y, 10 * (toMomentum v up .mm).z⟩ := by
  have h10 : (10 : K) ≠ 0 := by norm_num
  have hx : ∀ x : K, x * (1 / 10) = x * 1 → x = 0 := by
    intro x h
    have h2 : x * 9 = 0 := by
      have : x * (1 / 10) * 10 = x := by field_simp
      rw [h, mul_one] at this
      linear_combination this
    rcases mul_eq_zero.mp h2 with h | h
    · exact h
    · norm_num at h
  constructor
  · intro h
    apply hv
    cases v with
    | mk x y z =>
      cases up <;> simp only [toMomentum, turnUp, unitScale, Vec3.mk.injEq, neg_inj] at h <;>
        simp only [Vec3.mk.injEq] <;> refine ⟨hx _ ?_, hx _ ?_, hx _ ?_⟩ <;> simp only [h]
  · cases up <;> simp only [toMomentum, turnUp, unitScale, Vec3.mk.injEq] <;> refine ⟨?_, ?_, ?_⟩ <;> field_simp

/-- The code violates the expectation: a last frame without a line end is lost. -/
theorem C88_last_line_lost {unit : List Char} {fps : K} {h : Fin 5 → List Char} (hh : Header stod stoi unit fps names h)
    {ls : List (List Char)} {text r : List Char} {fs : List (List (TrcMarker K))} (hr : OnLine r)
    (hl : Lines (h 0 :: h 1 :: h 2 :: h 3 :: h 4 :: ls) text r) (hf : Frames stod up .cm names ls fs) :
    loadTrc stod stoi up text = some (.ok ⟨fps, fs⟩) := by
  obtain ⟨t, h1, h2⟩ := loadTrc_header hh hl
  rw [h2, lineLoop_lines _ h1, hf.steps]
  dsimp only
  rw [lineLoop_rest _ _ hr]
  rfl

/-- The code violates the expectation: a file whose last line ends with `\r` alone is read for ever. -/
theorem C88_never_ends {unit : List Char} {fps : K} {h : Fin 5 → List Char} (hh : Header stod stoi unit fps names h)
    {ls : List (List Char)} {text l : List Char} {fs : List (List (TrcMarker K))} (ho : OnLine l)
    (hl : Lines (h 0 :: h 1 :: h 2 :: h 3 :: h 4 :: ls) text (l ++ ['\r'])) (hf : Frames stod up .cm names (ls ++ [l]) fs) :
    loadTrc stod stoi up text = none := by
  obtain ⟨t, h1, h2⟩ := loadTrc_header hh hl
  have hsteps := hf.steps []
  have happ : ∀ (acc : List (List (TrcMarker K))) (ls : List (List Char)),
      stepsOf (frameLine stod up names.length names) acc (ls ++ [l]) =
        (stepsOf (frameLine stod up names.length names) acc ls).bind fun y => frameLine stod up names.length names y l := by
    intro acc ls
    induction ls generalizing acc with
    | nil =>
      simp only [List.nil_append, stepsOf, Outcome.bind]
      cases frameLine stod up names.length names acc l <;> rfl
    | cons x ls ih =>
      simp only [List.cons_append, stepsOf]
      cases frameLine stod up names.length names acc x with
      | ok y => exact ih y
      | throws => rfl
      | ub => rfl
  rw [happ] at hsteps
  rw [h2, lineLoop_lines _ h1]
  cases hs : stepsOf (frameLine stod up names.length names) [] ls with
  | ok y =>
    rw [hs] at hsteps
    simp only [Outcome.bind] at hsteps
    dsimp only
    rw [lineLoop_cr _ (fun x => ⟨x, frameLine_empty _ _⟩) _ ho, hsteps]
    rfl
  | throws => rw [hs] at hsteps; cases hsteps
  | ub => rw [hs] at hsteps; cases hsteps

/-- A file of another type, or with other columns, or with a number of names that is not the number of markers, gives no frames and a
rate of 0. -/
theorem C88_bad_header {l0 l1 : List Char} {ls : List (List Char)} {text r : List Char} (hl : Lines (l0 :: l1 :: ls) text r)
    (hb : (¬ ∃ p q, l0 = p ++ "PathFileType\t4\t(X/Y/Z)".toList ++ q) ∨ ¬ ∃ p q, l1 =
      p ++ "DataRate\tCameraRate\tNumFrames\tNumMarkers\tUnits\tOrigDataRate\tOrigDataStartFrame\tOrigNumFrames".toList ++ q) :
    loadTrc stod stoi up text = some (.ok ⟨0, []⟩) := by
  obtain ⟨t1, e1, hl1⟩ := hl.getLine
  obtain ⟨t2, e2, -⟩ := hl1.getLine
  unfold loadTrc
  dsimp only
  rw [e1]
  dsimp only
  by_cases h0 : containsText trcMagic l0 = false
  · exact if_pos h0
  · rw [if_neg h0, e2]
    dsimp only
    rcases hb with hb | hb
    · exact absurd (containsText_not hb) h0
    · exact if_pos (containsText_not hb)

/-- Another number of names than the third line says. -/
theorem C88_wrong_names {l0 l1 l2 l3 : List Char} {ls : List (List Char)} {text r : List Char} (hl : Lines (l0 :: l1 :: l2 :: l3 :: ls) text r)
    {rate number : List Char} {w : Fin 6 → List Char} (hw : Words [rate, w 0, w 1, number, w 2, w 3, w 4, w 5] l2) {ws : List (List Char)} (hn : Words ws l3)
    {fps : K} {n : Int} (hr : stod rate = some fps) (hi : stoi number = some n) (hne : (ws.length : Int) ≠ n + 2) :
    loadTrc stod stoi up text = some (.ok ⟨0, []⟩) := by
  obtain ⟨t1, e1, hl1⟩ := hl.getLine
  obtain ⟨t2, e2, hl2⟩ := hl1.getLine
  obtain ⟨t3, e3, hl3⟩ := hl2.getLine
  obtain ⟨t4, e4, -⟩ := hl3.getLine
  unfold loadTrc
  dsimp only
  rw [e1]
  dsimp only
  by_cases h0 : containsText trcMagic l0 = false
  · exact if_pos h0
  · rw [if_neg h0, e2]
    dsimp only
    by_cases h1 : containsText trcColumns l1 = false
    · exact if_pos h1
    · rw [if_neg h1]
      unfold loadRates
      dsimp only
      rw [e3]
      dsimp only
      rw [hw.tokens]
      dsimp only
      rw [hr, hi]
      dsimp only
      unfold loadFrames
      dsimp only
      rw [e4]
      dsimp only
      rw [hn.tokens]
      exact if_pos hne

end

/-! ## Examples -/

/-- A reader of numbers for the example. -/
def exStod (w : List Char) : Option ℚ :=
  if w = "120".toList then some 120 else if w = "1.5".toList then some (3 / 2) else if w = "-2".toList then some (-2)
  else if w = "1000".toList then some 1000 else none

/-- A reader of integers for the example. -/
def exStoi (w : List Char) : Option Int := if w = "2".toList then some 2 else none

/-- The header of a file in millimetres with two markers. -/
def exTrcHeader : Fin 5 → List Char :=
  ![("PathFileType\t4\t(X/Y/Z)\ta.trc").toList,
    ("DataRate\tCameraRate\tNumFrames\tNumMarkers\tUnits\tOrigDataRate\tOrigDataStartFrame\tOrigNumFrames").toList,
    ("120\t120\t1\t2\tmm\t120\t1\t1").toList, ("Frame#\tTime\tHEAD\t\t\tTOE").toList, ("\t\tX1\tY1\tZ1\tX2\tY2\tZ2").toList]

theorem exBlank_tabs : TransformText.Blank "\t".toList ∧ TransformText.Blank "\t\t\t".toList ∧ TransformText.Blank [] := by
  refine ⟨?_, ?_, ?_⟩ <;> intro c hc <;> revert hc <;> simp <;> exact Or.inr

/-- The header meets the conditions. -/
theorem exTrcHeader_ok : Header exStod exStoi "mm".toList 120 ["HEAD".toList, "TOE".toList] exTrcHeader where
  magic := ⟨[], "\ta.trc".toList, by decide⟩
  columns := ⟨[], [], by decide⟩
  rates := by
    obtain ⟨h1, -, h0⟩ := exBlank_tabs
    refine ⟨"120".toList, "120".toList, "1".toList, "2".toList, "120".toList, "1".toList, "1".toList, ?_, by decide +kernel, by decide⟩
    refine Words.cons (a := []) (w := "120".toList) (b := "\t".toList) (r := ("120\t1\t2\tmm\t120\t1\t1").toList) h0 (by unfold IsWord; decide) h1 (by decide) ?_
    refine Words.cons (a := []) (w := "120".toList) (b := "\t".toList) (r := ("1\t2\tmm\t120\t1\t1").toList) h0 (by unfold IsWord; decide) h1 (by decide) ?_
    refine Words.cons (a := []) (w := "1".toList) (b := "\t".toList) (r := ("2\tmm\t120\t1\t1").toList) h0 (by unfold IsWord; decide) h1 (by decide) ?_
    refine Words.cons (a := []) (w := "2".toList) (b := "\t".toList) (r := ("mm\t120\t1\t1").toList) h0 (by unfold IsWord; decide) h1 (by decide) ?_
    refine Words.cons (a := []) (w := "mm".toList) (b := "\t".toList) (r := ("120\t1\t1").toList) h0 (by unfold IsWord; decide) h1 (by decide) ?_
    refine Words.cons (a := []) (w := "120".toList) (b := "\t".toList) (r := ("1\t1").toList) h0 (by unfold IsWord; decide) h1 (by decide) ?_
    refine Words.cons (a := []) (w := "1".toList) (b := "\t".toList) (r := ("1").toList) h0 (by unfold IsWord; decide) h1 (by decide) ?_
    exact Words.last (a := []) h0 (by unfold IsWord; decide)
  names := by
    obtain ⟨h1, h3, h0⟩ := exBlank_tabs
    refine ⟨"Frame#".toList, "Time".toList, ?_⟩
    refine Words.cons (a := []) (w := "Frame#".toList) (b := "\t".toList) (r := ("Time\tHEAD\t\t\tTOE").toList) h0 (by unfold IsWord; decide) h1 (by decide) ?_
    refine Words.cons (a := []) (w := "Time".toList) (b := "\t".toList) (r := ("HEAD\t\t\tTOE").toList) h0 (by unfold IsWord; decide) h1 (by decide) ?_
    refine Words.cons (a := []) (w := "HEAD".toList) (b := "\t\t\t".toList) (r := ("TOE").toList) h0 (by unfold IsWord; decide) h3 (by decide) ?_
    exact Words.last (a := []) h0 (by unfold IsWord; decide)

/-- One row: the first marker is visible, the second is not.  The coordinates are in millimetres, so the right position of the first marker
is (0.15, 100, 0.2) with y and z exchanged, but the result has ten times as much. -/
theorem exTrcFrames : Frames exStod .y .cm ["HEAD".toList, "TOE".toList] [("1\t0.0\t1.5\t-2\t1000\t\t\t").toList]
    [[⟨"HEAD".toList, ⟨3 / 2, 1000, 2⟩, false⟩, ⟨"TOE".toList, ⟨0, 0, 0⟩, true⟩]] := by
  refine Frames.frame (fields := ["1".toList, "0.0".toList, "1.5".toList, "-2".toList, "1000".toList, [], [], []]) ⟨by decide, by decide, by decide⟩
    ⟨rfl, rfl, ?_⟩ ?_ .nil
  · intro i name hn
    match i, hn with
    | 0, hn =>
      refine ⟨"1.5".toList, "-2".toList, "1000".toList, _, rfl, rfl, rfl, rfl, ?_⟩
      have e : (⟨3 / 2, 1000, 2⟩ : Vec3 ℚ) = toMomentum ⟨3 / 2, -2, 1000⟩ .y .cm := by decide +kernel
      rw [e, ← Option.some.inj hn]
      exact MarkerOf.visible (by decide) (by decide) (by decide) (by decide +kernel) (by decide +kernel) (by decide +kernel)
    | 1, hn =>
      refine ⟨[], [], [], _, rfl, rfl, rfl, rfl, ?_⟩
      rw [← Option.some.inj hn]
      exact MarkerOf.occluded (Or.inl rfl)
    | n + 2, hn => simp at hn
  · intro f hf
    rw [← Option.some.inj hf]
    unfold IsUnitName
    decide

/-- The file, with both kinds of line ends, in the reader. -/
example : loadTrc exStod exStoi .y (exTrcHeader 0 ++ '\n' :: (exTrcHeader 1 ++ '\r' :: '\n' :: (exTrcHeader 2 ++ '\n' :: (exTrcHeader 3 ++
    '\n' :: (exTrcHeader 4 ++ '\n' :: (("1\t0.0\t1.5\t-2\t1000\t\t\t").toList ++ '\n' :: [])))))) =
    some (.ok ⟨120, [[⟨"HEAD".toList, ⟨3 / 2, 1000, 2⟩, false⟩, ⟨"TOE".toList, ⟨0, 0, 0⟩, true⟩]]⟩) :=
  C88_units_counterexample exTrcHeader_ok
    (.lf (by unfold OnLine; decide) (.crlf (by unfold OnLine; decide) (.lf (by unfold OnLine; decide) (.lf (by unfold OnLine; decide)
      (.lf (by unfold OnLine; decide) (.lf (by unfold OnLine; decide) .nil))))))
    exTrcFrames

end Momentum.TrcText
