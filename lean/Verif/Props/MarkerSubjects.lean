import Verif.Lemmas.MarkerSubjects3

/-!
# C90: the subjects of a motion capture file, and the main one
-/

namespace Momentum.MarkerSubjects

open TrcText (TrcMarker UpVector toMomentum toUnit)

section
variable {K : Type}

/-- C90: of several subjects the main one is the first of those with a proper name that show the most markers in some frame; the answer is
`-1` exactly when no subject with a proper name ever shows a marker. -/
theorem C90_main_subject (s : List (SubjectSequence K)) (several : s.length ≠ 1) :
    (∀ i : Nat, findMainSubjectIndex s = i ↔ IsMain s i) ∧ (findMainSubjectIndex s = -1 ↔ ∀ i, ¬ IsMain s i) := by
  obtain ⟨h1, h2, h3⟩ := mainLoop s 0 (0, 0)
  have hval : findMainSubjectIndex s = if (s.zipIdx.foldl mainStep (0, 0)).1 > 0 then ((s.zipIdx.foldl mainStep (0, 0)).2 : Int) else -1 := by
    cases s with
    | nil => rfl
    | cons a s =>
      cases s with
      | nil => simp at several
      | cons b s => rfl
  set r := s.zipIdx.foldl mainStep (0, 0) with hr
  by_cases hc : r.1 > 0
  · rw [if_pos hc] at hval
    rcases h3 with h3 | ⟨-, i, a, hi, ha, han, hac, hmin⟩
    · rw [h3] at hc
      exact absurd hc (lt_irrefl _)
    · have him : IsMain s r.2 := by
        rw [hi, zero_add]
        refine ⟨a, r.1, ha, hac ▸ markerCount_most a.frames, han, hc, ?_⟩
        intro j b m hj hm hb
        rw [hm.unique (markerCount_most b.frames)]
        exact ⟨h2 j b hj hb, fun hji => hmin j b hji hj hb⟩
      have huniq : ∀ i j, IsMain s i → IsMain s j → i = j := by
        rintro i j ⟨a, n, ha, hn, han, -, hamin⟩ ⟨b, m, hb, hm, hbn, -, hbmin⟩
        have e1 := hamin j b m hb hm hbn
        have e2 := hbmin i a n ha hn han
        by_contra hij
        rcases Nat.lt_or_gt_of_ne hij with h | h
        · have := e2.2 h
          omega
        · have := e1.2 h
          omega
      rw [hval]
      refine ⟨fun i => ⟨fun h => ?_, fun h => ?_⟩, ⟨fun h => ?_, fun h => absurd him (h _)⟩⟩
      · have : r.2 = i := by exact_mod_cast h
        exact this ▸ him
      · rw [huniq i r.2 h him]
      · omega
  · rw [if_neg hc] at hval
    have hnone : ∀ i, ¬ IsMain s i := by
      rintro i ⟨a, n, ha, hn, han, hpos, -⟩
      have := h2 i a ha han
      rw [hn.unique (markerCount_most a.frames)] at hpos
      omega
    rw [hval]
    refine ⟨fun i => ⟨fun h => ?_, fun h => absurd h (hnone i)⟩, ⟨fun _ => hnone, fun _ => rfl⟩⟩
    omega

/-- C90: a single subject is the main one when it ever shows a marker, whatever its name. -/
theorem C90_single_subject (a : SubjectSequence K) :
    (findMainSubjectIndex [a] = 0 ↔ ∃ fr ∈ a.frames, ∃ m ∈ fr, m.occluded = false) ∧ (findMainSubjectIndex [a] = 0 ∨ findMainSubjectIndex [a] = -1) := by
  have hm := markerCount_most a.frames
  have hval : findMainSubjectIndex [a] = if markerCount a.frames > 0 then 0 else -1 := rfl
  by_cases hc : markerCount a.frames > 0
  · rw [hval, if_pos hc]
    refine ⟨⟨fun _ => ?_, fun _ => rfl⟩, Or.inl rfl⟩
    rcases hm.2 with h | ⟨fr, hfr, h⟩
    · omega
    · rw [← h] at hc
      obtain ⟨m, hmm⟩ := List.exists_mem_of_length_pos hc
      obtain ⟨h1, h2⟩ := List.mem_filter.mp hmm
      exact ⟨fr, hfr, m, h1, by simpa using h2⟩
  · rw [hval, if_neg hc]
    refine ⟨⟨fun h => by simp at h, ?_⟩, Or.inr rfl⟩
    rintro ⟨fr, hfr, m, hmm, ho⟩
    have := hm.1 fr hfr
    have hpos : 0 < visibleIn fr := List.length_pos_of_mem (List.mem_filter.mpr ⟨hmm, by simpa using ho⟩)
    omega

end

/-- C90: the subject of a label is what is before its first colon, or else before its last underscore, but for a side. -/
theorem C90_subject_name (l s : List Char) : findSubjectName l = s ↔ SubjectOf l s := (subjectOf_iff l s).symm

/-- C90: every label has exactly one subject. -/
theorem C90_subject_unique (l : List Char) : ∃! s, SubjectOf l s :=
  ⟨findSubjectName l, subjectOf_find l, fun _ h => (findSubjectName_of l _ h).symm⟩

section
variable {K : Type} [Field K] [LinearOrder K]

/-- C90: for every order in which the table of subjects may be listed, a file with a good unit, enough labels and all its points is read
without a fault.  When no marker is ever seen the result is empty.  Otherwise each subject that a label names occurs once and no other
does, and its motion has, in each frame, for each of its points that is not stray, in the order of the file, a marker with the name, that
shows the point when it is seen, and otherwise is hidden where it was before.  Partial: the labels must be in one section more than
the points fill; see `C90_full_section_lost`. -/
theorem C90_c3d_partial (order : List (List Char × List Nat) → List (List Char × List Nat)) (perm : ∀ l, List.Perm (order l) l) (up : UpVector)
    (file : C3dFile K) (unit : List Char) (labels : List (List Char)) (hu : file.units = some [unit]) (good : GoodUnit unit)
    (hl : LabelsOf file labels) (enough : file.numPoints ≤ labels.length) (complete : Complete file) :
    let own := labels.take file.numPoints
    ∃ res, loadC3d order up file = .ok res ∧
      ((¬ SomeSeen file own ∧ res = []) ∨ (SomeSeen file own ∧ (res.map SubjectSequence.name).Nodup ∧
        (∀ s, s ∈ res.map SubjectSequence.name ↔ ∃ l ∈ own, SubjectOf l s) ∧ ∀ s ∈ res, Motion file own up unit s)) := by
  have hk : knownUnit unit = true := by
    unfold GoodUnit at good
    unfold knownUnit
    simp only [List.mem_cons, List.not_mem_nil, or_false] at good
    simp only [Bool.or_eq_true, decide_eq_true_eq]
    tauto
  have hload : loadC3d order up file = loadSubjects order up unit file (labels.take file.numPoints) := by
    unfold loadC3d
    rw [hu]
    dsimp only
    rw [if_pos hk, allLabels_of file labels hl]
    exact if_neg (by omega)
  rw [hload]
  exact loadSubjects_spec order perm up unit file _ (by rw [List.length_take]; omega) complete

/-- C90: there always is such a list of the points of a subject. -/
theorem C90_points_exist (labels : List (List Char)) (s : List Char) : ∃ ps, PointsOf labels s ps := pointsOf_exists labels s

/-- C90: a file without a unit, with several or with one that is not known gives no subjects. -/
theorem C90_bad_unit (order : List (List Char × List Nat) → List (List Char × List Nat)) (up : UpVector) (file : C3dFile K)
    (h : ∀ unit, file.units = some [unit] → ¬ GoodUnit unit) : loadC3d order up file = .ok [] := by
  unfold loadC3d
  match hu : file.units with
  | none => rfl
  | some [] => rfl
  | some [unit] =>
    have hk : knownUnit unit = false := by
      have := h unit hu
      unfold GoodUnit at this
      unfold knownUnit
      simp only [List.mem_cons, List.not_mem_nil, or_false, not_or] at this
      obtain ⟨h1, h2, h3, h4⟩ := this
      simp only [Bool.or_eq_false_iff, decide_eq_false_iff_not]
      exact ⟨⟨⟨h1, h4⟩, h2⟩, h3⟩
    dsimp only
    rw [hk]
    rfl
  | some (_ :: _ :: _) => rfl

/-- C90: too few labels give no subjects. -/
theorem C90_few_labels (order : List (List Char × List Nat) → List (List Char × List Nat)) (up : UpVector) (file : C3dFile K)
    (labels : List (List Char)) (hl : LabelsOf file labels) (few : labels.length < file.numPoints) : loadC3d order up file = .ok [] := by
  unfold loadC3d
  split
  · split
    · rw [allLabels_of file labels hl]
      exact if_pos few
    · rfl
  · rfl

/-- C90: a file with 255 points, or any multiple, and a label for each of them in full sections gives no subjects, whatever its points are:
the loader asks for one section more. -/
theorem C90_full_section_lost (order : List (List Char × List Nat) → List (List Char × List Nat)) (up : UpVector) (file : C3dFile K)
    (n : Nat) (points : file.numPoints = 255 * n) (full : file.labels (n + 1) = none) : loadC3d order up file = .ok [] := by
  unfold loadC3d
  split
  · split
    · rw [allLabels_missing file n (by omega) full]
    · rfl
  · rfl

end

/-! ### Examples -/

/-- A file of a hand and a stray point in two frames. -/
def exFile : C3dFile ℚ where
  numPoints := 3
  numFrames := 2
  frameRate := 120
  units := some ["m".toList]
  labels := fun k => if k = 1 then some ["A:hand".toList, "A:x-1".toList, "L_toe".toList] else none
  frames := [[⟨some 1, some 2, some 3, some 0⟩, ⟨some 1, some 1, some 1, some 0⟩, ⟨some 1, some 0, some 0, some 0⟩],
    [⟨some 1, some 2, some 3, some (-1)⟩, ⟨some 1, some 1, some 1, some 0⟩, ⟨some 2, some 0, none, some 0⟩]]

/-- It meets the hypotheses of `C90_c3d_partial`, and a marker is seen. -/
example : GoodUnit "m".toList ∧ LabelsOf exFile ["A:hand".toList, "A:x-1".toList, "L_toe".toList] ∧ Complete exFile ∧
    SomeSeen exFile ["A:hand".toList, "A:x-1".toList, "L_toe".toList] := by
  refine ⟨by unfold GoodUnit; decide, ⟨[["A:hand".toList, "A:x-1".toList, "L_toe".toList]], by decide, by simp, ?_⟩, ⟨by decide, ?_⟩, ?_⟩
  · intro i s h
    cases i with
    | zero =>
      simp only [List.getElem?_cons_zero, Option.some.injEq] at h
      rw [← h]
      rfl
    | succ i => simp at h
  · intro f hf
    simp only [exFile, List.mem_cons, List.not_mem_nil, or_false] at hf
    rcases hf with rfl | rfl <;> decide
  · refine ⟨0, _, 0, _, ['A'], "hand".toList, ⟨1, 2, 3⟩, by decide, rfl, rfl, ⟨"A:hand".toList, rfl, SubjectOf.colon ['A'] "hand".toList (by decide), Or.inr ⟨by decide, ':', rfl⟩, ?_⟩,
      1, 2, 3, 0, rfl, rfl, by decide, le_refl _⟩
    rw [← isDangling_iff]
    decide

/-- The hand has a subject `A`, and the toe one without a name. -/
example : (match loadC3d id .y exFile with
    | .ok r => r.map fun s => (String.ofList s.name, s.frames.map fun fr => fr.map fun m => (String.ofList m.name, m.occluded))
    | _ => []) =
    [("A", [[("hand", false)], [("hand", true)]]), ("", [[("L_toe", false)], [("L_toe", true)]])] := by
  decide +kernel

/-- With 254 points one section is enough, with 255 it is not, though it has a label for each point. -/
example (ls : List (List Char)) : LabelsOf { exFile with numPoints := 254, labels := fun k => if k = 1 then some ls else none } ls ∧
    loadC3d id .y { exFile with numPoints := 255, labels := fun k => if k = 1 then some ls else none } = .ok [] := by
  refine ⟨⟨[ls], by show 1 = 254 / 255 + 1; decide, List.append_nil ls, ?_⟩, C90_full_section_lost _ _ _ 1 rfl rfl⟩
  intro i s h
  cases i with
  | zero =>
    rw [List.getElem?_cons_zero] at h
    exact h
  | succ i => simp at h

/-- Two subjects, of which the second shows a marker. -/
example : findMainSubjectIndex (K := ℚ) [⟨['A'], [[⟨['a'], ⟨0, 0, 0⟩, true⟩]], 30⟩, ⟨['B'], [[⟨['a'], ⟨0, 0, 0⟩, false⟩]], 30⟩] = 1 := by
  decide +kernel

end Momentum.MarkerSubjects
