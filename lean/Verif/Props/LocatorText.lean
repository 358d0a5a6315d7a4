import Verif.Lemmas.LocatorText3

/-!
# C86: the text format of locators
-/

namespace Momentum.LocatorText

open TransformText (trim tokenize)

variable {F : NumFormat} {sk : Skeleton ℝ}

theorem firstDuplicate_spec (seen : List String) (ls : List (Locator ℝ)) :
    (firstDuplicate seen ls = "" ∧ ((∀ l ∈ ls, l.name ≠ "") → (ls.map (·.name)).Nodup ∧ ∀ l ∈ ls, l.name ∉ seen)) ∨
      (firstDuplicate seen ls ≠ "" ∧ ¬ ((ls.map (·.name)).Nodup ∧ ∀ l ∈ ls, l.name ∉ seen)) := by
  induction ls generalizing seen with
  | nil => exact Or.inl ⟨rfl, by simp⟩
  | cons l ls ih =>
    rw [firstDuplicate]
    by_cases h : l.name ∈ seen
    · rw [if_pos h]
      by_cases he : l.name = ""
      · exact Or.inl ⟨he, fun hx => absurd he (hx l (by simp))⟩
      · exact Or.inr ⟨he, fun hx => hx.2 l (by simp) h⟩
    · rw [if_neg h]
      have key : ((ls.map (·.name)).Nodup ∧ ∀ x ∈ ls, x.name ∉ l.name :: seen) ↔
          (((l :: ls).map (·.name)).Nodup ∧ ∀ x ∈ l :: ls, x.name ∉ seen) := by
        simp only [List.map_cons, List.nodup_cons, List.mem_map, not_exists, not_and, List.mem_cons, not_or, forall_eq_or_imp]
        constructor
        · rintro ⟨h1, h2⟩
          exact ⟨⟨fun x hx => (h2 x hx).1, h1⟩, h, fun x hx => (h2 x hx).2⟩
        · rintro ⟨⟨h1, h2⟩, -, h3⟩
          exact ⟨h2, fun x hx => ⟨h1 x hx, h3 x hx⟩⟩
      rcases ih (l.name :: seen) with ⟨h1, h2⟩ | ⟨h1, h2⟩
      · exact Or.inl ⟨h1, fun hx => key.mp (h2 fun x hx' => hx x (List.mem_cons_of_mem _ hx'))⟩
      · exact Or.inr ⟨h1, fun hx => h2 (key.mpr hx)⟩

/-- **C86** (partial) Saving locators of a well-formed skeleton, in the space of their joints or in world space, and loading the file again
gives the locators with their names, joints, offsets, locks, weights and limit weights, in their order.  Numbers have to be printed
faithfully.  Missing: names with colons (`C86_colons`), and the origin of the limit, which becomes the offset. -/
theorem C86_round_trip_partial (hv : sk.Valid) (hpre : ∀ jt ∈ sk.joints, jt.preRotation.normSq = 1) (hd : NamesDiffer sk)
    {pt : ParameterTransform ℝ} (hpt : pt.transform.rows = sk.joints.length * 7) (space : LocatorSpace) (ls : List (Locator ℝ))
    (hw : ∀ l ∈ ls, Writable F sk l ∧ PositionWritable F sk space l) (hnames : (ls.map (·.name)).Nodup)
    (hcolon : ∀ l ∈ ls, ':' ∉ l.name.toList ∧ ':' ∉ parentName sk l) :
    ∃ text, saveLocators F sk space ls = .ok text ∧
      loadLocators F sk pt text = .ok (ls.map fun l => { l with limitOrigin := l.offset }) := by
  obtain ⟨text, h1, h2⟩ := load_save hv hpre hd hpt space ls hw
  have h3 : ls.filterMap (afterReload sk) = ls.map fun l => { l with limitOrigin := l.offset } := by
    rw [List.filterMap_congr (g := some ∘ fun l : Locator ℝ => { l with limitOrigin := l.offset })]
    · rw [List.filterMap_eq_map]
    · intro l hl
      simp [afterReload, hcolon l hl]
  refine ⟨text, h1, ?_⟩
  rw [h2, h3, if_neg]
  rw [not_not]
  rcases firstDuplicate_spec [] (ls.map fun l => { l with limitOrigin := l.offset }) with ⟨h, -⟩ | ⟨-, h⟩
  · exact h
  · refine absurd ⟨?_, by simp⟩ h
    simpa [Function.comp_def] using hnames

/-- **C86** Locators whose limit starts at their offset, as after loading, come back unchanged. -/
theorem C86_stable (hv : sk.Valid) (hpre : ∀ jt ∈ sk.joints, jt.preRotation.normSq = 1) (hd : NamesDiffer sk)
    {pt : ParameterTransform ℝ} (hpt : pt.transform.rows = sk.joints.length * 7) (space : LocatorSpace) (ls : List (Locator ℝ))
    (hw : ∀ l ∈ ls, Writable F sk l ∧ PositionWritable F sk space l) (hnames : (ls.map (·.name)).Nodup)
    (hcolon : ∀ l ∈ ls, ':' ∉ l.name.toList ∧ ':' ∉ parentName sk l) (horigin : ∀ l ∈ ls, l.limitOrigin = l.offset) :
    ∃ text, saveLocators F sk space ls = .ok text ∧ loadLocators F sk pt text = .ok ls := by
  obtain ⟨text, h1, h2⟩ := C86_round_trip_partial hv hpre hd hpt space ls hw hnames hcolon
  refine ⟨text, h1, ?_⟩
  rw [h2, List.map_congr_left (g := id), List.map_id]
  intro l hl
  have := horigin l hl
  cases l
  simp only [id] at this ⊢
  rw [this]

/-- **C86** With colons in names: a locator on a joint with a colon in its name is lost without a message, and a colon in the name of a
locator makes it "uninitialized"; when the names that are left repeat, the whole file is rejected. -/
theorem C86_colons (hv : sk.Valid) (hpre : ∀ jt ∈ sk.joints, jt.preRotation.normSq = 1) (hd : NamesDiffer sk)
    {pt : ParameterTransform ℝ} (hpt : pt.transform.rows = sk.joints.length * 7) (space : LocatorSpace) (ls : List (Locator ℝ))
    (hw : ∀ l ∈ ls, Writable F sk l ∧ PositionWritable F sk space l) (hne : ∀ l ∈ ls, l.name ≠ "") :
    ∃ text, saveLocators F sk space ls = .ok text ∧
      ((((ls.filterMap (afterReload sk)).map (·.name)).Nodup ∧ loadLocators F sk pt text = .ok (ls.filterMap (afterReload sk))) ∨
        (¬ ((ls.filterMap (afterReload sk)).map (·.name)).Nodup ∧ loadLocators F sk pt text = .throws)) := by
  obtain ⟨text, h1, h2⟩ := load_save hv hpre hd hpt space ls hw
  have hne' : ∀ l ∈ ls.filterMap (afterReload sk), l.name ≠ "" := by
    intro l hl
    obtain ⟨l0, hl0, he⟩ := List.mem_filterMap.mp hl
    unfold afterReload at he
    split_ifs at he
    · cases he; simp
    · cases he; exact hne l0 hl0
  refine ⟨text, h1, ?_⟩
  rcases firstDuplicate_spec [] (ls.filterMap (afterReload sk)) with ⟨h, h'⟩ | ⟨h, h'⟩
  · exact Or.inl ⟨(h' hne').1, by rw [h2, if_neg (by simpa using h)]⟩
  · exact Or.inr ⟨fun hx => h' ⟨hx, by simp⟩, by rw [h2, if_pos h]⟩

/-- What holds of every locator that is read. -/
theorem loadLoop_all_of {world : List (Affine ℝ)} (P : Locator ℝ → Prop)
    (hP : ∀ d l, finish world d = .ok (some l) → P l) (lines : List (List Char)) (res res' : List (Locator ℝ)) (hres : ∀ l ∈ res, P l)
    (h : loadLoop F sk world lines res = .ok res') : ∀ l ∈ res', P l := by
  induction hn : lines.length using Nat.strong_induction_on generalizing lines res with
  | _ n ih =>
    subst hn
    match lines with
    | [] =>
      rw [loadLoop] at h
      cases h
      exact hres
    | line :: rest =>
      by_cases hl : trim line = ['{']
      · cases hf : fieldLoop F sk {} rest with
        | throws =>
          rw [loadLoop, if_pos hl] at h
          split at h <;> simp_all
        | ub =>
          rw [loadLoop, if_pos hl] at h
          split at h <;> simp_all
        | ok r =>
          have hlen := fieldLoop_length F sk _ _ r hf
          cases hfin : finish world r.1 with
          | throws =>
            rw [loadLoop, if_pos hl] at h
            split at h <;> simp_all
          | ub =>
            rw [loadLoop, if_pos hl] at h
            split at h <;> simp_all
          | ok o =>
            rw [loadLoop_open world rest res (d := r.1) (rest' := r.2) hf hfin hl] at h
            refine ih r.2.length (by simp; omega) r.2 (res ++ o.toList) ?_ h rfl
            intro l hl'
            rcases List.mem_append.mp hl' with hl' | hl'
            · exact hres l hl'
            · rw [Option.mem_toList] at hl'
              subst hl'
              exact hP r.1 l hfin
      · rw [loadLoop_skip world rest res hl] at h
        exact ih rest.length (by simp) rest res hres h rfl

/-- What an accepted text went through. -/
theorem load_cases {pt : ParameterTransform ℝ} {data : List Char} {res : List (Locator ℝ)} (h : loadLocators F sk pt data = .ok res) :
    res = [] ∨ ∃ world lines, loadLoop F sk world lines [] = .ok res ∧ firstDuplicate [] res = "" := by
  unfold loadLocators at h
  split_ifs at h
  split at h
  · cases h
  · split at h
    · split_ifs at h
      · cases h; exact Or.inl rfl
      · rename_i st _ _ _ _ l2 l3 ls _ _
        cases hl : loadLoop F sk (worldAffines st) (l2 :: l3 :: ls) [] with
        | throws => simp [hl, Outcome.bind] at h
        | ub => simp [hl, Outcome.bind] at h
        | ok r =>
          simp only [hl, Outcome.bind] at h
          split_ifs at h with hd
          cases h
          exact Or.inr ⟨_, _, hl, by simpa using hd⟩
    · cases h; exact Or.inl rfl

/-- **C86** (partial) Whatever the text: when it is accepted and no locator has an empty name, the names are different.  Missing: a file
with two unnamed locators is accepted whatever names repeat after them (`C86_unnamed_counterexample`). -/
theorem C86_names_differ_partial {pt : ParameterTransform ℝ} {data : List Char} {res : List (Locator ℝ)}
    (h : loadLocators F sk pt data = .ok res) (hne : ∀ l ∈ res, l.name ≠ "") : (res.map (·.name)).Nodup := by
  rcases load_cases h with rfl | ⟨-, -, -, h2⟩
  · simp
  · rcases firstDuplicate_spec [] res with ⟨-, hx⟩ | ⟨hx, -⟩
    · exact (hx hne).1
    · exact absurd h2 hx

/-- **C86** Whatever the text: the limit of every locator that is read starts at its offset. -/
theorem C86_limit_origin {pt : ParameterTransform ℝ} {data : List Char} {res : List (Locator ℝ)}
    (h : loadLocators F sk pt data = .ok res) : ∀ l ∈ res, l.limitOrigin = l.offset := by
  rcases load_cases h with rfl | ⟨world, lines, h2, -⟩
  · simp
  · refine loadLoop_all_of (fun l => l.limitOrigin = l.offset) ?_ lines [] res (by simp) h2
    intro d l hl
    unfold finish at hl
    split at hl
    · cases hl
    · split at hl
      · cases hl; rfl
      · split at hl
        · cases hl; rfl
        · cases hl
      · cases hl

/-- **C86** (counterexample) Two unnamed locators are accepted, and with them any repeated name after them. -/
theorem C86_unnamed_counterexample (hv : sk.Valid) (hpre : ∀ jt ∈ sk.joints, jt.preRotation.normSq = 1) (hd : NamesDiffer sk)
    {pt : ParameterTransform ℝ} (hpt : pt.transform.rows = sk.joints.length * 7) (space : LocatorSpace) (l : Locator ℝ)
    (hw : Writable F sk l ∧ PositionWritable F sk space l) (hcolon : ':' ∉ l.name.toList ∧ ':' ∉ parentName sk l) :
    ∃ text res, saveLocators F sk space [{ l with name := "" }, { l with name := "" }, l, l] = .ok text ∧
      loadLocators F sk pt text = .ok res ∧ res.map (·.name) = ["", "", l.name, l.name] := by
  have he : ∀ x : Locator ℝ, x ∈ [{ l with name := "" }, { l with name := "" }, l, l] → Writable F sk x ∧ PositionWritable F sk space x := by
    have h0 : Writable F sk { l with name := "" } ∧ PositionWritable F sk space { l with name := "" } := by
      refine ⟨⟨hw.1.parent, by simp [OnLine], hw.1.locked, hw.1.weight, hw.1.limitWeight⟩, ?_⟩
      have := hw.2
      cases space <;> exact this
    intro x hx
    simp only [List.mem_cons, List.not_mem_nil, or_false] at hx
    rcases hx with rfl | rfl | rfl | rfl
    · exact h0
    · exact h0
    · exact hw
    · exact hw
  obtain ⟨text, h1, h2⟩ := load_save hv hpre hd hpt space _ he
  have hp : parentName sk { l with name := "" } = parentName sk l := rfl
  have h3 : [{ l with name := "" }, { l with name := "" }, l, l].filterMap (afterReload sk)
      = [{ l with name := "", limitOrigin := l.offset }, { l with name := "", limitOrigin := l.offset },
        { l with limitOrigin := l.offset }, { l with limitOrigin := l.offset }] := by
    simp [afterReload, hp, hcolon]
  rw [h3, if_neg (by simp [firstDuplicate])] at h2
  exact ⟨text, _, h1, h2, by simp⟩

/-- A file with one locator on joint number 7. -/
def numberedText : List Char := "{\n\"locators\":[\n{\n\"parent\":7\n}\n".toList

/-- **C86** (counterexample) The number of a joint is not checked: whatever the skeleton, a file with a locator on joint number 7 is accepted, and the
locator is attached to it, although there may be no such joint. -/
theorem C86_joint_unchecked_counterexample (hv : sk.Valid) {pt : ParameterTransform ℝ} (hpt : pt.transform.rows = sk.joints.length * 7) :
    ∃ l, loadLocators F sk pt numberedText = .ok [l] ∧ l.parent = 7 := by
  obtain ⟨st, hst, -⟩ := skeletonState_good hv true (params := List.replicate (sk.joints.length * 7) (0 : ℝ)) (by simp)
  have htok : tokenize (fun c => c = '\r' || c = '\n') numberedText
      = ["{".toList, "\"locators\":[".toList, "{".toList, "\"parent\":7".toList, "}".toList] := by decide
  have hread : Reads F sk {} "\"parent\":7".toList { parent := some 7 } := by
    refine ⟨by decide, by decide, ?_⟩
    have h1 : trim "\"parent\":7".toList = "\"parent\":7".toList := by decide
    have h2 : tokenize (· = ':') "\"parent\":7".toList = ["\"parent\"".toList, "7".toList] := by decide
    rw [h1, fieldLine, if_neg (by decide), h2]
    have h3 : svtoi ['7'] = .ok 7 := by decide
    simp [field, h3, Outcome.bind, parentOfInt]
  have hclose : fieldLoop F sk { parent := some 7 } ["}".toList] = .ok ({ parent := some 7 }, []) := by
    have : trim "}".toList = "}".toList := by decide
    rw [fieldLoop, this, if_neg (by decide), if_pos (by decide)]
  have hloop : fieldLoop F sk {} ["\"parent\":7".toList, "}".toList] = .ok ({ parent := some 7 }, []) := by
    rw [hread.step (by simp), hclose]
  refine ⟨⟨"uninitialized", 7, 0, ⟨0, 0, 0⟩, 1, 0, 0⟩, ?_, rfl⟩
  rw [loadLocators, if_neg (by simpa using hpt), hpt, hst]
  simp only
  rw [htok]
  simp only
  rw [if_neg (by decide), loadLoop_open (worldAffines st) _ [] hloop (finish_local rfl rfl rfl rfl) (by decide), loadLoop]
  simp [Outcome.bind, firstDuplicate]

/-- **C86** Lines of a locator that are written by hand.  A line that starts with a slash, or that names a joint which is not there, changes
nothing; the number -1 takes the parent away; other negative numbers wrap around to a joint that no skeleton has. -/
theorem C86_lines (d : Draft) (rest : List (List Char)) (hrest : rest ≠ []) :
    (∀ line, (trim line).head? = some '/' → fieldLoop F sk d (line :: rest) = fieldLoop F sk d rest) ∧
    (∀ n : List Char, ':' ∉ n → (∀ j ∈ sk.joints, j.name.toList ≠ n) →
      fieldLoop F sk d (parentLine n :: rest) = fieldLoop F sk d rest) ∧
    (∀ i : Int, IsInt32 i → ∃ p, fieldLoop F sk d (entryLine "parent" (printInt i) :: rest) = fieldLoop F sk { d with parent := p } rest ∧
      (i = -1 → p = none) ∧ (0 ≤ i → p = some i.toNat) ∧ (i < -1 → ∃ k, p = some k ∧ (k : Int) = 2 ^ 64 + i)) := by
  refine ⟨fun line hl => ?_, fun n hn hj => ?_, fun i hi => ⟨parentOfInt i, ?_, ?_, ?_, ?_⟩⟩
  · have h1 : trim line ≠ [] := by rintro h; simp [h] at hl
    have h2 : ¬ (trim line).head? = some '}' := by rw [hl]; decide
    have h3 : ¬ rest.isEmpty = true := by simpa using hrest
    rw [fieldLoop, if_neg h1, if_neg h2, fieldLine, if_pos hl]
    exact if_neg h3
  · rw [(reads_parent (F := F) (sk := sk) d hn).step hrest]
    have : parentOfName sk n d.parent = d.parent := by
      unfold parentOfName
      have : sk.joints.findIdx? (fun j => decide (j.name.toList = n)) = none := by
        rw [List.findIdx?_eq_none_iff]
        intro j hjm
        simpa using hj j hjm
      rw [this]
    rw [this]
  · refine Reads.step ?_ hrest
    refine Reads.entry (by decide) (noColon_int _) ?_
    simp [field, svtoi_print hi, Outcome.bind]
  · rintro rfl; rfl
  · intro h
    unfold parentOfInt
    rw [if_neg (by omega), Int.emod_eq_of_lt h (by have := hi.2; omega)]
  · intro h
    refine ⟨_, if_neg (by omega), ?_⟩
    have h1 := hi.1
    have : i % 18446744073709551616 = 2 ^ 64 + i := by omega
    rw [this]
    omega

end Momentum.LocatorText
