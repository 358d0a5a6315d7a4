import Verif.Lemmas.LocatorText
import Verif.Lemmas.SkeletonState
import Verif.Lemmas.Skinning

/-!
# Reading back a saved locator
-/

namespace Momentum.LocatorText

open TransformText (trim tokenize tokenize_none tokenize_cons trim_exact)

section
variable {F : NumFormat} {sk : Skeleton ℝ}

theorem reads_name (d : Draft) {n : List Char} (hn : ':' ∉ n) :
    Reads F sk d (entryLine "name" ('"' :: (n ++ ['"']))) { d with name := n } := by
  refine Reads.entry (by decide) ?_ ?_
  · intro c hc
    simp only [List.mem_cons, List.mem_append, List.not_mem_nil, or_false] at hc
    rcases hc with rfl | hc | rfl
    · decide
    · rintro rfl; exact hn hc
    · decide
  · have h : '"' :: (n ++ ['"']) ++ [','] = '"' :: (n ++ '"' :: [',']) := by simp
    rw [h, field, if_neg (by decide), if_neg (by decide), if_neg (by decide), if_pos (by decide), quoted_inner _ _ (by simp)]

theorem reads_name_colon (d : Draft) {n : List Char} (hn : ':' ∈ n) :
    Reads F sk d (entryLine "name" ('"' :: (n ++ ['"']))) d := by
  refine Reads.colon (key := "name\"".toList) (v := n ++ ['"']) ',' (by decide) ?_ (by decide) (by simp [hn])
  rw [trim_entryLine]
  simp

theorem noColon_print {x : ℝ} (h : Faithful F x) : ∀ c ∈ F.print x, c ≠ ':' := fun c hc => (h.1 c hc).1

theorem noColon_int (i : Int) : ∀ c ∈ printInt i, c ≠ ':' := by
  have hd : ∀ n : Nat, ∀ c ∈ Nat.toDigits 10 n, c ≠ ':' := by
    intro n c hc
    have := Nat.isDigit_of_mem_toDigits (by norm_num) (by norm_num) hc
    rintro rfl
    simp [Char.isDigit] at this
  intro c hc
  unfold printInt at hc
  split_ifs at hc
  · rcases List.mem_cons.mp hc with rfl | hc
    · decide
    · exact hd _ c hc
  · exact hd _ c hc

macro "read_number" h:term : tactic =>
  `(tactic| (refine Reads.entry (by decide) (noColon_print $h) ?_; simp [field, svtof_print $h, Outcome.bind]))

macro "read_int" h:term : tactic =>
  `(tactic| (refine Reads.entry (by decide) (noColon_int _) ?_; simp [field, svtoi_print $h, Outcome.bind]))

theorem reads_lockX (d : Draft) {i : Int} (h : IsInt32 i) :
    Reads F sk d (entryLine "lockX" (printInt i)) { d with locked := ⟨i, d.locked.y, d.locked.z⟩ } := by read_int h

theorem reads_lockY (d : Draft) {i : Int} (h : IsInt32 i) :
    Reads F sk d (entryLine "lockY" (printInt i)) { d with locked := ⟨d.locked.x, i, d.locked.z⟩ } := by read_int h

theorem reads_lockZ (d : Draft) {i : Int} (h : IsInt32 i) :
    Reads F sk d (entryLine "lockZ" (printInt i)) { d with locked := ⟨d.locked.x, d.locked.y, i⟩ } := by read_int h

theorem reads_weight (d : Draft) {x : ℝ} (h : Faithful F x) :
    Reads F sk d (entryLine "weight" (F.print x)) { d with weight := x } := by read_number h

theorem reads_offsetX (d : Draft) {x : ℝ} (h : Faithful F x) :
    Reads F sk d (entryLine "offsetX" (F.print x)) { d with offset := ⟨x, d.offset.y, d.offset.z⟩ } := by read_number h

theorem reads_offsetY (d : Draft) {x : ℝ} (h : Faithful F x) :
    Reads F sk d (entryLine "offsetY" (F.print x)) { d with offset := ⟨d.offset.x, x, d.offset.z⟩ } := by read_number h

theorem reads_offsetZ (d : Draft) {x : ℝ} (h : Faithful F x) :
    Reads F sk d (entryLine "offsetZ" (F.print x)) { d with offset := ⟨d.offset.x, d.offset.y, x⟩ } := by read_number h

theorem reads_globalX (d : Draft) {x : ℝ} (h : Faithful F x) :
    Reads F sk d (entryLine "globalX" (F.print x)) { d with globalX := some x } := by read_number h

theorem reads_globalY (d : Draft) {x : ℝ} (h : Faithful F x) :
    Reads F sk d (entryLine "globalY" (F.print x)) { d with globalY := some x } := by read_number h

theorem reads_globalZ (d : Draft) {x : ℝ} (h : Faithful F x) :
    Reads F sk d (entryLine "globalZ" (F.print x)) { d with globalZ := some x } := by read_number h

theorem reads_limitX (d : Draft) {x : ℝ} (h : Faithful F x) :
    Reads F sk d (entryLine "limitWeightX" (F.print x)) { d with limitWeight := ⟨x, d.limitWeight.y, d.limitWeight.z⟩ } := by
  read_number h

theorem reads_limitY (d : Draft) {x : ℝ} (h : Faithful F x) :
    Reads F sk d (entryLine "limitWeightY" (F.print x)) { d with limitWeight := ⟨d.limitWeight.x, x, d.limitWeight.z⟩ } := by
  read_number h

theorem reads_limitZ (d : Draft) {x : ℝ} (h : Faithful F x) :
    Reads F sk d (entryLine "limitWeightZ" (F.print x)) { d with limitWeight := ⟨d.limitWeight.x, d.limitWeight.y, x⟩ } := by
  read_number h

/-- The line with the name of the joint, without its end. -/
def parentLine (n : List Char) : List Char := ['\t', '\t', '\t'] ++ ('"' :: ("parentName".toList ++ ['"']) ++ ':' :: ('"' :: (n ++ ['"'])))

theorem parentLine_eq (n r : List Char) : "\t\t\t\"parentName\":\"".toList ++ (n ++ ("\"\n".toList ++ r)) = parentLine n ++ '\n' :: r := by
  simp [parentLine]

theorem trim_line (key v : List Char) : trim (['\t', '\t', '\t'] ++ ('"' :: key ++ ':' :: ('"' :: (v ++ ['"'])))) = '"' :: key ++ ':' :: ('"' :: (v ++ ['"'])) := by
  refine trim_tabs (by simp) ?_
  intro c hc
  rcases hc with hc | hc
  · simp at hc; subst hc; decide
  · have hl : ('"' :: key ++ ':' :: ('"' :: (v ++ ['"']))).getLast? = some '"' := by
      rw [show '"' :: key ++ ':' :: ('"' :: (v ++ ['"'])) = ('"' :: key ++ ':' :: ('"' :: v)) ++ ['"'] by simp]
      exact List.getLast?_concat
    rw [hl] at hc
    cases hc; decide

theorem trim_parentLine (n : List Char) : trim (parentLine n) = '"' :: ("parentName".toList ++ ['"']) ++ ':' :: ('"' :: (n ++ ['"'])) :=
  trim_line _ n

theorem reads_parent (d : Draft) {n : List Char} (hn : ':' ∉ n) :
    Reads F sk d (parentLine n) { d with parent := parentOfName sk n d.parent } := by
  refine ⟨by rw [trim_parentLine]; simp, by rw [trim_parentLine]; simp, ?_⟩
  rw [trim_parentLine, fieldLine, if_neg (by simp), tokenize_cons _ _ (by decide) (by simp) (by decide), tokenize_none _ _ (by simp)]
  · have : quoted ('"' :: (n ++ ['"'])) = n := quoted_inner n [] (by simp)
    simp only
    rw [field, if_neg (by decide), if_neg (by decide), if_neg (by decide), if_neg (by decide), if_neg (by decide), if_pos (by decide), this]
  · intro c hc
    simp only [List.mem_cons, List.mem_append, List.not_mem_nil, or_false] at hc
    rcases hc with rfl | hc | rfl
    · decide
    · simp only [decide_eq_false_iff_not]; rintro rfl; exact hn hc
    · decide

theorem reads_parent_colon (d : Draft) {n : List Char} (hn : ':' ∈ n) : Reads F sk d (parentLine n) d := by
  refine Reads.colon (key := "parentName".toList ++ ['"']) (v := n) '"' (by decide) (trim_parentLine n) (by decide) hn

/-- The lines of a position. -/
def positionLines (F : NumFormat) (space : LocatorSpace) (position offset : Vec3 ℝ) : List (List Char) :=
  match space with
  | .global => [entryLine "globalX" (F.print position.x), entryLine "globalY" (F.print position.y), entryLine "globalZ" (F.print position.z)]
  | .localSpace => [entryLine "offsetX" (F.print offset.x), entryLine "offsetY" (F.print offset.y), entryLine "offsetZ" (F.print offset.z)]

/-- The line of a limit weight. -/
noncomputable def limitLine (F : NumFormat) (key : String) (w : ℝ) : List (List Char) := if w ≠ 0 then [entryLine key (F.print w)] else []

/-- The lines of a locator after the opening one and before the closing one. -/
noncomputable def innerLines (F : NumFormat) (space : LocatorSpace) (position : Vec3 ℝ) (l : Locator ℝ) (pn : List Char) : List (List Char) :=
  entryLine "name" ('"' :: (l.name.toList ++ ['"'])) :: (positionLines F space position l.offset
    ++ [entryLine "lockX" (printInt l.locked.x), entryLine "lockY" (printInt l.locked.y), entryLine "lockZ" (printInt l.locked.z),
      entryLine "weight" (F.print l.weight)]
    ++ limitLine F "limitWeightX" l.limitWeight.x ++ limitLine F "limitWeightY" l.limitWeight.y ++ limitLine F "limitWeightZ" l.limitWeight.z
    ++ [parentLine pn])

/-- The closing line. -/
def closeLine (last : Bool) : List Char := if last then "\t\t}".toList else "\t\t},".toList

/-- Lines with their ends. -/
def unlines (ls : List (List Char)) : List Char := ls.flatMap (· ++ ['\n'])

@[simp] theorem unlines_nil : unlines [] = [] := rfl
@[simp] theorem unlines_cons (l : List Char) (ls : List (List Char)) : unlines (l :: ls) = l ++ '\n' :: unlines ls := by simp [unlines]
@[simp] theorem unlines_append (a b : List (List Char)) : unlines (a ++ b) = unlines a ++ unlines b := by simp [unlines]

theorem locatorText_eq {l : Locator ℝ} {j : Joint ℝ} (hj : sk.joints[l.parent]? = some j) (space : LocatorSpace) (last : Bool) (p : Vec3 ℝ) :
    locatorText F sk space last p l
      = .ok (unlines ("\t\t{".toList :: (innerLines F space p l j.name.toList ++ [closeLine last]))) := by
  have h1 : ∀ key w, limitWeightText F key w = unlines (limitLine F key w) := by
    intro key w
    unfold limitWeightText limitLine
    split_ifs <;> simp [entry_eq]
  have h2 : positionText F space p l.offset = unlines (positionLines F space p l.offset) := by
    cases space <;> simp [positionText, positionLines, entry_eq]
  rw [locatorText, hj]
  have h3 : (if last = true then "\t\t}\n".toList else "\t\t},\n".toList) = closeLine last ++ ['\n'] := by cases last <;> rfl
  have h4 : "\t\t{\n".toList = "\t\t{".toList ++ ['\n'] := rfl
  rw [h3, h4]
  simp only [h1, h2, entry_eq, innerLines, unlines_cons, unlines_append, unlines_nil, List.append_assoc, parentLine_eq, List.cons_append,
    List.nil_append]

/-- The offset that is read. -/
noncomputable def keptOffset (space : LocatorSpace) (offset : Vec3 ℝ) : Vec3 ℝ :=
  match space with
  | .global => 0
  | .localSpace => offset

/-- A coordinate of the world position that is read. -/
def keptGlobal (space : LocatorSpace) (x : ℝ) : Option ℝ :=
  match space with
  | .global => some x
  | .localSpace => none

/-- What the lines of a locator leave. -/
noncomputable def readDraft (sk : Skeleton ℝ) (space : LocatorSpace) (p : Vec3 ℝ) (l : Locator ℝ) (pn : List Char) : Draft where
  name := if ':' ∈ l.name.toList then "uninitialized".toList else l.name.toList
  parent := if ':' ∈ pn then none else parentOfName sk pn none
  offset := keptOffset space l.offset
  locked := l.locked
  weight := l.weight
  limitWeight := l.limitWeight
  globalX := keptGlobal space p.x
  globalY := keptGlobal space p.y
  globalZ := keptGlobal space p.z

theorem fieldLoop_limit {key : String} {w : ℝ} (d d' : Draft) (hd : w = 0 → d' = d) (hr : w ≠ 0 → Reads F sk d (entryLine key (F.print w)) d')
    {rest : List (List Char)} (h : rest ≠ []) : fieldLoop F sk d (limitLine F key w ++ rest) = fieldLoop F sk d' rest := by
  unfold limitLine
  by_cases hw : w = 0
  · simp [hw, hd hw]
  · rw [if_pos hw]
    exact (hr hw).step h

theorem fieldLoop_close (d : Draft) (last : Bool) (rest : List (List Char)) : fieldLoop F sk d (closeLine last :: rest) = .ok (d, rest) := by
  cases last
  · have : trim (closeLine false) = "},".toList := by decide
    rw [fieldLoop, this, if_neg (by decide), if_pos (by decide)]
  · have : trim (closeLine true) = "}".toList := by decide
    rw [fieldLoop, this, if_neg (by decide), if_pos (by decide)]

/-- The position that is written. -/
def Written (F : NumFormat) (space : LocatorSpace) (p offset : Vec3 ℝ) : Prop :=
  match space with
  | .localSpace => FaithfulVec F offset
  | .global => FaithfulVec F p

theorem fieldLoop_position {space : LocatorSpace} {p offset : Vec3 ℝ} (hp : Written F space p offset) (d : Draft) (hd : d.offset = 0)
    (hx : d.globalX = none) (hy : d.globalY = none) (hz : d.globalZ = none) {rest : List (List Char)} (h : rest ≠ []) :
    fieldLoop F sk d (positionLines F space p offset ++ rest) = fieldLoop F sk { d with
      offset := keptOffset space offset
      globalX := keptGlobal space p.x
      globalY := keptGlobal space p.y
      globalZ := keptGlobal space p.z } rest := by
  cases space with
  | global =>
    simp only [positionLines, List.cons_append, List.nil_append]
    rw [(reads_globalX d hp.1).step (by simp), (reads_globalY _ hp.2.1).step (by simp), (reads_globalZ _ hp.2.2).step h]
    simp only [hd, keptOffset, keptGlobal]
  | localSpace =>
    simp only [positionLines, List.cons_append, List.nil_append]
    rw [(reads_offsetX d hp.1).step (by simp), (reads_offsetY _ hp.2.1).step (by simp), (reads_offsetZ _ hp.2.2).step h]
    simp only [hx, hy, hz, keptOffset, keptGlobal]

theorem fieldLoop_inner {l : Locator ℝ} (hw : Writable F sk l) {space : LocatorSpace} {p : Vec3 ℝ} (hp : Written F space p l.offset)
    (pn : List Char) (last : Bool) (rest : List (List Char)) :
    fieldLoop F sk {} (innerLines F space p l pn ++ closeLine last :: rest) = .ok (readDraft sk space p l pn, rest) := by
  have hname : ∀ r : List (List Char), r ≠ [] → fieldLoop F sk {} (entryLine "name" ('"' :: (l.name.toList ++ ['"'])) :: r)
      = fieldLoop F sk { name := if ':' ∈ l.name.toList then "uninitialized".toList else l.name.toList } r := by
    intro r hr
    split_ifs with h
    · exact (reads_name_colon _ h).step hr
    · exact (reads_name _ h).step hr
  have hparent : ∀ (d : Draft) (r : List (List Char)), r ≠ [] → d.parent = none → fieldLoop F sk d (parentLine pn :: r)
      = fieldLoop F sk { d with parent := if ':' ∈ pn then none else parentOfName sk pn none } r := by
    intro d r hr hd
    split_ifs with h
    · rw [(reads_parent_colon d h).step hr, ← hd]
    · rw [(reads_parent d h).step hr, hd]
  simp only [innerLines, List.append_assoc, List.cons_append, List.nil_append]
  rw [hname _ (by simp), fieldLoop_position hp _ rfl rfl rfl rfl (by simp)]
  rw [(reads_lockX _ hw.locked.1).step (by simp), (reads_lockY _ hw.locked.2.1).step (by simp),
    (reads_lockZ _ hw.locked.2.2).step (by simp), (reads_weight _ hw.weight).step (by simp)]
  rw [fieldLoop_limit _ _ ?_ (fun _ => reads_limitX _ hw.limitWeight.1) (by simp),
    fieldLoop_limit _ _ ?_ (fun _ => reads_limitY _ hw.limitWeight.2.1) (by simp),
    fieldLoop_limit _ _ ?_ (fun _ => reads_limitZ _ hw.limitWeight.2.2) (by simp)]
  · rw [hparent _ _ (by simp) rfl, fieldLoop_close]
    rfl
  · intro h; simp only [h]; rfl
  · intro h; simp only [h]; rfl
  · intro h; simp only [h]; rfl

end

end Momentum.LocatorText
