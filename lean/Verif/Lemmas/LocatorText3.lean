import Verif.Lemmas.LocatorText2
import Verif.Props.Skinning

/-!
# Reading back a saved file of locators
-/

namespace Momentum.LocatorText

open TransformText (trim tokenize tokenize_none tokenize_cons trim_exact)

section
variable {F : NumFormat} {sk : Skeleton ℝ}

/-- The characters that end a line. -/
def isLineEnd (c : Char) : Bool := c = '\r' || c = '\n'

theorem OnLine.plain {s : List Char} (h : OnLine s) : ∀ c ∈ s, isLineEnd c = false := by
  intro c hc
  simp [isLineEnd, (h c hc).1, (h c hc).2]

theorem tokenize_unlines (ls : List (List Char)) (h : ∀ l ∈ ls, l ≠ [] ∧ OnLine l) : tokenize isLineEnd (unlines ls) = ls := by
  induction ls with
  | nil => rfl
  | cons l ls ih =>
    rw [unlines_cons, tokenize_cons _ _ (h l (by simp)).2.plain (by decide) (h l (by simp)).1]
    rw [ih fun x hx => h x (List.mem_cons_of_mem _ hx)]

theorem OnLine.append {a b : List Char} (ha : OnLine a) (hb : OnLine b) : OnLine (a ++ b) := by
  intro c hc
  rcases List.mem_append.mp hc with hc | hc
  · exact ha c hc
  · exact hb c hc

theorem onLine_print {x : ℝ} (h : Faithful F x) : OnLine (F.print x) := fun c hc => ⟨(h.1 c hc).2.1, (h.1 c hc).2.2.1⟩

theorem onLine_int (i : Int) : OnLine (printInt i) := by
  have hd : ∀ n : Nat, OnLine (Nat.toDigits 10 n) := by
    intro n c hc
    have := Nat.isDigit_of_mem_toDigits (by norm_num) (by norm_num) hc
    constructor <;> rintro rfl <;> simp [Char.isDigit] at this
  unfold printInt
  split_ifs
  · exact OnLine.append (a := ['-']) (by unfold OnLine; decide) (hd _)
  · exact hd _

theorem onLine_entry {key : String} {value : List Char} (hk : OnLine key.toList) (hv : OnLine value) :
    entryLine key value ≠ [] ∧ OnLine (entryLine key value) := by
  refine ⟨by simp [entryLine], ?_⟩
  unfold entryLine
  exact ((((OnLine.append (by unfold OnLine; decide) hk).append (by unfold OnLine; decide)).append hv).append (by unfold OnLine; decide))

theorem onLine_name {n : List Char} (h : OnLine n) : OnLine ('"' :: (n ++ ['"'])) :=
  OnLine.append (a := ['"']) (by unfold OnLine; decide) (h.append (by unfold OnLine; decide))

theorem onLine_parent {n : List Char} (h : OnLine n) : parentLine n ≠ [] ∧ OnLine (parentLine n) := by
  refine ⟨by simp [parentLine], ?_⟩
  unfold parentLine
  refine OnLine.append (by unfold OnLine; decide) (OnLine.append (by unfold OnLine; decide) ?_)
  exact OnLine.append (a := [':']) (by unfold OnLine; decide) (onLine_name h)

theorem innerLines_onLine {l : Locator ℝ} (hw : Writable F sk l) {space : LocatorSpace} {p : Vec3 ℝ} (hp : Written F space p l.offset)
    {pn : List Char} (hpn : OnLine pn) : ∀ x ∈ innerLines F space p l pn, x ≠ [] ∧ OnLine x := by
  have hlim : ∀ (key : String) (w : ℝ), OnLine key.toList → Faithful F w → ∀ x ∈ limitLine F key w, x ≠ [] ∧ OnLine x := by
    intro key w hk hf x hx
    unfold limitLine at hx
    split_ifs at hx
    · simp only [List.mem_singleton] at hx
      subst hx
      exact onLine_entry hk (onLine_print hf)
    · simp at hx
  have hpos : ∀ x ∈ positionLines F space p l.offset, x ≠ [] ∧ OnLine x := by
    intro x hx
    cases space <;>
    · simp only [positionLines, List.mem_cons, List.not_mem_nil, or_false] at hx
      rcases hx with rfl | rfl | rfl
      · exact onLine_entry (by unfold OnLine; decide) (onLine_print hp.1)
      · exact onLine_entry (by unfold OnLine; decide) (onLine_print hp.2.1)
      · exact onLine_entry (by unfold OnLine; decide) (onLine_print hp.2.2)
  intro x hx
  simp only [innerLines, List.mem_cons, List.mem_append, List.not_mem_nil, or_false] at hx
  rcases hx with rfl | ((((hx | rfl | rfl | rfl | rfl) | hx) | hx) | hx) | rfl
  · exact onLine_entry (by unfold OnLine; decide) (onLine_name hw.name)
  · exact hpos x hx
  · exact onLine_entry (by unfold OnLine; decide) (onLine_int _)
  · exact onLine_entry (by unfold OnLine; decide) (onLine_int _)
  · exact onLine_entry (by unfold OnLine; decide) (onLine_int _)
  · exact onLine_entry (by unfold OnLine; decide) (onLine_print hw.weight)
  · exact hlim _ _ (by unfold OnLine; decide) hw.limitWeight.1 x hx
  · exact hlim _ _ (by unfold OnLine; decide) hw.limitWeight.2.1 x hx
  · exact hlim _ _ (by unfold OnLine; decide) hw.limitWeight.2.2 x hx
  · exact onLine_parent hpn

theorem parentOfName_self (hd : NamesDiffer sk) {p : Nat} {j : Joint ℝ} (hj : sk.joints[p]? = some j) (old : Option Nat) :
    parentOfName sk j.name.toList old = some p := by
  obtain ⟨hp, rfl⟩ := List.getElem?_eq_some_iff.mp hj
  have h : sk.joints.findIdx? (fun j => decide (j.name.toList = sk.joints[p].name.toList)) = some p := by
    rw [List.findIdx?_eq_some_iff_getElem]
    refine ⟨hp, by simp, ?_⟩
    intro q hq
    rw [decide_eq_true_eq]
    intro he
    have he' := String.toList_inj.mp he
    have := (List.nodup_iff_injective_get.mp hd)
    have h2 := @this ⟨q, by simp; omega⟩ ⟨p, by simpa using hp⟩ (by simpa using he')
    simp at h2
    omega
  rw [parentOfName, h]

theorem finish_none {world : List (Affine ℝ)} {d : Draft} (h : d.parent = none) : finish world d = .ok none := by simp [finish, h]

theorem finish_local {world : List (Affine ℝ)} {d : Draft} {p : Nat} (h : d.parent = some p) (hx : d.globalX = none)
    (hy : d.globalY = none) (hz : d.globalZ = none) :
    finish world d = .ok (some ⟨String.ofList d.name, p, d.offset, d.locked, d.weight, d.offset, d.limitWeight⟩) := by
  simp [finish, h, hx, hy, hz]

theorem finish_global {world : List (Affine ℝ)} {d : Draft} {p : Nat} {t : Affine ℝ} {v o : Vec3 ℝ} (h : d.parent = some p)
    (ht : world[p]? = some t) (hx : d.globalX = some v.x) (hy : d.globalY = some v.y) (hz : d.globalZ = some v.z)
    (ho : t.inverse.apply v = o) :
    finish world d = .ok (some ⟨String.ofList d.name, p, o, d.locked, d.weight, o, d.limitWeight⟩) := by
  have : t.inverse.apply ⟨v.x, v.y, v.z⟩ = o := ho
  simp [finish, h, hx, hy, hz, ht, this]

theorem finish_read (hd : NamesDiffer sk) {world : List (Affine ℝ)} {l : Locator ℝ} {j : Joint ℝ} {t : Affine ℝ}
    (hj : sk.joints[l.parent]? = some j) (ht : world[l.parent]? = some t) (hdet : t.linear.det ≠ 0) (space : LocatorSpace) :
    finish world (readDraft sk space (t.apply l.offset) l j.name.toList) = .ok (afterReload sk l) := by
  have hpn : parentName sk l = j.name.toList := by simp [parentName, hj]
  have hn : String.ofList (readDraft sk space (t.apply l.offset) l j.name.toList).name
      = if ':' ∈ l.name.toList then "uninitialized" else l.name := by
    change String.ofList (if ':' ∈ l.name.toList then "uninitialized".toList else l.name.toList) = _
    split_ifs
    · exact String.ofList_toList
    · exact String.ofList_toList
  have hpar : (readDraft sk space (t.apply l.offset) l j.name.toList).parent = if ':' ∈ j.name.toList then none else some l.parent := by
    change (if ':' ∈ j.name.toList then none else parentOfName sk j.name.toList none) = _
    rw [parentOfName_self hd hj]
  unfold afterReload
  rw [hpn]
  by_cases h : ':' ∈ j.name.toList
  · rw [if_pos h] at hpar ⊢
    exact finish_none hpar
  · rw [if_neg h] at hpar ⊢
    cases space
    · rw [finish_global hpar ht rfl rfl rfl (Affine.inverse_apply hdet l.offset), hn]
      rfl
    · rw [finish_local hpar rfl rfl rfl, hn]
      rfl

theorem loadLoop_open (world : List (Affine ℝ)) (rest : List (List Char)) (res : List (Locator ℝ)) {d : Draft} {rest' : List (List Char)}
    {o : Option (Locator ℝ)} (h : fieldLoop F sk {} rest = .ok (d, rest')) (hf : finish world d = .ok o) {line : List Char}
    (hl : trim line = ['{']) : loadLoop F sk world (line :: rest) res = loadLoop F sk world rest' (res ++ o.toList) := by
  rw [loadLoop, if_pos hl]
  split
  · rename_i r hr
    rw [h] at hr
    cases hr
    simp only [hf]
    cases o <;> simp
  · rename_i hr; rw [h] at hr; cases hr
  · rename_i hr; rw [h] at hr; cases hr

theorem loadLoop_skip (world : List (Affine ℝ)) (rest : List (List Char)) (res : List (Locator ℝ)) {line : List Char}
    (hl : trim line ≠ ['{']) : loadLoop F sk world (line :: rest) res = loadLoop F sk world rest res := by
  rw [loadLoop, if_neg hl]

/-- The lines of all locators. -/
noncomputable def allLines (F : NumFormat) (sk : Skeleton ℝ) (space : LocatorSpace) : List (Vec3 ℝ × Locator ℝ) → List (List Char)
  | [] => []
  | p :: ps => "\t\t{".toList :: (innerLines F space p.1 p.2 (parentName sk p.2) ++ [closeLine ps.isEmpty]) ++ allLines F sk space ps

/-- A locator with the place where it is written. -/
structure Placed (F : NumFormat) (sk : Skeleton ℝ) (space : LocatorSpace) (world : List (Affine ℝ)) (p : Vec3 ℝ × Locator ℝ) : Prop where
  writable : Writable F sk p.2
  written : Written F space p.1 p.2.offset
  place : ∃ t, world[p.2.parent]? = some t ∧ p.1 = t.apply p.2.offset ∧ t.linear.det ≠ 0

theorem locatorTexts_eq {space : LocatorSpace} {world : List (Affine ℝ)} (ps : List (Vec3 ℝ × Locator ℝ))
    (h : ∀ p ∈ ps, Placed F sk space world p) : locatorTexts F sk space ps = .ok (unlines (allLines F sk space ps)) := by
  induction ps with
  | nil => rfl
  | cons p ps ih =>
    obtain ⟨j, hj, -⟩ := (h p (by simp)).writable.parent
    have hpn : parentName sk p.2 = j.name.toList := by simp [parentName, hj]
    rw [locatorTexts, locatorText_eq hj, ih fun q hq => h q (List.mem_cons_of_mem _ hq), allLines, hpn]
    simp [Outcome.bind]

theorem loadLoop_all (hd : NamesDiffer sk) {space : LocatorSpace} {world : List (Affine ℝ)} (ps : List (Vec3 ℝ × Locator ℝ))
    (h : ∀ p ∈ ps, Placed F sk space world p) (res : List (Locator ℝ)) (rest : List (List Char)) :
    loadLoop F sk world (allLines F sk space ps ++ rest) res
      = loadLoop F sk world rest (res ++ (ps.map (·.2)).filterMap (afterReload sk)) := by
  induction ps generalizing res with
  | nil => simp [allLines]
  | cons p ps ih =>
    have hp := h p (by simp)
    obtain ⟨j, hj, -⟩ := hp.writable.parent
    obtain ⟨t, ht, hpos, hdet⟩ := hp.place
    have hpn : parentName sk p.2 = j.name.toList := by simp [parentName, hj]
    have hr := fieldLoop_inner hp.writable hp.written j.name.toList ps.isEmpty (allLines F sk space ps ++ rest)
    have hfin := finish_read hd hj ht hdet space
    rw [← hpos] at hfin
    rw [allLines, hpn]
    simp only [List.cons_append, List.append_assoc, List.nil_append]
    rw [loadLoop_open world _ res hr hfin (by decide), ih fun q hq => h q (List.mem_cons_of_mem _ hq)]
    congr 1
    cases hx : afterReload sk p.2 <;> simp [hx]

theorem allLines_onLine {space : LocatorSpace} {world : List (Affine ℝ)} (ps : List (Vec3 ℝ × Locator ℝ))
    (h : ∀ p ∈ ps, Placed F sk space world p) : ∀ x ∈ allLines F sk space ps, x ≠ [] ∧ OnLine x := by
  induction ps with
  | nil => simp [allLines]
  | cons p ps ih =>
    have hp := h p (by simp)
    obtain ⟨j, hj, hon⟩ := hp.writable.parent
    have hpn : parentName sk p.2 = j.name.toList := by simp [parentName, hj]
    intro x hx
    rw [allLines, List.mem_append, List.mem_cons, List.mem_append, List.mem_singleton] at hx
    rcases hx with (rfl | hx | rfl) | hx
    · exact ⟨by decide, by unfold OnLine; decide⟩
    · exact innerLines_onLine hp.writable hp.written (by rw [hpn]; exact hon) x hx
    · cases ps.isEmpty
      · exact ⟨by decide, by unfold OnLine; decide⟩
      · exact ⟨by decide, by unfold OnLine; decide⟩
    · exact ih (fun q hq => h q (List.mem_cons_of_mem _ hq)) x hx

/-- The rest pose of a well-formed skeleton: every joint has an invertible transformation. -/
theorem restWorld (hv : sk.Valid) (hpre : ∀ jt ∈ sk.joints, jt.preRotation.normSq = 1) :
    ∃ st, skeletonState sk (List.replicate (sk.joints.length * 7) 0) true = some st ∧
      ∀ i, i < sk.joints.length → ∃ t, (worldAffines st)[i]? = some t ∧ t.linear.det ≠ 0 := by
  obtain ⟨st, h1, h2, h3⟩ := skeletonState_good hv true (params := List.replicate (sk.joints.length * 7) (0 : ℝ)) (by simp)
  refine ⟨st, h1, fun i hi => ?_⟩
  have e1 := List.getElem?_eq_getElem (show i < st.length by omega)
  have hu := h2.worldOf_unit hv hpre (some i)
  simp only [worldOf, e1] at hu
  exact ⟨(st[i]'(by omega)).transform.toAffine3, by simp [worldAffines, e1], affine_det hu.1 hu.2⟩

/-- Saving and loading. -/
theorem load_save (hv : sk.Valid) (hpre : ∀ jt ∈ sk.joints, jt.preRotation.normSq = 1) (hd : NamesDiffer sk)
    {pt : ParameterTransform ℝ} (hpt : pt.transform.rows = sk.joints.length * 7) (space : LocatorSpace) (ls : List (Locator ℝ))
    (hw : ∀ l ∈ ls, Writable F sk l ∧ PositionWritable F sk space l) :
    ∃ text, saveLocators F sk space ls = .ok text ∧
      loadLocators F sk pt text = if firstDuplicate [] (ls.filterMap (afterReload sk)) ≠ "" then .throws
        else .ok (ls.filterMap (afterReload sk)) := by
  obtain ⟨st, hst, hworld⟩ := restWorld hv hpre
  have hlt : ∀ l ∈ ls, l.parent < sk.joints.length := by
    intro l hl
    obtain ⟨j, hj, -⟩ := (hw l hl).1.parent
    exact (List.getElem?_eq_some_iff.mp hj).1
  obtain ⟨ps, hps, hmap, hplaced⟩ : ∃ ps, locatorPositions (worldAffines st) ls = some ps ∧ (ps.zip ls).map (·.2) = ls ∧
      ∀ p ∈ ps.zip ls, Placed F sk space (worldAffines st) p := by
    induction ls with
    | nil => exact ⟨[], rfl, rfl, by simp⟩
    | cons l ls ih =>
      obtain ⟨ps, h1, h2, h3⟩ := ih (fun x hx => hw x (List.mem_cons_of_mem _ hx)) fun x hx => hlt x (List.mem_cons_of_mem _ hx)
      obtain ⟨t, ht, hdet⟩ := hworld l.parent (hlt l (by simp))
      refine ⟨t.apply l.offset :: ps, ?_, by simp [h2], ?_⟩
      · rw [locatorPositions] at h1 ⊢
        rw [List.mapM_cons, ht, h1]
        rfl
      · intro p hp
        rw [List.zip_cons_cons, List.mem_cons] at hp
        rcases hp with rfl | hp
        · refine ⟨(hw l (by simp)).1, ?_, t, ht, rfl, hdet⟩
          have := (hw l (by simp)).2
          cases space
          · exact this st t hst ht
          · exact this
        · exact h3 p hp
  have hheadline : "{\n\t\"locators\":[\n".toList = unlines ["{".toList, "\t\"locators\":[".toList] := by decide
  have htail : "\t]\n}\n".toList = unlines ["\t]".toList, "}".toList] := by decide
  refine ⟨unlines ("{".toList :: "\t\"locators\":[".toList :: (allLines F sk space (ps.zip ls) ++ ["\t]".toList, "}".toList])), ?_, ?_⟩
  · rw [saveLocators, hst]
    simp only [hps, locatorTexts_eq _ hplaced, Outcome.bind, hheadline, htail, ← unlines_append]
    simp only [List.cons_append, List.nil_append]
  · have htok := tokenize_unlines ("{".toList :: "\t\"locators\":[".toList :: (allLines F sk space (ps.zip ls) ++ ["\t]".toList, "}".toList]))
      (by
        intro x hx
        rw [List.mem_cons, List.mem_cons, List.mem_append, List.mem_cons, List.mem_singleton] at hx
        rcases hx with rfl | rfl | hx | rfl | rfl
        · exact ⟨by decide, by unfold OnLine; decide⟩
        · exact ⟨by decide, by unfold OnLine; decide⟩
        · exact allLines_onLine _ hplaced x hx
        · exact ⟨by decide, by unfold OnLine; decide⟩
        · exact ⟨by decide, by unfold OnLine; decide⟩)
    have hloop := loadLoop_all (F := F) hd (ps.zip ls) hplaced [] ["\t]".toList, "}".toList]
    rw [loadLoop_skip _ _ _ (by decide), loadLoop_skip _ _ _ (by decide), loadLoop, hmap, List.nil_append] at hloop
    obtain ⟨l2, l3, r, hr⟩ : ∃ l2 l3 r, allLines F sk space (ps.zip ls) ++ ["\t]".toList, "}".toList] = l2 :: l3 :: r := by
      match allLines F sk space (ps.zip ls) with
      | [] => exact ⟨_, _, _, rfl⟩
      | [a] => exact ⟨_, _, _, rfl⟩
      | a :: b :: x => exact ⟨_, _, _, rfl⟩
    rw [hr] at htok hloop ⊢
    rw [loadLocators, if_neg (by simpa using hpt), hpt, hst]
    simp only
    rw [show (fun c : Char => decide (c = '\r') || decide (c = '\n')) = isLineEnd from rfl, htok]
    simp only
    rw [if_neg (by decide), hloop]
    rfl

end

end Momentum.LocatorText
