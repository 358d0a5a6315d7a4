import Verif.Spec.MarkerSubjects
import Mathlib.Data.List.Pairwise
import Mathlib.Data.List.Nodup
import Mathlib.Data.List.TakeWhile
import Mathlib.Tactic.Ring

/-! Helper lemmas for C90: counting, names of subjects, and the map of subjects. -/

namespace Momentum.MarkerSubjects

open TrcText (TrcMarker UpVector)

section
variable {K : Type}

theorem visibleIn_eq (fr : List (TrcMarker K)) : visibleIn fr = fr.countP fun x => !x.occluded := by
  unfold visibleIn
  rw [List.countP_eq_length_filter]
  congr 2
  funext m
  cases m.occluded <;> rfl

theorem markerCount_most (frames : List (List (TrcMarker K))) : MostVisible frames (markerCount frames) := by
  have key : ∀ (frames : List (List (TrcMarker K))) (m : Nat),
      let n := frames.foldl (fun m fr => max (fr.countP fun x => !x.occluded) m) m
      m ≤ n ∧ (∀ fr ∈ frames, visibleIn fr ≤ n) ∧ (n = m ∨ ∃ fr ∈ frames, visibleIn fr = n) := by
    intro frames
    induction frames with
    | nil => intro m; simp
    | cons fr frames ih =>
      intro m
      obtain ⟨h1, h2, h3⟩ := ih (max (fr.countP fun x => !x.occluded) m)
      simp only [List.foldl_cons]
      refine ⟨le_trans (le_max_right _ _) h1, ?_, ?_⟩
      · intro g hg
        rcases List.mem_cons.mp hg with rfl | hg
        · rw [visibleIn_eq]; exact le_trans (le_max_left _ _) h1
        · exact h2 g hg
      · rcases h3 with h3 | ⟨g, hg, h3⟩
        · rcases max_choice (fr.countP fun x => !x.occluded) m with h | h
          · right
            exact ⟨fr, by simp, by rw [visibleIn_eq, h3, h]⟩
          · left
            rw [h3, h]
        · exact Or.inr ⟨g, List.mem_cons_of_mem _ hg, h3⟩
  obtain ⟨-, h2, h3⟩ := key frames 0
  exact ⟨h2, h3⟩

theorem MostVisible.unique {frames : List (List (TrcMarker K))} {n m : Nat} (hn : MostVisible frames n) (hm : MostVisible frames m) : n = m := by
  have key : ∀ {n m : Nat}, MostVisible frames n → MostVisible frames m → n ≤ m := by
    rintro n m ⟨-, h2⟩ ⟨h3, -⟩
    rcases h2 with rfl | ⟨fr, hfr, rfl⟩
    · omega
    · exact h3 fr hfr
  exact le_antisymm (key hn hm) (key hm hn)

theorem isNamed_iff (name : List Char) : isNamed name = true ↔ ProperName name := by
  unfold isNamed ProperName
  generalize "unlabeled".toList = u
  simp

/-- What the loop has found. -/
theorem mainLoop (s : List (SubjectSequence K)) : ∀ (off : Nat) (st : Nat × Nat),
    let r := (s.zipIdx off).foldl mainStep st
    st.1 ≤ r.1 ∧ (∀ (j : Nat) (b : SubjectSequence K), s[j]? = some b → ProperName b.name → markerCount b.frames ≤ r.1) ∧
      (r = st ∨ (st.1 < r.1 ∧ ∃ i a, r.2 = off + i ∧ s[i]? = some a ∧ ProperName a.name ∧ markerCount a.frames = r.1 ∧
        ∀ (j : Nat) (b : SubjectSequence K), j < i → s[j]? = some b → ProperName b.name → markerCount b.frames < r.1)) := by
  induction s with
  | nil => intro off st; simp
  | cons a s ih =>
    intro off st
    obtain ⟨h1, h2, h3⟩ := ih (off + 1) (mainStep st (a, off))
    simp only [List.zipIdx_cons, List.foldl_cons]
    by_cases hc : markerCount a.frames > st.1 ∧ ProperName a.name
    · have hs : mainStep st (a, off) = (markerCount a.frames, off) := by
        unfold mainStep
        rw [if_pos]
        simp only [Bool.and_eq_true, decide_eq_true_eq]
        exact ⟨hc.1, (isNamed_iff _).mpr hc.2⟩
      rw [hs] at h1 h2 h3 ⊢
      refine ⟨le_trans (le_of_lt hc.1) h1, ?_, Or.inr ⟨lt_of_lt_of_le hc.1 h1, ?_⟩⟩
      · intro j b hj hb
        cases j with
        | zero => simp at hj; subst hj; exact h1
        | succ j => exact h2 j b (by simpa using hj) hb
      · rcases h3 with h3 | ⟨hlt, i, c, hi, hci, hcn, hcc, hmin⟩
        · refine ⟨0, a, by rw [h3]; simp, rfl, hc.2, by rw [h3], ?_⟩
          intro j b hj
          omega
        · refine ⟨i + 1, c, by omega, by simpa using hci, hcn, hcc, ?_⟩
          intro j b hj hb hbn
          cases j with
          | zero => simp at hb; subst hb; exact hlt
          | succ j => exact hmin j b (by omega) (by simpa using hb) hbn
    · have hs : mainStep st (a, off) = st := by
        unfold mainStep
        rw [if_neg]
        simp only [Bool.and_eq_true, decide_eq_true_eq]
        exact fun h => hc ⟨h.1, (isNamed_iff _).mp h.2⟩
      rw [hs] at h1 h2 h3 ⊢
      have ha : ProperName a.name → markerCount a.frames ≤ st.1 := by
        intro hn
        by_contra hlt
        exact hc ⟨by omega, hn⟩
      refine ⟨h1, ?_, ?_⟩
      · intro j b hj hb
        cases j with
        | zero => simp at hj; subst hj; exact le_trans (ha hb) h1
        | succ j => exact h2 j b (by simpa using hj) hb
      · rcases h3 with h3 | ⟨hlt, i, c, hi, hci, hcn, hcc, hmin⟩
        · exact Or.inl h3
        · refine Or.inr ⟨hlt, i + 1, c, by omega, by simpa using hci, hcn, hcc, ?_⟩
          intro j b hj hb hbn
          cases j with
          | zero =>
            simp at hb
            subst hb
            exact lt_of_le_of_lt (ha hbn) hlt
          | succ j => exact hmin j b (by omega) (by simpa using hb) hbn

end

theorem isDangling_iff (l : List Char) : isDangling l = true ↔ Stray l := by
  unfold isDangling Stray
  rw [Bool.or_eq_true, Bool.and_eq_true, Bool.and_eq_true, decide_eq_true_eq, decide_eq_true_eq, decide_eq_true_eq, decide_eq_true_eq]
  constructor
  · rintro (⟨h1, h2⟩ | ⟨h1, h2⟩)
    · obtain ⟨hlt, h3⟩ := List.getElem?_eq_some_iff.mp h2
      have hd : l.drop (l.length - 2) = ['-', l[l.length - 1]] := by
        rw [List.drop_eq_getElem_cons hlt, h3, show l.length - 2 + 1 = l.length - 1 by omega, List.drop_eq_getElem_cons (by omega),
          show l.length - 1 + 1 = l.length by omega, List.drop_length]
      exact ⟨l.take (l.length - 2), _, Or.inl (by rw [← hd, List.take_append_drop])⟩
    · obtain ⟨hlt, h3⟩ := List.getElem?_eq_some_iff.mp h2
      have hd : l.drop (l.length - 3) = ['-', l[l.length - 2], l[l.length - 1]] := by
        rw [List.drop_eq_getElem_cons hlt, h3, show l.length - 3 + 1 = l.length - 2 by omega, List.drop_eq_getElem_cons (by omega),
          show l.length - 2 + 1 = l.length - 1 by omega, List.drop_eq_getElem_cons (by omega),
          show l.length - 1 + 1 = l.length by omega, List.drop_length]
      exact ⟨l.take (l.length - 3), _, Or.inr ⟨_, by rw [← hd, List.take_append_drop]⟩⟩
  · rintro ⟨s, c, h | ⟨d, h⟩⟩
    · left
      subst h
      simp
    · right
      subst h
      simp

/-! ### The map of subjects -/

/-- The points with a subject among the first labels. -/
def pointsWith (labels : List (List Char)) (s : List Char) : List Nat :=
  (List.range labels.length).filter fun p => findSubjectName (labels.getD p []) = s

theorem pointsWith_append (labels : List (List Char)) (l s : List Char) :
    pointsWith (labels ++ [l]) s = pointsWith labels s ++ (if findSubjectName l = s then [labels.length] else []) := by
  unfold pointsWith
  rw [List.length_append, List.length_singleton, List.range_succ, List.filter_append]
  congr 1
  · apply List.filter_congr
    intro p hp
    have hp : p < labels.length := List.mem_range.mp hp
    rw [List.getD_eq_getElem?_getD, List.getD_eq_getElem?_getD, List.getElem?_append_left hp]
  · by_cases h : findSubjectName l = s <;> simp [h]

theorem subjectMap_append (labels : List (List Char)) (l : List Char) : subjectMap (labels ++ [l]) = addLabel (subjectMap labels) (l, labels.length) := by
  unfold subjectMap
  rw [List.zipIdx_append, List.foldl_append]
  simp

/-- Each subject occurs once, with all its points. -/
theorem subjectMap_spec (labels : List (List Char)) :
    ((subjectMap labels).map Prod.fst).Nodup ∧ (∀ g ∈ subjectMap labels, g.2 = pointsWith labels g.1) ∧
      ∀ s, s ∈ (subjectMap labels).map Prod.fst ↔ ∃ l ∈ labels, findSubjectName l = s := by
  induction labels using List.reverseRecOn with
  | nil => simp [subjectMap]
  | append_singleton labels l ih =>
    obtain ⟨h1, h2, h3⟩ := ih
    rw [subjectMap_append]
    unfold addLabel
    dsimp only
    by_cases hc : ((subjectMap labels).map Prod.fst).contains (findSubjectName l) = true
    · rw [if_pos hc]
      have hm : findSubjectName l ∈ (subjectMap labels).map Prod.fst := by simpa using hc
      have hfst : ((subjectMap labels).map fun g => if g.1 = findSubjectName l then (g.1, g.2 ++ [labels.length]) else g).map Prod.fst =
          (subjectMap labels).map Prod.fst := by
        rw [List.map_map]
        apply List.map_congr_left
        intro g _
        by_cases hg : g.1 = findSubjectName l <;> simp [hg]
      rw [hfst]
      refine ⟨h1, ?_, ?_⟩
      · intro g hg
        obtain ⟨g', hg', rfl⟩ := List.mem_map.mp hg
        by_cases he : g'.1 = findSubjectName l
        · simp only [he, if_true]
          rw [pointsWith_append, if_pos rfl, ← he, h2 g' hg']
        · simp only [he, if_false]
          rw [pointsWith_append, if_neg (fun h => he h.symm), List.append_nil, h2 g' hg']
      · intro s
        rw [h3]
        constructor
        · rintro ⟨x, hx, rfl⟩
          exact ⟨x, by simp [hx], rfl⟩
        · rintro ⟨x, hx, rfl⟩
          rcases List.mem_append.mp hx with hx | hx
          · exact ⟨x, hx, rfl⟩
          · rw [List.mem_singleton] at hx
            subst hx
            exact (h3 _).mp hm
    · rw [if_neg hc]
      have hm : findSubjectName l ∉ (subjectMap labels).map Prod.fst := by simpa using hc
      rw [List.map_append, List.map_singleton]
      refine ⟨?_, ?_, ?_⟩
      · rw [List.nodup_append]
        refine ⟨h1, by simp, ?_⟩
        intro a ha b hb
        rw [List.mem_singleton] at hb
        subst hb
        rintro rfl
        exact hm ha
      · intro g hg
        rcases List.mem_append.mp hg with hg | hg
        · have hne : findSubjectName l ≠ g.1 := by
            intro e
            exact hm (e ▸ List.mem_map_of_mem hg)
          rw [pointsWith_append, if_neg hne, List.append_nil, h2 g hg]
        · rw [List.mem_singleton] at hg
          subst hg
          dsimp only
          rw [pointsWith_append, if_pos rfl]
          have : pointsWith labels (findSubjectName l) = [] := by
            unfold pointsWith
            rw [List.filter_eq_nil_iff]
            intro p hp he
            have hp : p < labels.length := List.mem_range.mp hp
            refine hm ((h3 _).mpr ⟨labels[p], List.getElem_mem hp, ?_⟩)
            rw [List.getD_eq_getElem?_getD, List.getElem?_eq_getElem hp] at he
            simpa using he
          rw [this]
          rfl
      · intro s
        rw [List.mem_append, List.mem_singleton, h3]
        constructor
        · rintro (⟨x, hx, rfl⟩ | rfl)
          · exact ⟨x, by simp [hx], rfl⟩
          · exact ⟨l, by simp, rfl⟩
        · rintro ⟨x, hx, rfl⟩
          rcases List.mem_append.mp hx with hx | hx
          · exact Or.inl ⟨x, hx, rfl⟩
          · rw [List.mem_singleton] at hx
            subst hx
            exact Or.inr rfl

end Momentum.MarkerSubjects
