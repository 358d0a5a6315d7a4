import Verif.Lemmas.TrackerUtils3

namespace Momentum

theorem mapM_mapIdx {α β : Type} (f : α → Option β) (L : List α) (g : Nat → α → β)
    (h : ∀ (k : Nat) (a : α), L[k]? = some a → f a = some (g k a)) : L.mapM f = some (L.mapIdx g) := by
  induction L generalizing g with
  | nil => rfl
  | cons a L ih =>
    rw [List.mapM_cons, h 0 a rfl, ih (fun k => g (k + 1)) (fun k b hb => h (k + 1) b hb), List.mapIdx_cons]
    rfl

theorem locatorLookup_append {K : Type} (ls : List (Locator K)) (l : Locator K) :
    locatorLookup (ls ++ [l]) = Function.update (locatorLookup ls) l.name (some ls.length) := by
  unfold locatorLookup
  rw [List.zipIdx_append, List.foldl_append]
  simp

theorem locatorLookup_eq {K : Type} (ls : List (Locator K)) (nm : String) :
    (locatorLookup ls nm).bind (ls[·]?) = ls.reverse.find? fun l => l.name == nm := by
  have key : (locatorLookup ls nm).bind (ls[·]?) = ls.reverse.find? (fun l => l.name == nm) ∧
      ∀ i, locatorLookup ls nm = some i → i < ls.length := by
    induction ls using List.reverseRecOn with
    | nil => exact ⟨rfl, fun i h => by cases h⟩
    | append_singleton ls l ih =>
      rw [locatorLookup_append, List.reverse_append, List.reverse_cons, List.reverse_nil, List.nil_append, List.singleton_append,
        List.find?_cons]
      by_cases hn : l.name = nm
      · simp [hn]
      · have h1 : (l.name == nm) = false := by simpa using hn
        rw [h1, Function.update_of_ne (Ne.symm hn)]
        refine ⟨?_, fun i hi => ?_⟩
        · show _ = ls.reverse.find? _
          rw [← ih.1]
          cases hx : locatorLookup ls nm with
          | none => rfl
          | some i =>
            have := ih.2 i hx
            simp only [Option.bind_some]
            rw [List.getElem?_append_left this]
        · have := ih.2 i hi
          simp
          omega
  exact key.1

theorem markerConstraint_eq {K : Type} (ls : List (Locator K)) (m : Marker K) : markerConstraint ls m = expectedConstraint ls m := by
  unfold markerConstraint expectedConstraint
  split
  · rfl
  · rw [← locatorLookup_eq]
    cases locatorLookup ls m.name <;> rfl

theorem find_reverse_nodup {K : Type} {ls : List (Locator K)} (hn : (ls.map Locator.name).Nodup) {l : Locator K} (hl : l ∈ ls) :
    (ls.reverse.find? fun x => x.name == l.name) = some l := by
  have hn' : (ls.reverse.map Locator.name).Nodup := by
    rw [List.map_reverse]; exact List.nodup_reverse.2 hn
  have hl' : l ∈ ls.reverse := List.mem_reverse.2 hl
  generalize ls.reverse = rs at hn' hl'
  induction rs with
  | nil => simp at hl'
  | cons a rs ih =>
    rw [List.find?_cons]
    rw [List.map_cons, List.nodup_cons] at hn'
    rcases List.mem_cons.1 hl' with rfl | h
    · simp
    · have : a.name ≠ l.name := fun h2 => hn'.1 (by rw [h2]; exact List.mem_map_of_mem h)
      have h3 : (a.name == l.name) = false := by simpa using this
      rw [h3]
      exact ih hn'.2 h

theorem identityColumn_eq (op : ℝ → ℝ → ℝ) (s : ParameterSet) {identity column : List ℝ} (hk : column.length ≤ kMaxModelParams)
    (hl : column.length ≤ identity.length) : identityColumn op s identity column =
      some (column.mapIdx fun i x => if s.mem i then op x (identity.getD i 0) else x) := by
  unfold identityColumn
  rw [mapM_mapIdx _ _ (fun i xi => if s.mem i then op xi.1 (identity.getD i 0) else xi.1)]
  · congr 1
    apply List.ext_getElem?
    intro i
    rw [List.getElem?_mapIdx, List.getElem?_mapIdx, List.getElem?_zipIdx, Option.map_map]
    rfl
  · intro i xi h
    rw [List.getElem?_zipIdx] at h
    obtain ⟨x, hx, rfl⟩ := Option.map_eq_some_iff.1 h
    have hi := (List.getElem?_eq_some_iff.1 hx).1
    have hik : i < kMaxModelParams := by omega
    simp only [zero_add, ParameterSet.test, dif_pos hik, Option.bind_some, ParameterSet.mem]
    split
    · rw [List.getElem?_eq_getElem (by omega), List.getD_eq_getElem _ _ (by omega)]
      rfl
    · rfl

theorem scaling_fold (l : List (String × Nat)) (acc r : ParameterSet) (h : l.foldlM scalingStep acc = some r) (i : Nat) :
    r.mem i = true ↔ acc.mem i = true ∨ ∃ nm, (nm, i) ∈ l ∧ containsText "scale_" nm = true := by
  induction l generalizing acc with
  | nil => cases h; simp
  | cons a l ih =>
    rw [List.foldlM_cons] at h
    cases ha : scalingStep acc a with
    | none => rw [ha] at h; cases h
    | some acc' =>
      rw [ha] at h
      rw [ih acc' h]
      unfold scalingStep at ha
      split at ha
      · rename_i hr
        rw [ParameterSet.set_mem ha]
        constructor
        · rintro ((h | rfl) | ⟨nm, h1, h2⟩)
          · exact .inl h
          · exact .inr ⟨a.1, by simp, hr⟩
          · exact .inr ⟨nm, List.mem_cons_of_mem _ h1, h2⟩
        · rintro (h | ⟨nm, h1, h2⟩)
          · exact .inl (.inl h)
          · rcases List.mem_cons.1 h1 with h1 | h1
            · exact .inl (.inr (by rw [← h1]))
            · exact .inr ⟨nm, h1, h2⟩
      · rename_i hr
        cases ha
        constructor
        · rintro (h | ⟨nm, h1, h2⟩)
          · exact .inl h
          · exact .inr ⟨nm, List.mem_cons_of_mem _ h1, h2⟩
        · rintro (h | ⟨nm, h1, h2⟩)
          · exact .inl h
          · rcases List.mem_cons.1 h1 with h1 | h1
            · rw [← h1] at hr; exact absurd h2 hr
            · exact .inr ⟨nm, h1, h2⟩

theorem getScaling_mem {names : List String} {r : ParameterSet} (h : getScalingParameters names = some r) (i : Nat) :
    r.mem i = true ↔ ∃ nm, names[i]? = some nm ∧ "scale_".toList <:+: nm.toList := by
  rw [scaling_fold _ _ _ h i, ParameterSet.empty_mem]
  simp only [Bool.false_eq_true, false_or, containsText, decide_eq_true_eq]
  constructor
  · rintro ⟨nm, h1, h2⟩
    exact ⟨nm, by simpa [List.mem_zipIdx_iff_getElem?] using h1, h2⟩
  · rintro ⟨nm, h1, h2⟩
    exact ⟨nm, by simpa [List.mem_zipIdx_iff_getElem?] using h1, h2⟩

theorem getScaling_some {names : List String} (h : names.length ≤ kMaxModelParams) : ∃ r, getScalingParameters names = some r := by
  refine foldlM_of_forall _ _ (fun b a ha => ?_) _
  unfold scalingStep
  split
  · have := List.mem_zipIdx' ha
    unfold ParameterSet.set
    rw [if_pos (by omega)]; exact ⟨_, rfl⟩
  · exact ⟨_, rfl⟩

theorem extractParameters_eq {p : List ℝ} (s : ParameterSet) (hk : p.length ≤ kMaxModelParams) :
    extractParameters p s = some (p.mapIdx fun i x => if s.mem i then x else 0) := by
  unfold extractParameters
  rw [mapM_mapIdx _ _ (fun i xi => if s.mem i then xi.1 else 0)]
  · congr 1
    apply List.ext_getElem?
    intro i
    rw [List.getElem?_mapIdx, List.getElem?_mapIdx, List.getElem?_zipIdx, Option.map_map]
    rfl
  · intro i xi h
    rw [List.getElem?_zipIdx] at h
    obtain ⟨x, hx, rfl⟩ := Option.map_eq_some_iff.1 h
    have hi := (List.getElem?_eq_some_iff.1 hx).1
    have hik : i < kMaxModelParams := by omega
    simp only [zero_add, ParameterSet.test, dif_pos hik, Option.map_some, ParameterSet.mem]

theorem movedLocators_getElem (ls : List (Locator ℝ)) (n : Nat) (p : List ℝ) (k : Nat) :
    (movedLocators ls n p)[k]? = ls[k]?.map fun l => { l with offset := l.offset + locatorShift ls n p k } := by
  unfold movedLocators
  rw [List.getElem?_mapIdx]

theorem locatorShift_allLocked {ls : List (Locator ℝ)} {n : Nat} {p : List ℝ} {k : Nat} {l : Locator ℝ} (hk : ls[k]? = some l)
    (hl : l.allLocked = true) : locatorShift ls n p k = 0 := by
  have h : ∀ j, l.locked.coord j ≠ 0 := fun j hj => by rw [allLocked_false hj] at hl; cases hl
  unfold locatorShift
  rw [axisShift_locked hk (h 0), axisShift_locked hk (h 1), axisShift_locked hk (h 2)]
  rfl

theorem locatorShift_zero (ls : List (Locator ℝ)) {n : Nat} {p : List ℝ} (hz : ∀ i, n ≤ i → p.getD i 0 = 0) (k : Nat) :
    locatorShift ls n p k = 0 := by
  have h : ∀ j, axisShift ls n p k j = 0 := by
    intro j
    unfold axisShift
    split
    · exact hz _ (by omega)
    · rfl
  unfold locatorShift
  rw [h, h, h]
  rfl

theorem movedLocators_zero (ls : List (Locator ℝ)) {n : Nat} {p : List ℝ} (hz : ∀ i, n ≤ i → p.getD i 0 = 0) :
    movedLocators ls n p = ls := by
  apply List.ext_getElem?
  intro k
  rw [movedLocators_getElem, locatorShift_zero ls hz]
  cases ls[k]? with
  | none => rfl
  | some l => simp

end Momentum
