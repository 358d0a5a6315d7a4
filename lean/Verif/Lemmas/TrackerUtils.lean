import Verif.Spec.TrackerUtils
import Verif.Lemmas.TransformPose5

namespace Momentum

theorem axes_nodup (l : Locator ℝ) : l.axes.Nodup := List.Nodup.filter _ (by decide)

theorem mem_axes {l : Locator ℝ} {j : Fin 3} : j ∈ l.axes ↔ l.locked.coord j = 0 := by
  unfold Locator.axes
  rw [List.mem_filter]
  constructor
  · intro h; simpa using h.2
  · intro h
    refine ⟨?_, by simpa using h⟩
    match j with
    | 0 => simp
    | 1 => simp
    | 2 => simp

theorem axes_allLocked {l : Locator ℝ} : l.allLocked = true ↔ l.axes = [] := by
  rw [List.eq_nil_iff_forall_not_mem]
  simp only [mem_axes]
  unfold Locator.allLocked
  simp only [Bool.and_eq_true, bne_iff_ne, ne_eq]
  constructor
  · rintro ⟨⟨h0, h1⟩, h2⟩ j
    match j with
    | 0 => exact h0
    | 1 => exact h1
    | 2 => exact h2
  · intro h
    exact ⟨⟨h 0, h 1⟩, h 2⟩

/-- What the loop over the axes adds. -/
theorem axis_fold (nm : String) (id : Nat) (l : Locator ℝ) (js : List (Fin 3)) : ∀ (b b' : LocatorBuild),
    js.foldlM (axisStep nm id l) b = some b' →
      b' = { b with
        triplets := b.triplets ++ ((js.filter fun j => l.locked.coord j = 0).zipIdx b.names.length).map
          fun ji => ⟨id * 7 + ji.1.val, ji.2, 1⟩
        locatorSet := b'.locatorSet
        names := b.names ++ (js.filter fun j => l.locked.coord j = 0).map fun j => nm ++ translationNames j
        limits := b.limits ++ (js.filter fun j => l.locked.coord j = 0).flatMap (axisLimit l id) } ∧
      (∀ i, b'.locatorSet.mem i = true ↔ b.locatorSet.mem i = true ∨ b.names.length ≤ i ∧ i < b'.names.length) ∧
      (b.names.length ≤ kMaxModelParams → b'.names.length ≤ kMaxModelParams) := by
  induction js with
  | nil =>
    intro b b' h
    cases h
    refine ⟨by simp, fun i => ?_, fun h => h⟩
    constructor
    · exact .inl
    · rintro (h | h)
      · exact h
      · omega
  | cons j js ih =>
    intro b b' h
    rw [List.foldlM_cons] at h
    cases ha : axisStep nm id l b j with
    | none => rw [ha] at h; cases h
    | some b1 =>
      rw [ha] at h
      obtain ⟨h1, h2, h3⟩ := ih b1 b' h
      unfold axisStep at ha
      by_cases hl : l.locked.coord j ≠ 0
      · rw [if_pos hl] at ha
        cases ha
        have : (j :: js).filter (fun j => l.locked.coord j = 0) = js.filter fun j => l.locked.coord j = 0 := by
          simp [hl]
        rw [this]
        exact ⟨h1, h2, h3⟩
      · rw [if_neg hl] at ha
        have hl0 : l.locked.coord j = 0 := not_not.1 hl
        split at ha
        · rename_i hk
          obtain ⟨s, hs, rfl⟩ := Option.map_eq_some_iff.1 ha
          have hf : (j :: js).filter (fun j => l.locked.coord j = 0) = j :: js.filter fun j => l.locked.coord j = 0 := by
            simp [hl0]
          have hlen : b'.names.length = b.names.length + 1 + (js.filter fun j => l.locked.coord j = 0).length := by
            rw [h1]; simp; omega
          refine ⟨?_, fun i => ?_, fun hb => h3 (by simpa using hk)⟩
          · rw [h1, hf]
            simp
          · rw [h2 i, ParameterSet.set_mem hs]
            simp only [List.length_append, List.length_cons, List.length_nil]
            constructor
            · rintro ((h | h) | h)
              · exact .inl h
              · right; omega
              · right; omega
            · rintro (h | h)
              · exact .inl (.inl h)
              · by_cases e : i = b.names.length
                · exact .inl (.inr e)
                · right; omega
        · cases ha

theorem axis_fold_some (nm : String) (id : Nat) (l : Locator ℝ) (js : List (Fin 3)) : ∀ b : LocatorBuild,
    b.names.length + (js.filter fun j => l.locked.coord j = 0).length ≤ kMaxModelParams →
      ∃ b', js.foldlM (axisStep nm id l) b = some b' := by
  induction js with
  | nil => intro b _; exact ⟨b, rfl⟩
  | cons j js ih =>
    intro b hb
    rw [List.foldlM_cons]
    unfold axisStep
    by_cases hl : l.locked.coord j ≠ 0
    · rw [if_pos hl]
      exact ih b (by simpa [hl] using hb)
    · rw [if_neg hl]
      have hl0 : l.locked.coord j = 0 := not_not.1 hl
      have hf : (j :: js).filter (fun j => l.locked.coord j = 0) = j :: js.filter fun j => l.locked.coord j = 0 := by
        simp [hl0]
      rw [hf] at hb
      simp only [List.length_cons] at hb
      have hk : b.names.length < kMaxModelParams := by omega
      rw [if_pos hk]
      unfold ParameterSet.set
      rw [if_pos hk]
      exact ih _ (by simp only [List.length_append, List.length_cons, List.length_nil]; omega)

/-- The joint that locator `k` is attached to: the new joints are numbered from `n`. -/
def newJoint (locators : List (Locator ℝ)) (n k : Nat) : Nat := n + ((locators.take k).filter fun l => !l.allLocked).length

/-- The locators of the new character. -/
def newLocators (locators : List (Locator ℝ)) (n : Nat) : List (Locator ℝ) :=
  locators.mapIdx fun k l => if l.allLocked then l else { l with parent := newJoint locators n k, offset := 0 }

theorem freeAxes_append (ls : List (Locator ℝ)) (l : Locator ℝ) :
    freeAxes (ls ++ [l]) = freeAxes ls ++ l.axes.map fun j => (ls.length, j) := by
  simp [freeAxes, List.zipIdx_append]

theorem newJoint_append {ls : List (Locator ℝ)} {l : Locator ℝ} {n k : Nat} (hk : k ≤ ls.length) :
    newJoint (ls ++ [l]) n k = newJoint ls n k := by
  unfold newJoint
  rw [List.take_append_of_le_length hk]

theorem newLocators_append (ls : List (Locator ℝ)) (l : Locator ℝ) (n : Nat) :
    newLocators (ls ++ [l]) n = newLocators ls n ++
      [if l.allLocked then l else { l with parent := newJoint ls n ls.length, offset := 0 }] := by
  unfold newLocators
  rw [List.mapIdx_append]
  congr 1
  · apply List.ext_getElem?
    intro k
    rw [List.getElem?_mapIdx, List.getElem?_mapIdx]
    cases h : ls[k]? with
    | none => rfl
    | some x =>
      have := (List.getElem?_eq_some_iff.1 h).1
      simp [newJoint_append (l := l) (n := n) this.le]
  · simp [newJoint_append (l := l) (n := n) (le_refl ls.length)]

theorem mem_freeAxes {ls : List (Locator ℝ)} {k : Nat} {j : Fin 3} :
    (k, j) ∈ freeAxes ls ↔ ∃ l, ls[k]? = some l ∧ l.locked.coord j = 0 := by
  unfold freeAxes
  simp only [List.mem_flatMap, List.mem_map, Prod.mk.injEq, Prod.exists, List.mem_zipIdx_iff_getElem?]
  constructor
  · rintro ⟨l, k', h1, j', h2, rfl, rfl⟩
    exact ⟨l, h1, mem_axes.1 h2⟩
  · rintro ⟨l, h1, h2⟩
    exact ⟨l, k, h1, j, mem_axes.2 h2, rfl, rfl⟩

theorem freeAxes_nodup (ls : List (Locator ℝ)) : (freeAxes ls).Nodup := by
  induction ls using List.reverseRecOn with
  | nil => simp [freeAxes]
  | append_singleton ls l ih =>
    rw [freeAxes_append, List.nodup_append]
    refine ⟨ih, (axes_nodup l).map (fun a b h => by simpa using h), ?_⟩
    rintro ⟨k, j⟩ h1 b h2 rfl
    obtain ⟨l', h3, -⟩ := mem_freeAxes.1 h1
    have := (List.getElem?_eq_some_iff.1 h3).1
    simp at h2
    omega

/-- What the loop over the locators computes. -/
theorem locator_fold (c : Character ℝ) (pre : String) (done : List (Locator ℝ)) : ∀ b : LocatorBuild,
    done.foldlM (locatorStep pre) ⟨c.skeleton.joints, c.inverseBindPose, [], ParameterSet.empty, c.parameterTransform.name,
      c.parameterLimits, c.parameterTransform.offsets, c.parameterTransform.activeJointParams, []⟩ = some b →
    b.joints = c.skeleton.joints ++ (done.filter fun l => !l.allLocked).map
        (fun l => ⟨pre ++ l.name, some l.parent, Quat.one, l.offset⟩) ∧
      b.inverseBindPose = c.inverseBindPose ++ (done.filter fun l => !l.allLocked).map (fun _ => Affine.one) ∧
      b.triplets = ((freeAxes done).zipIdx c.parameterTransform.name.length).map
        (fun a => ⟨newJoint done c.skeleton.joints.length a.1.1 * 7 + a.1.2.val, a.2, 1⟩) ∧
      b.names = c.parameterTransform.name ++ (freeAxes done).map
        (fun kj => pre ++ (done[kj.1]?.elim "" Locator.name) ++ translationNames kj.2) ∧
      b.limits = c.parameterLimits ++ (freeAxes done).flatMap
        (fun kj => done[kj.1]?.elim [] fun l => axisLimit l (newJoint done c.skeleton.joints.length kj.1) kj.2) ∧
      b.offsets = c.parameterTransform.offsets ++ (done.filter fun l => !l.allLocked).flatMap (fun _ => List.replicate 7 0) ∧
      b.locators = newLocators done c.skeleton.joints.length ∧
      (∀ i, b.locatorSet.mem i = true ↔ c.parameterTransform.name.length ≤ i ∧ i < b.names.length) ∧
      (c.parameterTransform.name.length ≤ kMaxModelParams → b.names.length ≤ kMaxModelParams) := by
  induction done using List.reverseRecOn with
  | nil =>
    intro b h
    cases h
    refine ⟨by simp, by simp, by simp [freeAxes], by simp [freeAxes], by simp [freeAxes], by simp, rfl, fun i => ?_, fun h => h⟩
    rw [ParameterSet.empty_mem]
    simp
  | append_singleton done l ih =>
    intro b h
    rw [List.foldlM_append] at h
    cases hb : done.foldlM (locatorStep pre) ⟨c.skeleton.joints, c.inverseBindPose, [], ParameterSet.empty, c.parameterTransform.name,
      c.parameterLimits, c.parameterTransform.offsets, c.parameterTransform.activeJointParams, []⟩ with
    | none => rw [hb] at h; cases h
    | some a =>
      rw [hb] at h
      simp only [Option.bind_eq_bind, Option.bind_some, List.foldlM_cons, List.foldlM_nil, Option.bind_eq_some_iff] at h
      obtain ⟨b1, h, h0⟩ := h
      cases h0
      obtain ⟨e1, e2, e3, e4, e5, e6, e7, e8, e9⟩ := ih a hb
      have hget : ∀ kj ∈ freeAxes done, (done ++ [l])[kj.1]? = done[kj.1]? ∧ kj.1 ≤ done.length := by
        rintro ⟨k, j⟩ hm
        obtain ⟨l', h3, -⟩ := mem_freeAxes.1 hm
        have := (List.getElem?_eq_some_iff.1 h3).1
        exact ⟨List.getElem?_append_left this, this.le⟩
      have h4' : (freeAxes done).map (fun kj => pre ++ (((done ++ [l])[kj.1]?).elim "" Locator.name) ++ translationNames kj.2) =
          (freeAxes done).map (fun kj => pre ++ (done[kj.1]?.elim "" Locator.name) ++ translationNames kj.2) :=
        List.map_congr_left fun kj hm => by rw [(hget kj hm).1]
      have h5' : (freeAxes done).flatMap (fun kj => ((done ++ [l])[kj.1]?).elim [] fun l' =>
            axisLimit l' (newJoint (done ++ [l]) c.skeleton.joints.length kj.1) kj.2) =
          (freeAxes done).flatMap (fun kj => done[kj.1]?.elim [] fun l' =>
            axisLimit l' (newJoint done c.skeleton.joints.length kj.1) kj.2) := by
        rw [List.flatMap_def, List.flatMap_def]
        congr 1
        exact List.map_congr_left fun kj hm => by rw [(hget kj hm).1, newJoint_append (hget kj hm).2]
      have h3' : ∀ n, ((freeAxes done).zipIdx n).map
            (fun a => (⟨newJoint (done ++ [l]) c.skeleton.joints.length a.1.1 * 7 + a.1.2.val, a.2, 1⟩ : Triplet ℝ)) =
          ((freeAxes done).zipIdx n).map
            (fun a => ⟨newJoint done c.skeleton.joints.length a.1.1 * 7 + a.1.2.val, a.2, 1⟩) := fun n =>
        List.map_congr_left fun a hm => by
          have : a.1 ∈ freeAxes done := by
            obtain ⟨x, i⟩ := a
            exact (List.mem_zipIdx hm).2.2 ▸ List.getElem_mem _
          rw [newJoint_append (hget _ this).2]
      unfold locatorStep at h
      by_cases hl : l.allLocked = true
      · rw [if_pos hl] at h
        cases h
        have hax := axes_allLocked.1 hl
        have hfree : freeAxes (done ++ [l]) = freeAxes done := by rw [freeAxes_append, hax]; simp
        have hfil : (done ++ [l]).filter (fun l => !l.allLocked) = done.filter fun l => !l.allLocked := by simp [hl]
        refine ⟨by rw [hfil]; exact e1, by rw [hfil]; exact e2, by rw [hfree, h3']; exact e3, by rw [hfree, h4']; exact e4,
          by rw [hfree, h5']; exact e5, by rw [hfil]; exact e6, ?_, e8, e9⟩
        rw [newLocators_append, if_pos hl]
        show a.locators ++ [l] = _
        rw [e7]
      · rw [if_neg hl] at h
        obtain ⟨b2, h2, rfl⟩ := Option.map_eq_some_iff.1 h
        obtain ⟨k1, k2, k3⟩ := axis_fold _ _ _ _ _ _ h2
        have hfil : (done ++ [l]).filter (fun l => !l.allLocked) = (done.filter fun l => !l.allLocked) ++ [l] := by simp [hl]
        have hnj : a.joints.length = newJoint done c.skeleton.joints.length done.length := by
          rw [e1]; simp [newJoint]
        have hlast : (done ++ [l])[done.length]? = some l := by simp
        have hnl : a.names.length = c.parameterTransform.name.length + (freeAxes done).length := by rw [e4]; simp
        change b2 = { a with
          joints := a.joints ++ [⟨pre ++ l.name, some l.parent, Quat.one, l.offset⟩]
          inverseBindPose := a.inverseBindPose ++ [Affine.one]
          triplets := a.triplets ++ (l.axes.zipIdx a.names.length).map fun ji => ⟨a.joints.length * 7 + ji.1.val, ji.2, 1⟩
          locatorSet := b2.locatorSet
          names := a.names ++ l.axes.map fun j => pre ++ l.name ++ translationNames j
          limits := a.limits ++ l.axes.flatMap (axisLimit l a.joints.length) } at k1
        refine ⟨?_, ?_, ?_, ?_, ?_, ?_, ?_, ?_, ?_⟩
        · rw [hfil, k1]; simp [attachStep, e1]
        · rw [hfil, k1]; simp [attachStep, e2]
        · rw [freeAxes_append, List.zipIdx_append, List.map_append, h3', k1]
          show a.triplets ++ _ = _
          rw [e3, ← hnl, List.zipIdx_map, List.map_map]
          congr 1
          refine List.map_congr_left fun ji _ => ?_
          simp only [Function.comp, Prod.map]
          rw [newJoint_append le_rfl, ← hnj]; rfl
        · rw [freeAxes_append, List.map_append, h4', k1]
          show a.names ++ _ = _
          rw [← List.append_assoc, ← e4, List.map_map]
          congr 1
          refine List.map_congr_left fun j _ => ?_
          simp only [Function.comp, hlast, Option.elim]
        · rw [freeAxes_append, List.flatMap_append, h5', k1]
          show a.limits ++ _ = _
          rw [← List.append_assoc, ← e5, List.flatMap_map]
          congr 1
          simp only [hlast, Option.elim, newJoint_append le_rfl, ← hnj]
        · rw [hfil, k1]
          show a.offsets ++ _ = _
          rw [e6]; simp
        · rw [newLocators_append, if_neg hl, ← hnj, k1]
          show a.locators ++ _ = _
          rw [e7]
        · intro i
          show b2.locatorSet.mem i = true ↔ _ ∧ i < b2.names.length
          rw [k2 i]
          have hlt : a.names.length ≤ b2.names.length := by rw [k1]; simp
          change a.locatorSet.mem i = true ∨ a.names.length ≤ i ∧ i < b2.names.length ↔ _
          rw [e8 i]
          omega
        · intro h; exact k3 (e9 h)

end Momentum
