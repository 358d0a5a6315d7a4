import Verif.Model.TransformPose
import Verif.Spec.TransformPose
import Verif.Props.ParameterTransform2
import Verif.Lemmas.SkeletonState

namespace Momentum

theorem ParameterSet.set_mem {s r : ParameterSet} {k : Nat} (h : s.set k true = some r) (i : Nat) :
    r.mem i = true ↔ s.mem i = true ∨ i = k := by
  unfold ParameterSet.set at h
  split at h
  · rename_i hk
    cases h
    unfold ParameterSet.mem
    by_cases hi : i < kMaxModelParams
    · rw [dif_pos hi, dif_pos hi]
      by_cases e : i = k <;> simp [e]
    · rw [dif_neg hi, dif_neg hi]
      constructor
      · intro h; cases h
      · rintro (h | h)
        · cases h
        · omega
  · cases h

theorem ParameterSet.empty_mem (i : Nat) : ParameterSet.empty.mem i = false := by
  unfold ParameterSet.mem ParameterSet.empty; split <;> rfl

theorem rigid_fold (l : List (String × Nat)) (acc r : ParameterSet) (h : l.foldlM rigidStep acc = some r) (i : Nat) :
    r.mem i = true ↔ acc.mem i = true ∨ ∃ nm, (nm, i) ∈ l ∧ isRigidName nm = true := by
  induction l generalizing acc with
  | nil => cases h; simp
  | cons a l ih =>
    rw [List.foldlM_cons] at h
    cases ha : rigidStep acc a with
    | none => rw [ha] at h; cases h
    | some acc' =>
      rw [ha] at h
      rw [ih acc' h]
      unfold rigidStep at ha
      split at ha
      · rename_i hr
        rw [ParameterSet.set_mem ha]
        constructor
        · rintro ((h | rfl) | ⟨nm, h1, h2⟩)
          · exact .inl h
          · exact .inr ⟨a.1, by simp, hr⟩
          · exact .inr ⟨nm, List.mem_cons_of_mem _ h1, h2⟩
        · rintro (h | ⟨nm, h1, h2⟩)
          · exact .inl (.inl h)
          · rcases List.mem_cons.1 h1 with h1 | h1
            · exact .inl (.inr (by rw [← h1]))
            · exact .inr ⟨nm, h1, h2⟩
      · rename_i hr
        cases ha
        constructor
        · rintro (h | ⟨nm, h1, h2⟩)
          · exact .inl h
          · exact .inr ⟨nm, List.mem_cons_of_mem _ h1, h2⟩
        · rintro (h | ⟨nm, h1, h2⟩)
          · exact .inl h
          · rcases List.mem_cons.1 h1 with h1 | h1
            · rw [← h1] at hr; exact absurd h2 hr
            · exact .inr ⟨nm, h1, h2⟩

theorem isRigidName_iff (nm : String) :
    isRigidName nm = true ↔ "root_".toList <:+: nm.toList ∨ "hips".toList <:+: nm.toList := by
  simp [isRigidName, containsText]

theorem getRigid_mem {names : List String} {r : ParameterSet} (h : getRigidParameters names = some r) (i : Nat) :
    r.mem i = true ↔ ∃ nm, names[i]? = some nm ∧ ("root_".toList <:+: nm.toList ∨ "hips".toList <:+: nm.toList) := by
  rw [rigid_fold _ _ _ h i, ParameterSet.empty_mem]
  simp only [Bool.false_eq_true, false_or, isRigidName_iff]
  constructor
  · rintro ⟨nm, h1, h2⟩
    exact ⟨nm, by simpa [List.mem_zipIdx_iff_getElem?] using h1, h2⟩
  · rintro ⟨nm, h1, h2⟩
    exact ⟨nm, by simpa [List.mem_zipIdx_iff_getElem?] using h1, h2⟩

theorem foldlM_of_forall {α β : Type} (f : β → α → Option β) (l : List α) (h : ∀ b, ∀ a ∈ l, ∃ c, f b a = some c) (b : β) :
    ∃ c, l.foldlM f b = some c := by
  induction l generalizing b with
  | nil => exact ⟨b, rfl⟩
  | cons a l ih =>
    obtain ⟨c, hc⟩ := h b a (by simp)
    rw [List.foldlM_cons, hc]
    exact ih (fun b a ha => h b a (List.mem_cons_of_mem _ ha)) c

theorem getRigid_some {names : List String} (h : names.length ≤ kMaxModelParams) : ∃ r, getRigidParameters names = some r := by
  refine foldlM_of_forall _ _ (fun b a ha => ?_) _
  unfold rigidStep
  split
  · have := List.mem_zipIdx' ha
    unfold ParameterSet.set
    rw [if_pos (by omega)]; exact ⟨_, rfl⟩
  · exact ⟨_, rfl⟩

theorem activeJoints_fold {n : Nat} {ps : ParameterSet} (l : List (Triplet ℝ)) (acc r : List Bool) (hn : acc.length = n)
    (h : l.foldlM (activeJointStep n ps) acc = some r) : r.length = n ∧
      ∀ j, r.getD j false = true ↔ acc.getD j false = true ∨ ∃ e ∈ l, ps.mem e.col = true ∧ e.row / 7 = j := by
  induction l generalizing acc with
  | nil => cases h; exact ⟨hn, fun j => by simp⟩
  | cons e l ih =>
    rw [List.foldlM_cons] at h
    cases ha : activeJointStep n ps acc e with
    | none => rw [ha] at h; cases h
    | some acc' =>
      rw [ha] at h
      unfold activeJointStep at ha
      cases ht : ps.test e.col with
      | none => rw [ht] at ha; cases ha
      | some b =>
        obtain ⟨-, hb⟩ := test_eq ht
        rw [ht, Option.bind_some] at ha
        by_cases hb0 : b = false
        · rw [if_pos hb0] at ha
          cases ha
          obtain ⟨h1, h2⟩ := ih acc hn h
          refine ⟨h1, fun j => ?_⟩
          rw [h2 j]
          have : ¬ ps.mem e.col = true := by rw [← hb, hb0]; simp
          simp [this]
        · rw [if_neg hb0] at ha
          by_cases hr : e.row / 7 < n
          · rw [if_pos hr] at ha
            cases ha
            obtain ⟨h1, h2⟩ := ih (acc.set (e.row / 7) true) (by simpa using hn) h
            refine ⟨h1, fun j => ?_⟩
            rw [h2 j]
            have hm : ps.mem e.col = true := by rw [← hb]; simpa using hb0
            have hs : (acc.set (e.row / 7) true).getD j false = true ↔ acc.getD j false = true ∨ e.row / 7 = j := by
              simp only [List.getD_eq_getElem?_getD, List.getElem?_set]
              by_cases ej : e.row / 7 = j
              · subst ej; simp [hn, hr]
              · simp [ej]
            rw [hs]
            simp [hm, or_assoc]
          · rw [if_neg hr] at ha; cases ha

theorem numRigid_spec (l : List Bool) : numRigidJoints l ≤ l.length ∧ (∀ j, l.getD j false = true → j < numRigidJoints l) ∧
    (0 < numRigidJoints l → l.getD (numRigidJoints l - 1) false = true) := by
  induction l using List.reverseRecOn with
  | nil => simp [numRigidJoints]
  | append_singleton l b ih =>
    obtain ⟨h1, h2, h3⟩ := ih
    have e : numRigidJoints (l ++ [b]) = if b then l.length + 1 else numRigidJoints l := by
      simp [numRigidJoints, List.zipIdx_append, List.foldl_append]
    rw [e]
    have hl : ∀ j, j < l.length → (l ++ [b]).getD j false = l.getD j false := fun j hj => by
      simp [List.getD_eq_getElem?_getD, List.getElem?_append_left hj]
    have hr : (l ++ [b]).getD l.length false = b := by simp
    cases b with
    | true =>
      refine ⟨by simp, fun j hj => ?_, fun _ => by simp⟩
      by_contra hc
      simp only [if_true, not_lt] at hc
      rw [List.getD_eq_default _ _ (by simpa using hc)] at hj
      cases hj
    | false =>
      refine ⟨by simp; omega, fun j hj => ?_, fun h => ?_⟩
      · by_cases hj2 : j < l.length
        · rw [hl j hj2] at hj; exact h2 j hj
        · by_cases hj3 : j = l.length
          · subst hj3; rw [hr] at hj; cases hj
          · rw [List.getD_eq_default _ _ (by simp; omega)] at hj; cases hj
      · have h' : 0 < numRigidJoints l := h
        show (l ++ [false]).getD (numRigidJoints l - 1) false = true
        rw [hl _ (by omega)]
        exact h3 h'

theorem activeParams_fold {cols : Nat} {act : List Bool} (l : List (Triplet ℝ)) (acc r : ParameterSet)
    (h : l.foldlM (activeParamStep cols act) acc = some r) (i : Nat) :
    r.mem i = true ↔ acc.mem i = true ∨ ∃ e ∈ l, e.col = i ∧ act.getD (e.row / 7) false = true := by
  induction l generalizing acc with
  | nil => cases h; simp
  | cons e l ih =>
    rw [List.foldlM_cons] at h
    cases ha : activeParamStep cols act acc e with
    | none => rw [ha] at h; cases h
    | some acc' =>
      rw [ha] at h
      rw [ih acc' h]
      unfold activeParamStep at ha
      split at ha
      · cases hb : act[e.row / 7]? with
        | none => rw [hb] at ha; cases ha
        | some b =>
          have hg : act.getD (e.row / 7) false = b := by simp [List.getD_eq_getElem?_getD, hb]
          rw [hb, Option.bind_some] at ha
          cases b with
          | true =>
            rw [if_pos rfl] at ha
            rw [ParameterSet.set_mem ha]
            simp only [List.mem_cons, exists_eq_or_imp, hg, and_true]
            rw [or_assoc, eq_comm (a := i)]
          | false =>
            simp only [Bool.false_eq_true, if_false, Option.some.injEq] at ha
            subst ha
            simp only [List.mem_cons, exists_eq_or_imp, hg, Bool.false_eq_true, and_false, false_or]
      · cases ha

end Momentum
