import Verif.Spec.Skeleton

namespace Momentum.Skeleton
variable {K : Type*} {s : Skeleton K}

theorem construct_valid {js : List (Joint K)} {s : Skeleton K} (h : construct js = some s) :
    s.Valid ∧ s.joints = js := by
  unfold construct at h
  split at h
  case isTrue hall =>
    simp only [Option.some.injEq] at h
    subst h
    refine ⟨?_, rfl⟩
    intro i jt p hi hp
    rw [List.all_eq_true] at hall
    have hlt : i < js.length := by
      by_contra hc
      simp [List.getElem?_eq_none (not_lt.mp hc)] at hi
    have := hall i (List.mem_range.mpr hlt)
    simp only at hi
    rw [hi] at this
    simpa [hp] using this
  case isFalse => simp at h

theorem construct_of_valid {s : Skeleton K} (h : s.Valid) : construct s.joints = some s := by
  unfold construct
  rw [if_pos]
  rw [List.all_eq_true]
  intro i _
  cases hi : s.joints[i]? with
  | none => simp
  | some jt =>
    cases hp : jt.parent with
    | none => simp [hp]
    | some p => simpa [hp] using h i jt p hi hp

theorem parentOf_eq (j : Nat) (h : j < s.joints.length) :
    s.parentOf j = some (s.joints[j].parent) := by
  simp [parentOf, h]

theorem parentRel_lt (hv : s.Valid) {j p : Nat} (h : s.ParentRel j p) : p < j := by
  obtain ⟨jt, h1, h2⟩ := h
  exact hv _ _ _ h1 h2

theorem parentRel_len {j p : Nat} (h : s.ParentRel j p) : j < s.joints.length := by
  obtain ⟨jt, h1, _⟩ := h
  by_contra hc
  simp [List.getElem?_eq_none (not_lt.mp hc)] at h1

theorem parentRel_iff (j p : Nat) (h : j < s.joints.length) :
    s.ParentRel j p ↔ s.joints[j].parent = some p := by
  constructor
  · rintro ⟨jt, h1, h2⟩
    rw [List.getElem?_eq_getElem h] at h1
    cases h1; exact h2
  · intro hp
    exact ⟨_, List.getElem?_eq_getElem h, hp⟩

theorem parentRel_unique {j p q : Nat} (h1 : s.ParentRel j p) (h2 : s.ParentRel j q) : p = q := by
  obtain ⟨a, ha, ha'⟩ := h1
  obtain ⟨b, hb, hb'⟩ := h2
  rw [ha] at hb; cases hb
  rw [ha'] at hb'; cases hb'; rfl

theorem anc_le (hv : s.Valid) {j a : Nat} (h : s.Anc j a) : a ≤ j := by
  induction h with
  | refl => exact le_rfl
  | tail _ h ih => exact (parentRel_lt hv h).le.trans ih

theorem properAnc_lt (hv : s.Valid) {j a : Nat} (h : s.ProperAnc j a) : a < j := by
  induction h with
  | single h => exact parentRel_lt hv h
  | tail _ h ih => exact (parentRel_lt hv h).trans ih

theorem anc_iff_root {j a : Nat} (h : j < s.joints.length) (hp : s.joints[j].parent = none) :
    s.Anc j a ↔ a = j := by
  constructor
  · intro ha
    rcases Relation.ReflTransGen.cases_head ha with h1 | ⟨c, hc, _⟩
    · exact h1.symm
    · rw [parentRel_iff j c h, hp] at hc; cases hc
  · rintro rfl; exact Relation.ReflTransGen.refl

theorem anc_iff_parent {j a p : Nat} (h : s.ParentRel j p) :
    s.Anc j a ↔ a = j ∨ s.Anc p a := by
  constructor
  · intro ha
    rcases Relation.ReflTransGen.cases_head ha with h1 | ⟨c, hc, hca⟩
    · exact Or.inl h1.symm
    · rw [parentRel_unique h hc]; exact Or.inr hca
  · rintro (rfl | ha)
    · exact Relation.ReflTransGen.refl
    · exact Relation.ReflTransGen.head h ha

theorem properAnc_iff_parent {j a p : Nat} (h : s.ParentRel j p) :
    s.ProperAnc j a ↔ s.Anc p a := by
  constructor
  · intro ha
    obtain ⟨c, hc, hca⟩ := Relation.TransGen.head'_iff.mp ha
    rw [parentRel_unique h hc]; exact hca
  · intro ha
    exact Relation.TransGen.head'_iff.mpr ⟨p, h, ha⟩

/-- Case split: a joint in range is a root or has a parent. -/
theorem root_or_parent (j : Nat) (h : j < s.joints.length) :
    s.joints[j].parent = none ∨ ∃ p, s.ParentRel j p ∧ s.joints[j].parent = some p := by
  cases hp : s.joints[j].parent with
  | none => exact Or.inl rfl
  | some p => exact Or.inr ⟨p, (parentRel_iff j p h).mpr hp, rfl⟩

theorem isAncestorLoop_spec (hv : s.Valid) (a : Nat) : ∀ j, j < s.joints.length →
    ∃ b, isAncestorLoop s a (some j) = some b ∧ (b = true ↔ s.Anc j a) := by
  intro j
  induction j using Nat.strong_induction_on with
  | _ j ih =>
    intro hj
    rw [isAncestorLoop]
    by_cases hja : j = a
    · subst hja; simp; exact Relation.ReflTransGen.refl
    · have hja' : ¬ a = j := fun h => hja h.symm
      simp only [hja, if_false]
      rw [parentOf_eq j hj]
      simp only [Option.bind_eq_bind, Option.bind_some]
      rcases root_or_parent j hj with hp | ⟨p, hr, hp⟩
      · rw [hp, isAncestorLoop]
        refine ⟨false, rfl, ?_⟩
        rw [anc_iff_root hj hp]
        simp [hja']
      · rw [hp]
        have hlt := parentRel_lt hv hr
        obtain ⟨b, h1, h2⟩ := ih p hlt (hlt.trans hj)
        refine ⟨b, h1, ?_⟩
        rw [h2, anc_iff_parent hr]
        simp [hja']

/-- Invariant of the walk in `commonAncestor`: common ancestors are preserved. -/
theorem commonAncestorLoop_spec (hv : s.Valid) : ∀ n a b, a + b ≤ n →
    a < s.joints.length → b < s.joints.length →
    ∃ r, commonAncestorLoop s (some a) (some b) = some r ∧
      ((∃ c, s.Anc a c ∧ s.Anc b c) →
        ∃ c, r = some c ∧ s.Anc a c ∧ s.Anc b c ∧ ∀ d, s.Anc a d → s.Anc b d → s.Anc c d) ∧
      (∀ c, r = some c → s.Anc a c) := by
  intro n
  induction n with
  | zero =>
    intro a b hab ha hb
    have : a = 0 := by omega
    have : b = 0 := by omega
    subst_vars
    rw [commonAncestorLoop]
    refine ⟨some 0, by simp, fun _ => ⟨0, rfl, .refl, .refl, fun d h _ => h⟩, ?_⟩
    intro c hc; cases hc; exact .refl
  | succ n ih =>
    intro a b hab ha hb
    rw [commonAncestorLoop]
    by_cases he : a = b
    · subst he
      refine ⟨some a, by simp, fun _ => ⟨a, rfl, .refl, .refl, fun d h _ => h⟩, ?_⟩
      intro c hc; cases hc; exact .refl
    simp only [he, if_false]
    by_cases hlt : a < b
    · simp only [hlt, if_true]
      rw [parentOf_eq b hb]
      simp only [Option.bind_eq_bind, Option.bind_some]
      rcases root_or_parent b hb with hp | ⟨p, hr, hp⟩
      · rw [hp, commonAncestorLoop]
        refine ⟨some a, rfl, ?_, ?_⟩
        · rintro ⟨c, h1, h2⟩
          rw [anc_iff_root hb hp] at h2
          subst h2
          have := anc_le hv h1
          omega
        · intro c hc; cases hc; exact .refl
        · rintro _ _ _ ⟨⟩
      · rw [hp]
        have hpb := parentRel_lt hv hr
        obtain ⟨r, h1, h2, h3⟩ := ih a p (by omega) ha (hpb.trans hb)
        have hiff : ∀ c, s.Anc a c → (s.Anc b c ↔ s.Anc p c) := by
          intro c hc
          rw [anc_iff_parent hr]
          have := anc_le hv hc
          constructor
          · rintro (h | h)
            · omega
            · exact h
          · exact Or.inr
        refine ⟨r, h1, ?_, h3⟩
        rintro ⟨c, hc1, hc2⟩
        obtain ⟨c', e, g1, g2, g3⟩ := h2 ⟨c, hc1, (hiff c hc1).mp hc2⟩
        exact ⟨c', e, g1, (hiff c' g1).mpr g2, fun d hd1 hd2 => g3 d hd1 ((hiff d hd1).mp hd2)⟩
    · simp only [hlt, if_false]
      rw [parentOf_eq a ha]
      simp only [Option.bind_eq_bind, Option.bind_some]
      rcases root_or_parent a ha with hp | ⟨p, hr, hp⟩
      · rw [hp, commonAncestorLoop]
        · refine ⟨none, rfl, ?_, by simp⟩
          rintro ⟨c, h1, h2⟩
          rw [anc_iff_root ha hp] at h1
          subst h1
          have := anc_le hv h2
          omega
        · rintro _ _ ⟨⟩
      · rw [hp]
        have hpa := parentRel_lt hv hr
        obtain ⟨r, h1, h2, h3⟩ := ih p b (by omega) (hpa.trans ha) hb
        have hiff : ∀ c, s.Anc b c → (s.Anc a c ↔ s.Anc p c) := by
          intro c hc
          rw [anc_iff_parent hr]
          have := anc_le hv hc
          constructor
          · rintro (h | h)
            · omega
            · exact h
          · exact Or.inr
        refine ⟨r, h1, ?_, fun c hc => (anc_iff_parent hr).mpr (Or.inr (h3 c hc))⟩
        rintro ⟨c, hc1, hc2⟩
        obtain ⟨c', e, g1, g2, g3⟩ := h2 ⟨c, (hiff c hc2).mp hc1, hc2⟩
        exact ⟨c', e, (hiff c' g2).mpr g1, g2, fun d hd1 hd2 => g3 d ((hiff d hd2).mp hd1) hd2⟩


/-- Which joints `getChildrenJoints` should return. -/
def ChildSpec (s : Skeleton K) (recursive : Bool) (j x : Nat) : Prop :=
  if recursive then s.ProperAnc x j else s.ParentRel x j

def goodDist (recursive : Bool) (d : Int) : Prop :=
  (recursive ∧ d ≥ 0) ∨ (¬ recursive ∧ d = 0)

/-- Loop invariant of `getChildrenJoints` after all joints below `i` have been visited. -/
structure ChildInv (s : Skeleton K) (recursive : Bool) (j i : Nat) (st : List Int × List Nat) :
    Prop where
  len : st.1.length = s.joints.length
  below : ∀ x d, x < i → st.1[x]? = some d →
    (goodDist recursive d ↔ x = j ∨ (recursive = true ∧ s.ProperAnc x j))
  above : ∀ x d, i ≤ x → st.1[x]? = some d → d = -1
  sorted : st.2.Pairwise (· < ·)
  mem : ∀ x, x ∈ st.2 ↔ x < i ∧ ChildSpec s recursive j x

theorem childrenStep_inv (hv : s.Valid) {recursive : Bool} {j i : Nat} {st : List Int × List Nat}
    (hi : i < s.joints.length) (hji : j < i) (h : ChildInv s recursive j i st) :
    ∃ st', childrenStep s recursive st i = some st' ∧ ChildInv s recursive j (i + 1) st' := by
  obtain ⟨dist, ch⟩ := st
  obtain ⟨len, below, above, sorted, mem⟩ := h
  simp only at len below above sorted mem
  have hil : i < dist.length := by omega
  have notGoodNeg : ¬ goodDist recursive (-1) := by simp [goodDist]
  -- common continuation when the joint is not a child
  have skip : ¬ ChildSpec s recursive j i → ¬ s.ProperAnc i j ∨ recursive = false →
      ChildInv s recursive j (i + 1) (dist, ch) := by
    intro hn hn2
    refine ⟨len, ?_, ?_, sorted, ?_⟩
    · intro x d hx hd
      rcases Nat.lt_succ_iff_lt_or_eq.mp hx with hx | hx
      · exact below x d hx hd
      · subst hx
        have := above x d le_rfl hd
        subst this
        constructor
        · intro hc; exact absurd hc notGoodNeg
        · rintro (hc | ⟨h1, h2⟩)
          · omega
          · rcases hn2 with hn2 | hn2
            · exact absurd h2 hn2
            · simp [hn2] at h1
    · intro x d hx hd; exact above x d (by omega) hd
    · intro x
      rw [mem x]
      constructor
      · rintro ⟨h1, h2⟩; exact ⟨by omega, h2⟩
      · rintro ⟨h1, h2⟩
        refine ⟨?_, h2⟩
        rcases Nat.lt_succ_iff_lt_or_eq.mp h1 with hx | hx
        · exact hx
        · subst hx; exact absurd h2 hn
  unfold childrenStep
  rw [parentOf_eq i hi]
  simp only [Option.bind_some]
  rcases root_or_parent i hi with hp | ⟨p, hr, hp⟩
  · rw [hp]
    simp only [Option.bind_some]
    have hng := notGoodNeg
    unfold goodDist at hng
    rw [if_neg hng]
    refine ⟨_, rfl, skip ?_ (Or.inl ?_)⟩
    · unfold ChildSpec
      split
      · intro hc
        obtain ⟨c, hc, _⟩ := Relation.TransGen.head'_iff.mp hc
        rw [parentRel_iff i c hi, hp] at hc; cases hc
      · intro hc
        rw [parentRel_iff i j hi, hp] at hc; cases hc
    · intro hc
      obtain ⟨c, hc, _⟩ := Relation.TransGen.head'_iff.mp hc
      rw [parentRel_iff i c hi, hp] at hc; cases hc
  · rw [hp]
    have hpi := parentRel_lt hv hr
    have hpl : p < dist.length := by omega
    simp only [List.getElem?_eq_getElem hpl, Option.bind_some]
    have hb := below p dist[p] hpi (List.getElem?_eq_getElem hpl)
    have hspec : goodDist recursive dist[p] ↔ ChildSpec s recursive j i := by
      rw [hb]
      unfold ChildSpec
      cases recursive with
      | false =>
        simp only [Bool.false_eq_true, false_and, or_false, if_false]
        constructor
        · rintro rfl; exact hr
        · intro h; exact parentRel_unique hr h
      | true =>
        simp only [true_and, if_true]
        rw [properAnc_iff_parent hr]
        constructor
        · rintro (rfl | h)
          · exact .refl
          · exact h.to_reflTransGen
        · intro h
          rcases Relation.reflTransGen_iff_eq_or_transGen.mp h with h | h
          · exact Or.inl h.symm
          · exact Or.inr h
    by_cases hg : goodDist recursive dist[p]
    · have hg' := hg
      unfold goodDist at hg'
      rw [if_pos hg']
      have hsp := hspec.mp hg
      refine ⟨_, rfl, ?_, ?_, ?_, ?_, ?_⟩
      · simp [len]
      · intro x d hx hd
        simp only at hd
        rcases Nat.lt_succ_iff_lt_or_eq.mp hx with hx | hx
        · rw [List.getElem?_set_ne (by omega)] at hd
          exact below x d hx hd
        · subst hx
          rw [List.getElem?_set_self hil] at hd
          cases hd
          unfold goodDist at hg ⊢
          unfold ChildSpec at hsp
          cases recursive with
          | false =>
            simp at hg ⊢
            rw [hg]; omega
          | true =>
            simp at hg hsp ⊢
            constructor
            · intro _; exact Or.inr hsp
            · intro _; omega
      · intro x d hx hd
        simp only at hd
        rw [List.getElem?_set_ne (by omega)] at hd
        exact above x d (by omega) hd
      · simp only
        rw [List.pairwise_append]
        refine ⟨sorted, by simp, ?_⟩
        intro a ha b hb
        simp at hb
        subst hb
        exact ((mem a).mp ha).1
      · intro x
        simp only [List.mem_append, List.mem_singleton]
        rw [mem x]
        constructor
        · rintro (⟨h1, h2⟩ | rfl)
          · exact ⟨by omega, h2⟩
          · exact ⟨by omega, hsp⟩
        · rintro ⟨h1, h2⟩
          rcases Nat.lt_succ_iff_lt_or_eq.mp h1 with hx | hx
          · exact Or.inl ⟨hx, h2⟩
          · exact Or.inr hx
    · have hg' := hg
      unfold goodDist at hg'
      rw [if_neg hg']
      refine ⟨_, rfl, skip (fun h => hg (hspec.mpr h)) ?_⟩
      cases hrec : recursive with
      | false => exact Or.inr rfl
      | true =>
        subst hrec
        left
        intro h
        apply hg
        rw [hspec]
        simpa [ChildSpec] using h

theorem children_fold (hv : s.Valid) {recursive : Bool} {j : Nat} : ∀ k i st,
    i + k = s.joints.length → j < i → ChildInv s recursive j i st →
    ∃ st', (List.range' i k).foldlM (childrenStep s recursive) st = some st' ∧
      ChildInv s recursive j s.joints.length st' := by
  intro k
  induction k with
  | zero =>
    intro i st hik hji h
    simp at hik
    subst hik
    exact ⟨st, rfl, h⟩
  | succ k ih =>
    intro i st hik hji h
    obtain ⟨st1, h1, h2⟩ := childrenStep_inv hv (by omega) hji h
    obtain ⟨st2, h3, h4⟩ := ih (i + 1) st1 (by omega) (by omega) h2
    refine ⟨st2, ?_, h4⟩
    rw [List.range'_succ, List.foldlM_cons, h1]
    exact h3

theorem getChildrenJoints_spec (hv : s.Valid) (recursive : Bool) (j : Nat)
    (hj : j < s.joints.length) :
    ∃ l, getChildrenJoints s j recursive = some l ∧ l.Pairwise (· < ·) ∧
      ∀ x, x ∈ l ↔ x < s.joints.length ∧ ChildSpec s recursive j x := by
  unfold getChildrenJoints
  rw [if_neg (by omega)]
  have h0 : ChildInv s recursive j (j + 1)
      ((List.replicate s.joints.length (-1 : Int)).set j 0, []) := by
    refine ⟨by simp, ?_, ?_, by simp, ?_⟩
    · intro x d hx hd
      simp only at hd
      by_cases hxj : x = j
      · subst hxj
        rw [List.getElem?_set_self (by simpa using hj)] at hd
        cases hd
        simp [goodDist]
      · rw [List.getElem?_set_ne (by omega), List.getElem?_replicate_of_lt (by omega)] at hd
        cases hd
        constructor
        · intro h; simp [goodDist] at h
        · rintro (h | ⟨_, h⟩)
          · exact absurd h hxj
          · have := properAnc_lt hv h; omega
    · intro x d hx hd
      simp only at hd
      rw [List.getElem?_set_ne (by omega)] at hd
      have := List.mem_of_getElem? hd
      exact (List.mem_replicate.mp this).2
    · intro x
      simp only [List.not_mem_nil, false_iff, not_and]
      intro hx hc
      unfold ChildSpec at hc
      split at hc
      · have := properAnc_lt hv hc; omega
      · have := parentRel_lt hv hc; omega
  obtain ⟨st, h1, h2⟩ := children_fold hv (s.joints.length - (j + 1)) (j + 1) _ (by omega)
    (by omega) h0
  refine ⟨st.2, by rw [h1]; rfl, h2.sorted, h2.mem⟩

end Momentum.Skeleton
