import Verif.Spec.Character
import Verif.Lemmas.Skeleton
import Verif.Lemmas.ListOption
import Verif.Lemmas.ParameterTransform3

/-! # Lemmas for `removeJoints` -/

namespace Momentum
open Classical Skeleton

section rank
variable {P Q : Nat → Prop}

theorem keptBelow_succ (n : Nat) :
    keptBelow P (n + 1) = if P n then keptBelow P n ++ [n] else keptBelow P n := by
  unfold keptBelow
  rw [List.range_succ, List.filter_append]
  by_cases h : P n <;> simp [h]

theorem mem_keptBelow {n i : Nat} : i ∈ keptBelow P n ↔ i < n ∧ P i := by
  simp [keptBelow]

theorem rankIn_succ (n : Nat) : rankIn P (n + 1) = rankIn P n + if P n then 1 else 0 := by
  unfold rankIn
  rw [keptBelow_succ]
  by_cases h : P n <;> simp [h]

theorem rankIn_mono {i j : Nat} (h : i ≤ j) : rankIn P i ≤ rankIn P j := by
  induction j, h using Nat.le_induction with
  | base => rfl
  | succ j _ ih => rw [rankIn_succ]; omega

theorem rankIn_lt {i j : Nat} (h : i < j) (hi : P i) : rankIn P i < rankIn P j := by
  have := rankIn_mono (P := P) (Nat.succ_le_of_lt h)
  rw [Nat.succ_eq_add_one, rankIn_succ, if_pos hi] at this
  omega

theorem rankIn_inj {i j : Nat} (hi : P i) (hj : P j) (h : rankIn P i = rankIn P j) : i = j := by
  rcases Nat.lt_trichotomy i j with hl | hl | hl
  · have := rankIn_lt hl hi; omega
  · exact hl
  · have := rankIn_lt hl hj; omega

theorem keptBelow_rank {i n : Nat} (hi : i < n) (h : P i) : (keptBelow P n)[rankIn P i]? = some i := by
  induction n with
  | zero => omega
  | succ n ih =>
    rw [keptBelow_succ]
    by_cases hn : i = n
    · subst hn
      rw [if_pos h]
      simp [rankIn]
    · have hlt : i < n := by omega
      have := ih hlt
      split_ifs
      · rw [List.getElem?_append_left]
        · exact this
        · exact (List.getElem?_eq_some_iff.1 this).1
      · exact this

theorem rank_of_keptBelow {k i n : Nat} (h : (keptBelow P n)[k]? = some i) :
    i < n ∧ P i ∧ k = rankIn P i := by
  have hm : i ∈ keptBelow P n := List.mem_of_getElem? h
  obtain ⟨h1, h2⟩ := mem_keptBelow.1 hm
  refine ⟨h1, h2, ?_⟩
  have h3 := keptBelow_rank h1 h2
  have hnd : (keptBelow P n).Nodup := List.Nodup.filter _ List.nodup_range
  obtain ⟨ha, hb⟩ := List.getElem?_eq_some_iff.1 h
  obtain ⟨hc, hd⟩ := List.getElem?_eq_some_iff.1 h3
  exact (List.Nodup.getElem_inj_iff hnd).1 (hb.trans hd.symm)

theorem keptBelow_length (n : Nat) : (keptBelow P n).length = rankIn P n := rfl

/-- The mapping array: kept positions carry their rank. -/
noncomputable def rankMap (P : Nat → Prop) (n : Nat) : List (Option Nat) :=
  (List.range n).map fun i => if P i then some (rankIn P i) else none

theorem rankMap_get {n i : Nat} (h : i < n) :
    (rankMap P n)[i]? = some (if P i then some (rankIn P i) else none) := by
  simp [rankMap, h]

theorem rankMap_length {n : Nat} : (rankMap P n).length = n := by simp [rankMap]

theorem rankMap_some {n i : Nat} {m : Option Nat} (h : (rankMap P n)[i]? = some m) :
    i < n ∧ m = if P i then some (rankIn P i) else none := by
  have hl : i < n := by
    have := (List.getElem?_eq_some_iff.1 h).1
    rwa [rankMap_length] at this
  rw [rankMap_get hl] at h
  exact ⟨hl, (Option.some.inj h).symm⟩

/-- Writing position `i` of the array that is correct below `i`. -/
theorem rankMap_set {n i : Nat} (h : i < n) (hP : P i) (k : Nat) (hk : k = rankIn P i) :
    ((rankMap (fun j => P j ∧ j < i) n).set i (some k)) = rankMap (fun j => P j ∧ j < i + 1) n := by
  have hr : ∀ j, j ≤ i + 1 → ∀ m, m ≤ j → rankIn (fun j => P j ∧ j < m) m = rankIn P m := by
    intro j _ m _
    unfold rankIn keptBelow
    congr 1
    apply List.filter_congr
    intro x hx
    simp at hx ⊢
    intro _; exact hx
  have hr2 : ∀ m j, j ≤ m → rankIn (fun x => P x ∧ x < m) j = rankIn P j := by
    intro m j hj
    unfold rankIn keptBelow
    congr 1
    apply List.filter_congr
    intro x hx
    simp at hx ⊢
    intro _; omega
  apply List.ext_getElem?
  intro j
  by_cases hj : j < n
  · rw [rankMap_get hj]
    by_cases hji : i = j
    · subst hji
      rw [List.getElem?_set_self (by rw [rankMap_length]; exact h), if_pos ⟨hP, by omega⟩,
        hr2 _ _ (by omega), hk]
    · rw [List.getElem?_set_ne hji, rankMap_get hj]
      by_cases hlt : j < i
      · by_cases hPj : P j
        · rw [if_pos ⟨hPj, hlt⟩, if_pos ⟨hPj, by omega⟩, hr2 _ _ (by omega), hr2 _ _ (by omega)]
        · rw [if_neg (fun h => hPj h.1), if_neg (fun h => hPj h.1)]
      · rw [if_neg (fun h => hlt h.2), if_neg (fun h => by omega)]
  · rw [List.getElem?_eq_none (by rw [List.length_set, rankMap_length]; omega),
      List.getElem?_eq_none (by rw [rankMap_length]; omega)]

theorem rankMap_skip {n i : Nat} (hP : ¬ P i) :
    rankMap (fun j => P j ∧ j < i) n = rankMap (fun j => P j ∧ j < i + 1) n := by
  congr 1
  funext j
  apply propext
  constructor
  · rintro ⟨a, b⟩; exact ⟨a, by omega⟩
  · rintro ⟨a, b⟩
    refine ⟨a, ?_⟩
    by_contra hc
    have : j = i := by omega
    exact hP (this ▸ a)

theorem rankMap_zero (n : Nat) : rankMap (fun j => P j ∧ j < 0) n = List.replicate n none := by
  apply List.ext_getElem?
  intro j
  by_cases hj : j < n
  · rw [rankMap_get hj, if_neg (by omega)]; simp [hj]
  · rw [List.getElem?_eq_none (by rw [rankMap_length]; omega), List.getElem?_eq_none (by simp; omega)]

theorem rankMap_full (n : Nat) : rankMap (fun j => P j ∧ j < n) n = rankMap P n := by
  apply List.ext_getElem?
  intro j
  by_cases hj : j < n
  · rw [rankMap_get hj, rankMap_get hj]
    have : rankIn (fun x => P x ∧ x < n) j = rankIn P j := by
      unfold rankIn keptBelow
      congr 1
      apply List.filter_congr
      intro x hx
      simp at hx ⊢
      intro _; omega
    by_cases hP : P j
    · rw [if_pos ⟨hP, hj⟩, if_pos hP, this]
    · rw [if_neg (fun h => hP h.1), if_neg hP]
  · rw [List.getElem?_eq_none (by rw [rankMap_length]; omega),
      List.getElem?_eq_none (by rw [rankMap_length]; omega)]

end rank

section removal
variable {K : Type} {s : Skeleton K}

theorem markRemoved_fold (n : Nat) : ∀ (l : List Nat) (acc r : List Bool), acc.length = n →
    l.foldlM (fun acc j => if j ≥ n then none else some (acc.set j true)) acc = some r →
    (∀ j ∈ l, j < n) ∧ r.length = n ∧
      ∀ j < n, r[j]? = some (decide (j ∈ l) || acc.getD j false) := by
  intro l
  induction l with
  | nil =>
    intro acc r hl h
    simp at h
    subst h
    refine ⟨by simp, hl, fun j hj => ?_⟩
    simp [List.getD, hl, hj]
  | cons a l ih =>
    intro acc r hl h
    rw [List.foldlM_cons] at h
    by_cases ha : a ≥ n
    · simp [ha] at h
    · simp only [ha, if_false] at h
      obtain ⟨h1, h2, h3⟩ := ih (acc.set a true) r (by simp [hl]) h
      refine ⟨by intro j hj; rcases List.mem_cons.1 hj with rfl | hj; · omega
                 · exact h1 j hj, h2, fun j hj => ?_⟩
      rw [h3 j hj]
      by_cases hja : j = a
      · subst hja; simp [List.getD, hl, hj]
      · simp [List.getD, hja, List.getElem?_set_ne (Ne.symm hja)]

theorem markRemoved_some {n : Nat} {l : List Nat} {r : List Bool} (h : markRemoved n l = some r) :
    (∀ j ∈ l, j < n) ∧ r.length = n ∧ ∀ j < n, r[j]? = some (decide (j ∈ l)) := by
  obtain ⟨h1, h2, h3⟩ := markRemoved_fold n l _ r (by simp) h
  refine ⟨h1, h2, fun j hj => ?_⟩
  rw [h3 j hj]
  simp [List.getD, hj]

theorem markRemoved_of {n : Nat} {l : List Nat} (h : ∀ j ∈ l, j < n) : ∃ r, markRemoved n l = some r := by
  unfold markRemoved
  generalize List.replicate n false = acc
  induction l generalizing acc with
  | nil => exact ⟨_, rfl⟩
  | cons a l ih =>
    rw [List.foldlM_cons]
    have : ¬ a ≥ n := by have := h a (by simp); omega
    simp only [this, if_false]
    exact ih (fun j hj => h j (by simp [hj])) _

theorem kept_root {rem : List Nat} {j : Nat} (h : j < s.joints.length) (hp : s.joints[j].parent = none) :
    s.Kept rem j ↔ j ∉ rem := by
  unfold Skeleton.Kept
  constructor
  · intro hk; exact hk j .refl
  · intro hj a ha
    rw [anc_iff_root h hp] at ha
    subst ha; exact hj

theorem kept_parent {rem : List Nat} {j p : Nat} (h : s.ParentRel j p) :
    s.Kept rem j ↔ j ∉ rem ∧ s.Kept rem p := by
  unfold Skeleton.Kept
  constructor
  · intro hk
    exact ⟨hk j .refl, fun a ha => hk a ((anc_iff_parent h).2 (.inr ha))⟩
  · rintro ⟨h1, h2⟩ a ha
    rcases (anc_iff_parent h).1 ha with rfl | ha
    · exact h1
    · exact h2 a ha

theorem kept_up {rem : List Nat} {j a : Nat} (h : s.Kept rem j) (ha : s.Anc j a) : s.Kept rem a :=
  fun b hb => h b (ha.trans hb)

theorem removedLoop_spec (hv : s.Valid) {rem : List Nat} {flags : List Bool}
    (hf : ∀ j < s.joints.length, flags[j]? = some (decide (j ∈ rem))) :
    ∀ j, j < s.joints.length → removedLoop s flags (some j) = some (decide (¬ s.Kept rem j)) := by
  intro j
  induction j using Nat.strong_induction_on with
  | _ j ih =>
    intro hj
    rw [removedLoop]
    simp only [hf j hj, Option.bind_eq_bind, Option.bind_some]
    rcases root_or_parent j hj with hp | ⟨p, hr, hp⟩
    · rw [kept_root hj hp]
      by_cases hm : j ∈ rem
      · simp [hm]
      · simp only [hm, decide_false, Bool.false_eq_true, if_false, parentOf_eq j hj, hp,
          Option.bind_some, not_false_eq_true, not_true_eq_false]
        rw [removedLoop]
    · rw [kept_parent hr]
      by_cases hm : j ∈ rem
      · simp [hm]
      · have hlt := parentRel_lt hv hr
        simp only [hm, decide_false, Bool.false_eq_true, if_false, parentOf_eq j hj, hp,
          Option.bind_some, not_false_eq_true, true_and]
        exact ih p hlt (hlt.trans hj)

/-- A kept joint with its parent renumbered. -/
noncomputable def relabel (s : Skeleton K) (rem : List Nat) (jt : Joint K) : Joint K :=
  { jt with parent := jt.parent.map (rankIn (s.Kept rem)) }

theorem removeStep_inv (hv : s.Valid) {rem : List Nat} {flags : List Bool}
    (hf : ∀ j < s.joints.length, flags[j]? = some (decide (j ∈ rem))) {i : Nat} (hi : i < s.joints.length) :
    removeStep s flags (rankMap (fun j => s.Kept rem j ∧ j < i) s.joints.length,
        (keptBelow (s.Kept rem) i).filterMap fun j => (s.joints[j]?).map (relabel s rem)) i =
      some (rankMap (fun j => s.Kept rem j ∧ j < i + 1) s.joints.length,
        (keptBelow (s.Kept rem) (i + 1)).filterMap fun j => (s.joints[j]?).map (relabel s rem)) := by
  unfold removeStep
  rw [removedLoop_spec hv hf i hi]
  simp only [Option.bind_some]
  have hlen : ((keptBelow (s.Kept rem) i).filterMap fun j => (s.joints[j]?).map (relabel s rem)).length =
      rankIn (s.Kept rem) i := by
    unfold rankIn
    have : ∀ l : List Nat, (∀ x ∈ l, x < s.joints.length) →
        (l.filterMap fun j => (s.joints[j]?).map (relabel s rem)).length = l.length := by
      intro l
      induction l with
      | nil => simp
      | cons a l ih =>
        intro h
        have ha := h a (by simp)
        simp only [List.filterMap_cons, List.getElem?_eq_getElem ha, Option.map_some,
          List.length_cons, ih (fun x hx => h x (by simp [hx]))]
    apply this
    intro x hx
    exact (mem_keptBelow.1 hx).1.trans hi
  by_cases hk : s.Kept rem i
  · simp only [hk, not_true_eq_false, decide_false, Bool.false_eq_true, if_false,
      List.getElem?_eq_getElem hi, Option.bind_some]
    rw [rankMap_set hi hk _ hlen, keptBelow_succ, if_pos hk]
    have hne : ∀ (jt : Joint K), s.joints[i] = jt → jt.parent = none → relabel s rem jt = jt := by
      intro jt _ h
      cases jt; simp [relabel] at *; simp [h]
    rcases root_or_parent i hi with hp | ⟨p, hr, hp⟩
    · rw [hp]
      simp only [List.filterMap_append, List.filterMap_cons, List.getElem?_eq_getElem hi,
        Option.map_some, List.filterMap_nil, hne _ rfl hp]
    · rw [hp]
      have hlt := parentRel_lt hv hr
      have hkp := ((kept_parent hr).1 hk).2
      simp only [rankMap_get (hlt.trans hi), Option.bind_some]
      rw [if_pos ⟨hkp, by omega⟩]
      have e : rankIn (fun j => s.Kept rem j ∧ j < i + 1) p = rankIn (s.Kept rem) p := by
        unfold rankIn keptBelow
        congr 1
        apply List.filter_congr
        intro x hx
        simp at hx ⊢
        intro _; omega
      rw [e]
      simp only [List.filterMap_append, List.filterMap_cons, List.getElem?_eq_getElem hi,
        Option.map_some, List.filterMap_nil, relabel, hp]
  · simp only [hk, not_false_eq_true, decide_true, if_true]
    rw [rankMap_skip hk, keptBelow_succ, if_neg hk]

theorem removeFold (hv : s.Valid) {rem : List Nat} {flags : List Bool}
    (hf : ∀ j < s.joints.length, flags[j]? = some (decide (j ∈ rem))) :
    (List.range s.joints.length).foldlM (removeStep s flags) (List.replicate s.joints.length none, []) =
      some (rankMap (s.Kept rem) s.joints.length,
        (keptBelow (s.Kept rem) s.joints.length).filterMap fun j => (s.joints[j]?).map (relabel s rem)) := by
  have : ∀ i ≤ s.joints.length,
      (List.range i).foldlM (removeStep s flags) (List.replicate s.joints.length none, []) =
      some (rankMap (fun j => s.Kept rem j ∧ j < i) s.joints.length,
        (keptBelow (s.Kept rem) i).filterMap fun j => (s.joints[j]?).map (relabel s rem)) := by
    intro i
    induction i with
    | zero => intro _; rw [rankMap_zero]; simp [keptBelow]
    | succ i ih =>
      intro hi
      rw [List.range_succ, foldlM_append_one, ih (by omega), Option.bind_some,
        removeStep_inv hv hf (by omega)]
  rw [this _ le_rfl, rankMap_full]

theorem mappedLoop_spec (hv : s.Valid) {P : Nat → Prop} :
    ∀ j, j < s.joints.length → ∃ m, mappedLoop s (rankMap P s.joints.length) (some j) = some m ∧
      (∀ k, m = some k → ∃ a, s.NearestUp P j a ∧ k = rankIn P a) ∧
      (m = none → ∀ a, s.Anc j a → ¬ P a) := by
  intro j
  induction j using Nat.strong_induction_on with
  | _ j ih =>
    intro hj
    rw [mappedLoop]
    simp only [rankMap_get hj, Option.bind_eq_bind, Option.bind_some]
    by_cases hP : P j
    · simp only [hP, if_true]
      exact ⟨_, rfl, fun k hk => ⟨j, ⟨.refl, hP, fun b hb _ => hb⟩, by simpa using hk.symm⟩, by simp⟩
    · simp only [hP, if_false, parentOf_eq j hj, Option.bind_some]
      rcases root_or_parent j hj with hp | ⟨p, hr, hp⟩
      · rw [hp, mappedLoop]
        refine ⟨none, rfl, by simp, fun _ a ha => ?_⟩
        rw [anc_iff_root hj hp] at ha
        subst ha; exact hP
      · rw [hp]
        have hlt := parentRel_lt hv hr
        obtain ⟨m, h1, h2, h3⟩ := ih p hlt (hlt.trans hj)
        refine ⟨m, h1, fun k hk => ?_, fun hm a ha => ?_⟩
        · obtain ⟨a, ha, hka⟩ := h2 k hk
          refine ⟨a, ⟨(anc_iff_parent hr).2 (.inr ha.up), ha.sat, fun b hb hPb => ?_⟩, hka⟩
          rcases (anc_iff_parent hr).1 hb with rfl | hb
          · exact absurd hPb hP
          · exact ha.nearest b hb hPb
        · rcases (anc_iff_parent hr).1 ha with rfl | ha
          · exact hP
          · exact h3 hm a ha

end removal
end Momentum
