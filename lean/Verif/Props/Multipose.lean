import Verif.Lemmas.Multipose2
import Verif.Props.SequenceFunction

/-!
# C66: the objective of several poses
-/

namespace Momentum
namespace MultiposeFunction
open Finset
variable {M : MultiposeFunction}

/-! ### The layout -/

/-- **C66** (layout): the constructor lists every parameter once, as universal or generic, and no operation changes that. -/
theorem C66_layout : (∀ np u nFrames, (make np u nFrames).Laid) ∧ (M.Laid →
    (∀ ps a, (M.setEnabledParameters ps a).Laid) ∧ (∀ f p M', M.setFrameParameters f p = some M' → M'.Laid) ∧
    (∀ v, (M.setJoined v).Laid) ∧ ∀ f F M', M.addErrorFunction f F = some M' → M'.Laid) := by
  have keep : ∀ (M' : MultiposeFunction), M.Laid → M'.np = M.np → M'.flag = M.flag → M'.generic = M.generic →
      M'.universal = M.universal → M'.indexMap = M.indexMap → M'.Laid := by
    intro M' h e1 e2 e3 e4 e5
    refine ⟨⟨fun i => ?_, fun i => ?_, ?_, ?_⟩, fun i hi => ?_⟩
    · show i ∈ M'.generic ↔ i < M'.np ∧ _ ∧ M'.flag i = false
      rw [e1, e2, e3]; exact h.sets.perFrame i
    · show i ∈ M'.universal ↔ i < M'.np ∧ _ ∧ M'.flag i = true
      rw [e1, e2, e4]; exact h.sets.universal i
    · show M'.generic.Pairwise _
      rw [e3]; exact h.sets.perFrameSorted
    · show M'.universal.Pairwise _
      rw [e4]; exact h.sets.universalSorted
    · rw [e2, e3, e4, e5]; exact h.map i (e1 ▸ hi)
  refine ⟨make_laid, fun h => ⟨fun ps a => keep _ h rfl rfl rfl rfl rfl, fun f p M' e => ?_, fun v => keep _ h rfl rfl rfl rfl rfl,
    fun f F M' e => ?_⟩⟩
  · unfold setFrameParameters at e
    split_ifs at e
    rw [← Option.some.inj e]
    exact keep _ h rfl rfl rfl rfl rfl
  · unfold addErrorFunction at e
    split_ifs at e
    rw [← Option.some.inj e]
    exact keep _ h rfl rfl rfl rfl rfl

theorem standsFor_lt {j f i : Nat} (h : M.StandsFor j f i) : j < M.numParameters := by
  obtain ⟨hf, ⟨k, hk, rfl⟩ | ⟨k, hk, rfl⟩⟩ := h
  · have := SequenceFunction.slot_lt hf (List.getElem?_eq_some_iff.1 hk).1
    exact Nat.lt_of_lt_of_le this (Nat.le_add_right _ _)
  · have := (List.getElem?_eq_some_iff.1 hk).1
    exact Nat.add_lt_add_left this _

theorem slot_generic (h : M.Laid) {f i : Nat} (hf : f < M.nFrames) (hi : i < M.np) (hg : M.flag i = false) :
    M.generic[M.indexMap i]? = some i ∧ M.slot f i = M.generic.length * f + M.indexMap i ∧
      M.slot f i < M.generic.length * M.nFrames := by
  have := h.map i hi
  rw [hg] at this
  have hs : M.slot f i = M.generic.length * f + M.indexMap i := by unfold slot; rw [hg]; rfl
  refine ⟨this, hs, ?_⟩
  rw [hs]
  exact SequenceFunction.slot_lt hf (List.getElem?_eq_some_iff.1 this).1

theorem slot_universal (h : M.Laid) {i : Nat} (f : Nat) (hi : i < M.np) (hg : M.flag i = true) :
    M.universal[M.indexMap i]? = some i ∧ M.slot f i = M.generic.length * M.nFrames + M.indexMap i := by
  have := h.map i hi
  rw [hg] at this
  exact ⟨this, by unfold slot; rw [hg]; rfl⟩

/-- **C66** (layout): every parameter of every pose has exactly one entry of the joined vector, which has no other entries; two
poses share an entry only for the same universal parameter. -/
theorem C66_entries (h : M.Laid) :
    (∀ f < M.nFrames, ∀ i < M.np, ∃! j, M.StandsFor j f i) ∧
    (M.nFrames ≠ 0 → ∀ j, (∃ f i, M.StandsFor j f i) ↔ j < M.numParameters) ∧
    (∀ j f i, M.StandsFor j f i → f < M.nFrames ∧ i < M.np) ∧
    ∀ j f i f' i', M.StandsFor j f i → M.StandsFor j f' i' → i = i' ∧ (f = f' ∨ M.flag i = true) := by
  refine ⟨fun f hf i hi => ⟨_, slot_standsFor h hf hi, fun j hj => ((standsFor_iff h).1 hj).2.2⟩, fun hn j =>
    ⟨fun ⟨f, i, hs⟩ => standsFor_lt hs, fun hj => SequenceFunction.standsFor_of_lt (S := M.asSequence) hn hj⟩,
    fun j f i hs => ⟨((standsFor_iff h).1 hs).1, ((standsFor_iff h).1 hs).2.1⟩, ?_⟩
  intro j f i f' i' hs hs'
  obtain ⟨a1, a2, a3⟩ := (standsFor_iff h).1 hs
  obtain ⟨b1, b2, b3⟩ := (standsFor_iff h).1 hs'
  by_cases hu : M.flag i = true <;> by_cases hu' : M.flag i' = true
  · obtain ⟨c1, c2⟩ := slot_universal h f a2 hu
    obtain ⟨d1, d2⟩ := slot_universal h f' b2 hu'
    have : M.indexMap i = M.indexMap i' := by omega
    rw [this, d1] at c1
    exact ⟨(Option.some.inj c1).symm, Or.inr hu⟩
  · obtain ⟨c1, c2⟩ := slot_universal h f a2 hu
    obtain ⟨d1, d2, d3⟩ := slot_generic h b1 b2 (by simpa using hu')
    omega
  · obtain ⟨c1, c2, c3⟩ := slot_generic h a1 a2 (by simpa using hu)
    obtain ⟨d1, d2⟩ := slot_universal h f' b2 hu'
    omega
  · obtain ⟨c1, c2, c3⟩ := slot_generic h a1 a2 (by simpa using hu)
    obtain ⟨d1, d2, d3⟩ := slot_generic h b1 b2 (by simpa using hu')
    have k1 := (List.getElem?_eq_some_iff.1 c1).1
    have k2 := (List.getElem?_eq_some_iff.1 d1).1
    have e : M.generic.length * f + M.indexMap i = M.generic.length * f' + M.indexMap i' := by omega
    have hff : f = f' := by
      rcases Nat.lt_trichotomy f f' with hlt | he | hlt
      · have := SequenceFunction.slot_lt hlt k1; omega
      · exact he
      · have := SequenceFunction.slot_lt hlt k2; omega
    subst hff
    have : M.indexMap i = M.indexMap i' := by omega
    rw [this, d1] at c1
    exact ⟨(Option.some.inj c1).symm, Or.inl rfl⟩

/-! ### Joining and splitting -/

/-- **C66** (splitting): `setJoinedParameterVector` gives every parameter of a pose the entry that stands for it. -/
theorem C66_split (h : M.Laid) (v : Nat → ℝ) :
    (∀ j f i, M.StandsFor j f i → (M.setJoined v).frames f i = v j) ∧
    ∀ i < M.np, M.flag i = true → ∀ f < M.nFrames, ∀ f' < M.nFrames,
      (M.setJoined v).frames f i = (M.setJoined v).frames f' i := by
  have e : (M.setJoined v).frames = (M.asSequence.setJoined v).frames :=
    congrArg SequenceFunction.frames (setJoined_asSequence h v)
  rw [e]
  exact ⟨(SequenceFunction.C62_split h.sets v).1, fun i hi hu => (SequenceFunction.C62_split h.sets v).2.2 i hi rfl hu⟩

/-- **C66** (joining): `getJoinedParameterVector` has the values of the poses, for a universal parameter that of the last pose. -/
theorem C66_join (h : M.Laid) (init : Nat → ℝ) (j f i : Nat) (hs : M.StandsFor j f i) :
    M.joined init j = M.frames (if M.flag i then M.nFrames - 1 else f) i := by
  have key : ∀ n ≤ M.nFrames, ∀ j f i, M.StandsFor j f i → f < n →
      (List.range n).foldl (fun res f => (List.range M.np).foldl
        (fun res i => Function.update res (M.slot f i) (M.frames f i)) res) init j =
      M.frames (if M.flag i then n - 1 else f) i := by
    intro n
    induction n with
    | zero => intro _ j f i _ hf; exact absurd hf (Nat.not_lt_zero _)
    | succ n ih =>
      intro hn j f i hs hf
      obtain ⟨a1, a2, a3⟩ := (standsFor_iff h).1 hs
      rw [List.range_succ, List.foldl_append, List.foldl_cons, List.foldl_nil]
      obtain ⟨f1, f2⟩ := fold_inj M.np (M.slot n) (slot_inj h (by omega : n < M.nFrames)) (fun i _ => M.frames n i)
        ((List.range n).foldl (fun res f => (List.range M.np).foldl
          (fun res i => Function.update res (M.slot f i) (M.frames f i)) res) init)
      by_cases hu : M.flag i = true
      · rw [if_pos hu, a3, show M.slot f i = M.slot n i by
          rw [(slot_universal h f a2 hu).2, (slot_universal h n a2 hu).2]]
        exact f1 i a2
      · rw [if_neg hu]
        by_cases hfn : f = n
        · subst hfn
          rw [a3]; exact f1 i a2
        · refine (f2 j fun k hk e => ?_).trans ?_
          · have := (C66_entries h).2.2.2 j n k f i (e ▸ slot_standsFor h (by omega) hk) hs
            rcases this.2 with e | e
            · exact hfn e.symm
            · exact hu (this.1 ▸ e)
          · have := ih (by omega) j f i hs (by omega)
            rwa [if_neg hu] at this
  exact key M.nFrames le_rfl j f i hs ((standsFor_iff h).1 hs).1

/-- **C66** (joining after splitting): the joined vector is read back as it was set. -/
theorem C66_join_split (h : M.Laid) (hn : M.nFrames ≠ 0) (v init : Nat → ℝ) :
    ∀ j < M.numParameters, (M.setJoined v).joined init j = v j := by
  intro j hj
  obtain ⟨f, i, hs⟩ := ((C66_entries h).2.1 hn j).2 hj
  have hs' : (M.setJoined v).StandsFor j f i := hs
  rw [C66_join (setJoined_laid h v) init j f i hs']
  obtain ⟨b1, b2⟩ := C66_split h v
  obtain ⟨a1, a2, -⟩ := (standsFor_iff h).1 hs
  show (M.setJoined v).frames (if M.flag i then M.nFrames - 1 else f) i = v j
  split_ifs with hu
  · rw [b2 i a2 hu _ (by omega) f a1]
    exact b1 j f i hs
  · exact b1 j f i hs

/-! ### Parameter sets -/

theorem places_fold {s : Nat → Bool} (l : List Nat) :
    (∀ k ∈ l, k < kMaxModelParams) → ∃ t, l.foldl setPlace (some s) = some t ∧ ∀ j, t j = true ↔ s j = true ∨ j ∈ l := by
  induction l generalizing s with
  | nil => intro _; exact ⟨s, rfl, fun j => by simp⟩
  | cons k l ih =>
    intro hl
    rw [List.foldl_cons]
    have e : setPlace (some s) k = some (Function.update s k true) := if_pos (hl k (by simp))
    obtain ⟨t, t1, t2⟩ := ih (s := Function.update s k true) fun k hk => hl k (by simp [hk])
    refine ⟨t, by rw [e]; exact t1, fun j => ?_⟩
    rw [t2 j]
    by_cases hj : j = k
    · subst hj; simp
    · rw [Function.update_of_ne hj]; simp [hj]

theorem places_none (l : List Nat) : l.foldl setPlace none = none := by
  induction l with
  | nil => rfl
  | cons k l ih => rw [List.foldl_cons]; exact ih

theorem places_throw (l : List Nat) (s : Option (Nat → Bool)) {k : Nat} (hk : k ∈ l) (hb : kMaxModelParams ≤ k) :
    l.foldl setPlace s = none := by
  induction l generalizing s with
  | nil => cases hk
  | cons d l ih =>
    rw [List.foldl_cons]
    rcases List.mem_cons.1 hk with rfl | hk
    · have : setPlace s k = none := by
        cases s with
        | none => rfl
        | some s => exact if_neg (by omega)
      rw [this, places_none]
    · exact ih _ hk

/-- **C66** (universal set): `getUniversalParameterSet` has exactly the entries of universal parameters, if there are places for
them; otherwise it throws. -/
theorem C66_universal_set (h : M.Laid) (hn : M.nFrames ≠ 0) :
    (M.numParameters ≤ 2048 → ∃ s, M.getUniversalParameterSet = some s ∧
      ∀ j, s j = true ↔ ∃ f i, M.flag i = true ∧ M.StandsFor j f i) ∧
    (2048 < M.numParameters → M.universal ≠ [] → M.getUniversalParameterSet = none) := by
  have e : M.getUniversalParameterSet =
      ((List.range M.universal.length).map (M.generic.length * M.nFrames + ·)).foldl setPlace (some fun _ => false) := by
    rw [List.foldl_map]; rfl
  rw [e]
  refine ⟨fun hle => ?_, fun hlt hne => ?_⟩
  · obtain ⟨t, t1, t2⟩ := places_fold (s := fun _ => false)
      ((List.range M.universal.length).map (M.generic.length * M.nFrames + ·)) (by
        intro k hk
        obtain ⟨i, hi, rfl⟩ := List.mem_map.1 hk
        have := List.mem_range.1 hi
        unfold numParameters at hle
        show M.generic.length * M.nFrames + i < 2048
        omega)
    refine ⟨t, t1, fun j => (t2 j).trans ?_⟩
    simp only [Bool.false_eq_true, false_or, List.mem_map, List.mem_range]
    constructor
    · rintro ⟨k, hk, rfl⟩
      have hk' := List.getElem?_eq_getElem hk
      exact ⟨0, M.universal[k], ((h.sets.universal _).1 (List.mem_of_getElem? hk')).2.2, by show 0 < M.nFrames; omega, Or.inr ⟨k, hk', rfl⟩⟩
    · rintro ⟨f, i, hu, hs⟩
      obtain ⟨a1, a2, a3⟩ := (standsFor_iff h).1 hs
      obtain ⟨c1, c2⟩ := slot_universal h f a2 hu
      exact ⟨_, (List.getElem?_eq_some_iff.1 c1).1, by rw [a3, c2]⟩
  · have hpos := List.length_pos_iff.2 hne
    unfold numParameters at hlt
    exact places_throw _ _ (k := M.generic.length * M.nFrames + (M.universal.length - 1))
      (List.mem_map.2 ⟨_, List.mem_range.2 (by omega), rfl⟩) (by show 2048 ≤ _; omega)

theorem universal_eq (h : M.Laid) : M.universal = (List.range M.np).filter fun i => M.flag i := by
  have p2 : ((List.range M.np).filter fun i => M.flag i).Pairwise (· < ·) := List.pairwise_lt_range.filter _
  apply List.Perm.eq_of_pairwise (le := (· < ·)) (fun a b _ _ h1 h2 => absurd h1 (by omega)) h.sets.universalSorted p2
  rw [List.perm_ext_iff_of_nodup h.sets.nodup.2 (p2.imp fun h => by omega)]
  intro i
  rw [List.mem_filter, List.mem_range]
  exact (h.sets.universal i).trans ⟨fun h => ⟨h.1, h.2.2⟩, fun h => ⟨h.1, rfl, h.2⟩⟩

theorem filter_range_getElem (u : Nat → Bool) {n i : Nat} (hi : i < n) (hu : u i = true) :
    ((List.range n).filter fun i => u i)[((List.range i).filter fun i => u i).length]? = some i := by
  obtain ⟨d, rfl⟩ := Nat.exists_eq_add_of_lt hi
  rw [show i + d + 1 = i + (1 + d) by omega, List.range_add, List.filter_append, List.getElem?_append_right le_rfl,
    Nat.sub_self, Nat.add_comm 1 d, List.range_succ_eq_map, List.map_cons, List.filter_cons, if_pos (by simpa using hu)]
  rfl

/-- **C66** (locator set): `getUniversalLocatorParameterSet` has exactly the entries of universal parameters whose name starts
with an underscore. -/
theorem C66_locator_set (h : M.Laid) (hn : M.nFrames ≠ 0) (hle : M.numParameters ≤ 2048) (locator : Nat → Bool) :
    ∃ s, M.getUniversalLocatorParameterSet locator = some s ∧
      ∀ j, s j = true ↔ ∃ f i, M.flag i = true ∧ locator i = true ∧ M.StandsFor j f i := by
  have hU := universal_eq h
  have key : ∀ n ≤ M.np, ∃ s, (List.range n).foldl (fun (s : Option (Nat → Bool) × Nat) i =>
      if M.flag i then ((if locator i then setPlace s.1 (M.generic.length * M.nFrames + s.2) else s.1), s.2 + 1) else s)
      (some fun _ => false, 0) = (some s, ((List.range n).filter fun i => M.flag i).length) ∧
      ∀ j, s j = true ↔ ∃ i < n, M.flag i = true ∧ locator i = true ∧ M.StandsFor j 0 i := by
    intro n
    induction n with
    | zero => intro _; exact ⟨_, rfl, by simp⟩
    | succ n ih =>
      intro hnp
      obtain ⟨s, s1, s2⟩ := ih (by omega)
      rw [List.range_succ, List.foldl_append, s1, List.foldl_cons, List.foldl_nil, List.filter_append, List.length_append]
      by_cases hu : M.flag n = true
      · have hsl := filter_range_getElem M.flag (by omega : n < M.np) hu
        rw [← hU] at hsl
        have hst : M.StandsFor (M.generic.length * M.nFrames + ((List.range n).filter fun i => M.flag i).length) 0 n :=
          ⟨by show 0 < M.nFrames; omega, Or.inr ⟨_, hsl, rfl⟩⟩
        have hlen : (List.filter (fun i => M.flag i) [n]).length = 1 := by simp [hu]
        rw [if_pos hu, hlen]
        by_cases hl : locator n = true
        · rw [if_pos hl]
          have hlt := standsFor_lt hst
          refine ⟨_, by rw [show setPlace (some s) (M.generic.length * M.nFrames +
            ((List.range n).filter fun i => M.flag i).length) = some _ from if_pos (by show _ < 2048; omega)], fun j => ?_⟩
          by_cases hj : j = M.generic.length * M.nFrames + ((List.range n).filter fun i => M.flag i).length
          · rw [hj, Function.update_self]
            exact ⟨fun _ => ⟨n, by omega, hu, hl, hst⟩, fun _ => rfl⟩
          · rw [Function.update_of_ne hj, s2 j]
            constructor
            · rintro ⟨i, hi, a⟩; exact ⟨i, by omega, a⟩
            · rintro ⟨i, hi, a, b, c⟩
              have : i ≠ n := by
                rintro rfl
                exact hj (SequenceFunction.StandsFor.unique h.sets c hst)
              exact ⟨i, by omega, a, b, c⟩
        · rw [if_neg hl]
          refine ⟨s, rfl, fun j => (s2 j).trans ?_⟩
          constructor
          · rintro ⟨i, hi, a⟩; exact ⟨i, by omega, a⟩
          · rintro ⟨i, hi, a, b, c⟩
            have : i ≠ n := by rintro rfl; exact hl b
            exact ⟨i, by omega, a, b, c⟩
      · have hlen : (List.filter (fun i => M.flag i) [n]).length = 0 := by simp [hu]
        rw [if_neg hu, hlen]
        refine ⟨s, rfl, fun j => (s2 j).trans ?_⟩
        constructor
        · rintro ⟨i, hi, a⟩; exact ⟨i, by omega, a⟩
        · rintro ⟨i, hi, a, b, c⟩
          have : i ≠ n := by rintro rfl; exact hu a
          exact ⟨i, by omega, a, b, c⟩
  obtain ⟨s, s1, s2⟩ := key M.np le_rfl
  refine ⟨s, by unfold getUniversalLocatorParameterSet; rw [s1], fun j => (s2 j).trans ?_⟩
  constructor
  · rintro ⟨i, -, a⟩; exact ⟨0, i, a⟩
  · rintro ⟨f, i, a, b, c⟩
    obtain ⟨c1, c2, c3⟩ := (standsFor_iff h).1 c
    refine ⟨i, c2, a, b, (standsFor_iff h).2 ⟨by omega, c2, ?_⟩⟩
    rw [c3, (slot_universal h f c2 a).2, (slot_universal h 0 c2 a).2]

theorem lastEnabled_eq (np : Nat) (ps : Nat → Bool) :
    (∀ i < np, ps i = true → i ≤ lastEnabled np ps) ∧ (lastEnabled np ps ≠ 0 → ps (lastEnabled np ps) = true ∧ lastEnabled np ps < np) := by
  unfold lastEnabled
  induction np with
  | zero => exact ⟨fun i hi => absurd hi (Nat.not_lt_zero _), fun h => absurd rfl h⟩
  | succ n ih =>
    rw [List.range_succ, List.foldl_append, List.foldl_cons, List.foldl_nil]
    split_ifs with hp
    · exact ⟨fun i hi _ => by omega, fun _ => ⟨hp, by omega⟩⟩
    · refine ⟨fun i hi hpi => ih.1 i ?_ hpi, fun h => ⟨(ih.2 h).1, by have := (ih.2 h).2; omega⟩⟩
      have : i ≠ n := by rintro rfl; exact hp hpi
      omega

theorem position_mono {l : List Nat} (hl : l.Pairwise (· < ·)) {p q a b : Nat} (hp : l[p]? = some a) (hq : l[q]? = some b)
    (hab : a ≤ b) : p ≤ q := by
  obtain ⟨p1, rfl⟩ := List.getElem?_eq_some_iff.1 hp
  obtain ⟨q1, rfl⟩ := List.getElem?_eq_some_iff.1 hq
  by_contra hc
  have := List.pairwise_iff_getElem.1 hl q p q1 p1 (by omega)
  omega

/-- **C66** (enabled parameters), partial: the entries of enabled parameters are among the first `getActualParameters()` if the
last enabled parameter is universal, or if no enabled one is; and it is not the first parameter.  Otherwise it is false
(`C66_enabled_counterexample`). -/
theorem C66_enabled_partial (h : M.Laid) (ps : Nat → Bool) (active : ErrorFunction → ErrorFunction) (a : Nat) (ha : 0 < a)
    (hlast : a < M.np ∧ ps a = true ∧ ∀ i < M.np, ps i = true → i ≤ a)
    (hu : M.flag a = true ∨ ∀ i < M.np, ps i = true → M.flag i = false) :
    ∀ j f i, M.StandsFor j f i → ps i = true → j < (M.setEnabledParameters ps active).actualParameters := by
  have e : lastEnabled M.np ps = a := by
    obtain ⟨h1, h2⟩ := lastEnabled_eq M.np ps
    have := h1 a hlast.1 hlast.2.1
    obtain ⟨h3, h4⟩ := h2 (by omega)
    have := hlast.2.2 _ h4 h3
    omega
  intro j f i hs hpi
  obtain ⟨a1, a2, a3⟩ := (standsFor_iff h).1 hs
  have hle := hlast.2.2 i a2 hpi
  show j < if lastEnabled M.np ps > 0 then
    if M.flag (lastEnabled M.np ps) then M.generic.length * M.nFrames + M.indexMap (lastEnabled M.np ps) + 1
    else M.generic.length * (M.nFrames - 1) + M.indexMap (lastEnabled M.np ps) + 1 else lastEnabled M.np ps
  rw [e, if_pos ha, a3]
  by_cases hf : M.flag a = true
  · rw [if_pos hf]
    by_cases hi : M.flag i = true
    · obtain ⟨c1, c2⟩ := slot_universal h f a2 hi
      have := position_mono h.sets.universalSorted c1 (slot_universal h f hlast.1 hf).1 hle
      omega
    · have := (slot_generic h a1 a2 (by simpa using hi)).2.2
      omega
  · rw [if_neg hf]
    have hi := hu.resolve_left hf i a2 hpi
    obtain ⟨c1, c2, c3⟩ := slot_generic h a1 a2 hi
    have := position_mono h.sets.perFrameSorted c1 (slot_generic h a1 hlast.1 (by simpa using hf)).1 hle
    have h2 : M.generic.length * f ≤ M.generic.length * (M.nFrames - 1) := Nat.mul_le_mul_left _ (by omega)
    omega

/-! ### Error, gradient and Jacobian -/

/-- **C66** (error): the error is the sum over poses and their error functions with positive weight. -/
theorem C66_error (v : Nat → ℝ) : (M.getError v).1 = ∑ f ∈ range M.nFrames,
    ((M.frameErrors f).map fun F => if 0 < F.weight then F.getError ((M.setJoined v).frames f) else 0).sum := by
  have inner : ∀ (l : List ErrorFunction) (p : Nat → ℝ) (e : ℝ), (weighted l).foldl (fun e F => e + F.getError p) e =
      e + (l.map fun F => if 0 < F.weight then F.getError p else 0).sum := by
    intro l p
    induction l with
    | nil => intro e; simp [weighted]
    | cons F l ih =>
      intro e
      by_cases hw : 0 < F.weight
      · have : weighted (F :: l) = F :: weighted l := by unfold weighted; rw [List.filter_cons, if_pos (by simpa using hw)]
        rw [this, List.foldl_cons, ih, List.map_cons, List.sum_cons, if_pos hw]; ring
      · have : weighted (F :: l) = weighted l := by unfold weighted; rw [List.filter_cons, if_neg (by simpa using hw)]
        rw [this, ih, List.map_cons, List.sum_cons, if_neg hw, zero_add]
  show (List.range M.nFrames).foldl (fun e f => (weighted (M.frameErrors f)).foldl
    (fun e F => e + F.getError ((M.setJoined v).frames f)) e) 0 = _
  simp only [inner]
  generalize M.nFrames = n
  induction n with
  | zero => rfl
  | succ n ih => rw [List.range_succ, List.foldl_append, List.foldl_cons, List.foldl_nil, ih, sum_range_succ]

/-- **C66** (gradient): if every error function with positive weight reports its own derivative, the poses together report the
derivative of their error in every entry of the joined vector. -/
theorem C66_gradient (h : M.Laid) (v : Nat → ℝ) (j : Nat) (hnp : M.np ≠ 0)
    (hF : ∀ f < M.nFrames, ∀ F ∈ M.frameErrors f, 0 < F.weight → ∀ i < M.np, F.GradientIsDerivative ((M.setJoined v).frames f) i) :
    (M.getGradient v).1 = (M.getError v).1 ∧
      HasDerivAt (fun u => (M.getError (Function.update v j u)).1) ((M.getGradient v).2.1 j) (v j) := by
  have e : (M.setJoined v).frames = (M.asSequence.setJoined v).frames :=
    congrArg SequenceFunction.frames (setJoined_asSequence h v)
  rw [e] at hF
  obtain ⟨g1, g2⟩ := getGradient_asSequence h v
  simp only [getError_asSequence h, g1, g2]
  exact SequenceFunction.C62_gradient h.sets (fun f F hF => by cases hF) v j (fun f hf F hm hw i hi _ => hF f hf F hm hw i hi)
    ⟨0, by show 0 < M.np; omega, rfl⟩ fun f _ F hF => by cases hF

/-- **C66** (Jacobian): for fresh matrices, if every error function with positive weight is a sum of squares of residuals with
its Jacobian, so are the poses together as a function of the joined vector. -/
theorem C66_jacobian (h : M.Laid) (v : Nat → ℝ) (j : Nat) (b : SequenceFunction.Buffers) (hb : M.Fresh b) (hnp : M.np ≠ 0)
    (hF : ∀ f < M.nFrames, ∀ F ∈ M.frameErrors f, 0 < F.weight → ∀ i < M.np, F.JacobianIsDerivative ((M.setJoined v).frames f) i) :
    (M.getJacobian v b).1 = (M.getError v).1 ∧
    (∀ u, (M.getError (Function.update v j u)).1 = ∑ t ∈ range (M.getJacobian v b).2.1,
      (M.getJacobian (Function.update v j u) b).2.2.1.residual t ^ 2) ∧
    ∀ t < (M.getJacobian v b).2.1, HasDerivAt (fun u => (M.getJacobian (Function.update v j u) b).2.2.1.residual t)
      ((M.getJacobian v b).2.2.1.e j t) (v j) := by
  have e : (M.setJoined v).frames = (M.asSequence.setJoined v).frames :=
    congrArg SequenceFunction.frames (setJoined_asSequence h v)
  have hterm : ∀ f < M.nFrames, ∀ F ∈ M.frameErrors f, 0 < F.weight →
      (M.asSequence.term (f, F.toSeq)).JacobianIsDerivative v j := by
    intro f hf F hm hw
    have hF := hF f hf F hm hw
    rw [e] at hF
    have h0 := hF 0 (by omega)
    refine SequenceFunction.term_jacobian_frame h.sets v j f F ⟨h0.error, h0.size, ?_⟩ fun i hi => hF i (hi.lt h.sets)
    have := h0.squares ((M.asSequence.setJoined v).frames f 0)
    rwa [Function.update_eq_self] at this
  have hr : ∀ u, M.RowsFit (Function.update v j u) := by
    intro u f hf F hm hw
    have ht := hterm f hf F hm hw
    obtain ⟨-, t2, -, -⟩ := term_jacobian M (Function.update v j u) f F (congrArg SequenceFunction.frames (setJoined_asSequence h _))
    rw [← t2, ht.rows u]
    exact ht.size
  have hrv : M.RowsFit v := by
    have := hr (v j)
    rwa [Function.update_eq_self] at this
  have hT : ∀ F ∈ M.paddedTerms, F.JacobianIsDerivative v j := by
    intro G hG
    obtain ⟨f, hf, hG⟩ := List.mem_flatMap.1 hG
    obtain ⟨F, hm, rfl⟩ := List.mem_map.1 hG
    obtain ⟨m1, m2⟩ := weighted_mem hm
    exact ErrorFunction.padded_deriv (hterm f (List.mem_range.1 hf) F m1 m2)
  obtain ⟨f1, f2, f3, f4, f5⟩ := SequenceFunction.fills M.paddedTerms v j hT
  obtain ⟨e1, e2, e3, e4⟩ := getJacobian_eq h hrv hb
  have clean : ∀ (w : Nat → ℝ), (M.paddedTerms.foldl (SequenceFunction.fill w) ⟨0, 0, fun _ _ => 0, fun _ => 0⟩).Clean := fun w =>
    SequenceFunction.fills_clean w _ fun t _ => ⟨fun _ => rfl, rfl⟩
  have hres : ∀ u, (M.getJacobian (Function.update v j u) b).2.2.1.residual =
      (M.paddedTerms.foldl (SequenceFunction.fill (Function.update v j u)) ⟨0, 0, fun _ _ => 0, fun _ => 0⟩).residual := fun u =>
    (getJacobian_eq h (hr u) hb).2.2.2
  have herr : ∀ w, (M.getError w).1 = (M.paddedTerms.map fun F => F.getError w).sum := by
    intro w
    rw [getError_asSequence h, SequenceFunction.getError_eq, paddedTerms_eq, List.map_map]; rfl
  have hpad := SequenceFunction.pad_ge (M.paddedTerms.map ErrorFunction.jacobianSize).sum
  rw [e1, e2, e3]
  refine ⟨by rw [f1, herr], fun u => ?_, fun t ht => ?_⟩
  · rw [herr, f4 u, hres]
    apply sum_subset (range_subset_range.2 (by omega))
    intro t _ ht
    rw [(clean (Function.update v j u) t (by rw [f3 u]; simpa using ht)).2]
    ring
  · simp only [hres]
    by_cases hp : t < (M.paddedTerms.foldl (SequenceFunction.fill v) ⟨0, 0, fun _ _ => 0, fun _ => 0⟩).position
    · exact f5 t hp
    · rw [(clean v t (by omega)).1]
      have : (fun u => (M.paddedTerms.foldl (SequenceFunction.fill (Function.update v j u))
          ⟨0, 0, fun _ _ => 0, fun _ => 0⟩).residual t) = fun _ => 0 := by
        funext u
        exact (clean (Function.update v j u) t (by rw [f3 u]; omega)).2
      rw [this]
      exact hasDerivAt_const _ _

end MultiposeFunction
end Momentum
