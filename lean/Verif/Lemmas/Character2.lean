import Verif.Lemmas.Character

/-! # Lemmas for `addMappedParameters` -/

namespace Momentum
open Classical ParameterTransform

section
variable {K : Type}

/-- Parameter `p` has a stored coefficient in a row of a mapped joint. -/
def Mapped (jm : List (Option Nat)) (es : List (Triplet K)) (p : Nat) : Prop :=
  ∃ e ∈ es, e.col = p ∧ ∃ t, jm[e.row / 7]? = some (some t)

theorem validParams_fold (jm : List (Option Nat)) (n : Nat) : ∀ (es : List (Triplet K)) (acc : List Bool),
    acc.length = n → (∀ e ∈ es, e.row / 7 < jm.length ∧ e.col < n) →
    ∃ r, es.foldlM (init := acc) (fun acc e => do
        let m ← jm[e.row / 7]?
        match m with
        | none => some acc
        | some _ => setChecked acc e.col true) = some r ∧ r.length = n ∧
      ∀ p < n, r[p]? = some (decide (Mapped jm es p) || acc.getD p false) := by
  intro es
  induction es with
  | nil =>
    intro acc hl _
    refine ⟨acc, rfl, hl, fun p hp => ?_⟩
    simp [List.getD, hl, hp, Mapped]
  | cons e es ih =>
    intro acc hl h
    obtain ⟨he1, he2⟩ := h e (by simp)
    rw [List.foldlM_cons]
    have hg := List.getElem?_eq_getElem he1
    cases hm : jm[e.row / 7] with
    | none =>
      rw [hm] at hg
      simp only [hg, Option.bind_eq_bind, Option.bind_some]
      obtain ⟨r, h1, h2, h3⟩ := ih acc hl (fun e' he' => h e' (by simp [he']))
      refine ⟨r, h1, h2, fun p hp => ?_⟩
      rw [h3 p hp]
      have : Mapped jm (e :: es) p ↔ Mapped jm es p := by
        unfold Mapped
        simp [hg]
      simp only [this]
    | some t =>
      rw [hm] at hg
      simp only [hg, Option.bind_eq_bind, Option.bind_some, setChecked, hl, he2, if_true]
      obtain ⟨r, h1, h2, h3⟩ := ih (acc.set e.col true) (by simp [hl]) (fun e' he' => h e' (by simp [he']))
      refine ⟨r, h1, h2, fun p hp => ?_⟩
      rw [h3 p hp]
      have : Mapped jm (e :: es) p ↔ e.col = p ∨ Mapped jm es p := by
        unfold Mapped
        simp [hg]
      simp only [this]
      by_cases hp' : e.col = p
      · subst hp'; simp [List.getD, hl, he2]
      · simp [List.getD, hp', List.getElem?_set_ne hp']

theorem validParams_of {jm : List (Option Nat)} {A : SparseMat K}
    (h : ∀ e ∈ A.entries, e.row / 7 < jm.length ∧ e.col < A.cols) :
    ∃ r, validParams jm A = some r ∧ r.length = A.cols ∧
      ∀ p < A.cols, r[p]? = some (decide (Mapped jm A.entries p)) := by
  obtain ⟨r, h1, h2, h3⟩ := validParams_fold jm A.cols A.entries (List.replicate A.cols false) (by simp) h
  refine ⟨r, h1, h2, fun p hp => ?_⟩
  rw [h3 p hp]
  simp [List.getD, hp]

/-- The array of new parameter numbers: kept parameters are numbered from `base`. -/
noncomputable def shiftedMap (P : Nat → Prop) (base n : Nat) : List (Option Nat) :=
  (rankMap P n).map (Option.map (base + ·))

theorem shiftedMap_get {P : Nat → Prop} {base n i : Nat} (h : i < n) :
    (shiftedMap P base n)[i]? = some (if P i then some (base + rankIn P i) else none) := by
  simp only [shiftedMap, List.getElem?_map, rankMap_get h, Option.map_some]
  split_ifs <;> rfl

theorem shiftedMap_zero {P : Nat → Prop} {n : Nat} : shiftedMap P 0 n = rankMap P n := by
  simp only [shiftedMap, Nat.zero_add]
  have : (Option.map fun x : Nat => x) = id := by funext x; cases x <;> rfl
  rw [this, List.map_id]

theorem filterMap_lookup_length {α β : Type} (l : List α) (f : α → β) (ks : List Nat)
    (h : ∀ k ∈ ks, k < l.length) :
    (ks.filterMap fun k => (l[k]?).map f).length = ks.length := by
  induction ks with
  | nil => rfl
  | cons k ks ih =>
    have hk := h k (by simp)
    simp only [List.filterMap_cons, List.getElem?_eq_getElem hk, Option.map_some, List.length_cons,
      ih (fun x hx => h x (by simp [hx]))]

theorem filterMap_get_length {α : Type} (l : List α) (ks : List Nat) (h : ∀ k ∈ ks, k < l.length) :
    (ks.filterMap (l[·]?)).length = ks.length := by
  have := filterMap_lookup_length l id ks h
  simpa using this

theorem nameFold {P : Nat → Prop} {orig existing base : List String} {valid : List Bool} {n : Nat}
    (hn : orig.length = n) (hval : ∀ p < n, valid[p]? = some (decide (P p)))
    (hex : ∀ p < n, P p → ∀ nm, orig[p]? = some nm → nm ∉ existing) :
    ∀ i ≤ n, (List.range i).foldlM (nameStep orig valid existing) (List.replicate n none, base) =
      some (shiftedMap (fun j => P j ∧ j < i) base.length n,
        base ++ (keptBelow P i).filterMap (orig[·]?)) := by
  intro i
  induction i with
  | zero =>
    intro _
    rw [shiftedMap, rankMap_zero]
    simp [keptBelow]
  | succ i ih =>
    intro hi
    have hin : i < n := by omega
    rw [List.range_succ, foldlM_append_one, ih (by omega), Option.bind_some, nameStep, hval i hin,
      Option.bind_some]
    by_cases hP : P i
    · simp only [hP, decide_true, if_true]
      have hio : i < orig.length := by omega
      rw [List.getElem?_eq_getElem hio]
      simp only [Option.bind_some]
      rw [if_neg (hex i hin hP _ (List.getElem?_eq_getElem hio))]
      have hlen : ((keptBelow P i).filterMap (orig[·]?)).length = rankIn P i := by
        rw [filterMap_get_length]
        · rfl
        · intro k hk
          have := (mem_keptBelow.1 hk).1
          omega
      congr 1
      refine Prod.ext ?_ ?_
      · simp only
        rw [shiftedMap, shiftedMap, ← rankMap_set hin hP _ rfl, List.map_set]
        simp only [List.length_append, hlen, Option.map_some]
      · simp only
        rw [keptBelow_succ, if_pos hP, List.filterMap_append, List.append_assoc]
        simp [List.getElem?_eq_getElem hio]
    · simp only [hP, decide_false, Bool.false_eq_true, if_false]
      rw [shiftedMap, shiftedMap, rankMap_skip hP, keptBelow_succ, if_neg hP]

theorem nameFold_full {P : Nat → Prop} {orig existing base : List String} {valid : List Bool} {n : Nat}
    (hn : orig.length = n) (hval : ∀ p < n, valid[p]? = some (decide (P p)))
    (hex : ∀ p < n, P p → ∀ nm, orig[p]? = some nm → nm ∉ existing) :
    (List.range n).foldlM (nameStep orig valid existing) (List.replicate n none, base) =
      some (shiftedMap P base.length n, base ++ (keptBelow P n).filterMap (orig[·]?)) := by
  rw [nameFold hn hval hex n le_rfl, shiftedMap, shiftedMap, rankMap_full]

/-- An entry of the original matrix in the new matrix. -/
def mapParamEntry (jm o2n : List (Option Nat)) (e : Triplet K) : Option (Triplet K) :=
  match jm[e.row / 7]? with
  | some (some t) => match o2n[e.col]? with
    | some (some k) => some ⟨t * 7 + e.row % 7, k, e.val⟩
    | _ => none
  | _ => none

theorem mapParamEntries_of {jm o2n : List (Option Nat)} {es : List (Triplet K)}
    (h : ∀ e ∈ es, e.row / 7 < jm.length ∧ e.col < o2n.length) :
    mapParamEntries jm o2n es = some (es.filterMap (mapParamEntry jm o2n)) := by
  unfold mapParamEntries
  rw [mapM_of_forall (g := mapParamEntry jm o2n)]
  · simp only [Option.bind_eq_bind, Option.bind_some]
    rw [filterMap_id_map]
  · intro e he
    obtain ⟨h1, h2⟩ := h e he
    unfold mapParamEntry
    rw [List.getElem?_eq_getElem h1, List.getElem?_eq_getElem h2]
    simp only [Option.bind_eq_bind, Option.bind_some]
    cases jm[e.row / 7] with
    | none => rfl
    | some t => cases o2n[e.col] <;> rfl

theorem mapParamEntry_rowSum [CommRing K] {jm o2n : List (Option Nat)} (es : List (Triplet K))
    {j t d : Nat} (hd : d < 7) (hj : jm[j]? = some (some t))
    (hu : ∀ i : Nat, jm[i]? = some (some t) → i = j) (p q : List K)
    (hpq : ∀ e ∈ es, e.row / 7 = j → ∃ k, o2n[e.col]? = some (some k) ∧ q.getD k 0 = p.getD e.col 0) :
    (((es.filterMap (mapParamEntry jm o2n)).filter (·.row == t * 7 + d)).map
        fun e => e.val * q.getD e.col 0).sum =
      ((es.filter (·.row == j * 7 + d)).map fun e => e.val * p.getD e.col 0).sum := by
  induction es with
  | nil => rfl
  | cons e es ih =>
    have ih' := ih (fun e' he' => hpq e' (by simp [he']))
    rw [List.filterMap_cons]
    by_cases he : e.row / 7 = j
    · obtain ⟨k, hk1, hk2⟩ := hpq e (by simp) he
      have hm : mapParamEntry jm o2n e = some ⟨t * 7 + e.row % 7, k, e.val⟩ := by
        unfold mapParamEntry; rw [he, hj, hk1]
      rw [hm]
      simp only
      have hiff : (t * 7 + e.row % 7 = t * 7 + d) ↔ (e.row = j * 7 + d) := by omega
      by_cases hrow : e.row = j * 7 + d
      · rw [List.filter_cons_of_pos (by simpa using hiff.2 hrow), List.filter_cons_of_pos (by simpa using hrow)]
        simp only [List.map_cons, List.sum_cons, ih', hk2]
      · rw [List.filter_cons_of_neg (by simpa using fun h => hrow (hiff.1 (by omega))),
          List.filter_cons_of_neg (by simpa using hrow), ih']
    · have hne : ¬ e.row = j * 7 + d := by omega
      rw [List.filter_cons_of_neg (by simpa using hne), ← ih']
      cases hm : mapParamEntry jm o2n e with
      | none => rfl
      | some e' =>
        simp only
        rw [List.filter_cons_of_neg]
        intro hc
        have hc : e'.row = t * 7 + d := by simpa using hc
        unfold mapParamEntry at hm
        split at hm
        · rename_i t' ht'
          split at hm
          · simp only [Option.some.injEq] at hm
            subst hm
            simp only at hc
            have : t' = t := by omega
            subst this
            exact he (hu _ ht')
          · simp at hm
        · simp at hm

theorem setNamedParam_mem {sets r : List (String × ParameterSet)} {nm : String} {k : Nat}
    (h : setNamedParam sets nm k = some r) (a : String) (b : Nat) :
    NamedMem r a b ↔ NamedMem sets a b ∨ (a = nm ∧ b = k) := by
  unfold setNamedParam at h
  cases hf : sets.findIdx? (fun ns => ns.1 = nm) with
  | none =>
    rw [hf] at h
    simp only [Option.bind_eq_bind] at h
    cases ht : ParameterSet.empty.set k true with
    | none => rw [ht] at h; simp at h
    | some t =>
      rw [ht] at h
      simp only [Option.bind_some, Option.some.injEq] at h
      subst h
      have hm := fun j => (set_mem ht j).2
      unfold NamedMem
      simp only [List.mem_append, List.mem_singleton, Prod.mk.injEq]
      have he : ∀ i, ParameterSet.empty.mem i = false := by
        intro i; simp [ParameterSet.mem, ParameterSet.empty]
      constructor
      · rintro ⟨t', h1 | ⟨h1, h2⟩, h3⟩
        · exact .inl ⟨t', h1, h3⟩
        · subst h2
          right
          refine ⟨h1, ?_⟩
          rw [hm] at h3
          by_contra hne
          rw [if_neg hne, he] at h3
          simp at h3
      · rintro (⟨t', h1, h3⟩ | ⟨h1, h2⟩)
        · exact ⟨t', .inl h1, h3⟩
        · refine ⟨t, .inr ⟨h1, rfl⟩, ?_⟩
          rw [hm, if_pos h2]
  | some i =>
    rw [hf] at h
    simp only [Option.bind_eq_bind] at h
    obtain ⟨hi, hpi, -⟩ := List.findIdx?_eq_some_iff_getElem.1 hf
    rw [List.getElem?_eq_getElem hi] at h
    simp only [Option.bind_some] at h
    cases ht : (sets[i]).2.set k true with
    | none => rw [ht] at h; simp at h
    | some t =>
      rw [ht] at h
      simp only [Option.bind_some, Option.some.injEq] at h
      subst h
      have hnm : (sets[i]).1 = nm := by simpa using hpi
      have hm := fun j => (set_mem ht j).2
      unfold NamedMem
      constructor
      · rintro ⟨t', h1, h3⟩
        obtain ⟨x, hx1, hx2⟩ := List.mem_iff_getElem.1 h1
        by_cases hxi : i = x
        · subst hxi
          rw [List.getElem_set_self] at hx2
          have e1 : (sets[i]).1 = a := congrArg Prod.fst hx2
          have e2 : t = t' := congrArg Prod.snd hx2
          subst e2
          rw [hm] at h3
          by_cases hbk : b = k
          · right; exact ⟨e1.symm.trans hnm, hbk⟩
          · rw [if_neg hbk] at h3
            left
            refine ⟨(sets[i]).2, ?_, h3⟩
            rw [← e1]
            exact List.getElem_mem hi
        · rw [List.getElem_set_ne hxi] at hx2
          left
          exact ⟨t', hx2 ▸ List.getElem_mem _, h3⟩
      · rintro (⟨t', h1, h3⟩ | ⟨h1, h2⟩)
        · obtain ⟨x, hx1, hx2⟩ := List.mem_iff_getElem.1 h1
          by_cases hxi : i = x
          · subst hxi
            refine ⟨t, ?_, ?_⟩
            · apply List.mem_iff_getElem.2
              refine ⟨i, by simpa using hi, ?_⟩
              rw [List.getElem_set_self, hx2]
            · rw [hm]
              split_ifs
              · rfl
              · rw [hx2]; exact h3
          · refine ⟨t', ?_, h3⟩
            apply List.mem_iff_getElem.2
            refine ⟨x, by simpa using hx1, ?_⟩
            rw [List.getElem_set_ne hxi, hx2]
        · refine ⟨t, ?_, by rw [hm, if_pos h2]⟩
          apply List.mem_iff_getElem.2
          refine ⟨i, by simpa using hi, ?_⟩
          rw [List.getElem_set_self, hnm, h1]

theorem setNamedParam_of (sets : List (String × ParameterSet)) (nm : String) {k : Nat}
    (h : k < kMaxModelParams) : ∃ r, setNamedParam sets nm k = some r := by
  unfold setNamedParam
  cases hf : sets.findIdx? (fun ns => ns.1 = nm) with
  | none => exact ⟨_, by simp only [ParameterSet.set, h, if_true]; rfl⟩
  | some i =>
    obtain ⟨hi, -, -⟩ := List.findIdx?_eq_some_iff_getElem.1 hf
    exact ⟨_, by simp only [List.getElem?_eq_getElem hi, ParameterSet.set, h, if_true]; rfl⟩

theorem mergeStep1_of {ns : String × ParameterSet} {o2n : List (Option Nat)} {i : Nat}
    (hi : i < o2n.length) (hk : i < kMaxModelParams)
    (hb : ∀ k, o2n[i]? = some (some k) → k < kMaxModelParams) (acc : List (String × ParameterSet)) :
    ∃ r, mergeStep1 ns o2n acc i = some r ∧ ∀ a b, NamedMem r a b ↔ NamedMem acc a b ∨
      (a = ns.1 ∧ ns.2.mem i = true ∧ o2n[i]? = some (some b)) := by
  unfold mergeStep1
  rw [test_of_lt hk, Option.bind_some]
  by_cases hm : ns.2.mem i = true
  · simp only [hm, if_true, List.getElem?_eq_getElem hi, Option.bind_some]
    cases hmi : o2n[i] with
    | none => exact ⟨acc, rfl, by simp⟩
    | some k =>
      obtain ⟨r, hr⟩ := setNamedParam_of acc ns.1 (hb k (by rw [List.getElem?_eq_getElem hi, hmi]))
      refine ⟨r, hr, fun a b => ?_⟩
      rw [setNamedParam_mem hr]
      simp [eq_comm]
  · simp only [hm, if_false]
    exact ⟨acc, rfl, by simp⟩

theorem mergeInner_of {ns : String × ParameterSet} {o2n : List (Option Nat)}
    (hb : ∀ (i k : Nat), o2n[i]? = some (some k) → k < kMaxModelParams) :
    ∀ (l : List Nat), (∀ i ∈ l, i < o2n.length ∧ i < kMaxModelParams) →
    ∀ acc : List (String × ParameterSet), ∃ r, l.foldlM (mergeStep1 ns o2n) acc = some r ∧
      ∀ a b, NamedMem r a b ↔ NamedMem acc a b ∨
        ∃ i ∈ l, a = ns.1 ∧ ns.2.mem i = true ∧ o2n[i]? = some (some b) := by
  intro l
  induction l with
  | nil => intro _ acc; exact ⟨acc, rfl, by simp⟩
  | cons i l ih =>
    intro h acc
    obtain ⟨h1, h2⟩ := h i (by simp)
    obtain ⟨r1, e1, m1⟩ := mergeStep1_of h1 h2 (hb i) acc (ns := ns)
    obtain ⟨r2, e2, m2⟩ := ih (fun x hx => h x (by simp [hx])) r1
    refine ⟨r2, by rw [List.foldlM_cons, e1]; exact e2, fun a b => ?_⟩
    rw [m2, m1]
    simp only [List.mem_cons, exists_eq_or_imp]
    tauto

theorem mergeParamSets_of {n : Nat} {o2n : List (Option Nat)} (hn : n ≤ o2n.length)
    (hk : n ≤ kMaxModelParams) (hb : ∀ (i k : Nat), o2n[i]? = some (some k) → k < kMaxModelParams) :
    ∀ orig res : List (String × ParameterSet), ∃ r, mergeParamSets n o2n orig res = some r ∧
      ∀ a b, NamedMem r a b ↔ NamedMem res a b ∨
        ∃ i < n, NamedMem orig a i ∧ o2n[i]? = some (some b) := by
  intro orig
  induction orig with
  | nil => intro res; exact ⟨res, rfl, by simp [NamedMem]⟩
  | cons ns orig ih =>
    intro res
    obtain ⟨r1, e1, m1⟩ := mergeInner_of (ns := ns) hb (List.range n)
      (fun i hi => by have := List.mem_range.1 hi; omega) res
    obtain ⟨r2, e2, m2⟩ := ih r1
    refine ⟨r2, ?_, fun a b => ?_⟩
    · unfold mergeParamSets at e2 ⊢
      rw [List.foldlM_cons]
      rw [e1]
      exact e2
    · rw [m2, m1]
      have hc : ∀ i, NamedMem (ns :: orig) a i ↔ (a = ns.1 ∧ ns.2.mem i = true) ∨ NamedMem orig a i := by
        intro i
        unfold NamedMem
        constructor
        · rintro ⟨t, h1, h2⟩
          rcases List.mem_cons.1 h1 with h1 | h1
          · left; rw [← h1]; exact ⟨rfl, h2⟩
          · right; exact ⟨t, h1, h2⟩
        · rintro (⟨h1, h2⟩ | ⟨t, h1, h2⟩)
          · exact ⟨ns.2, by rw [h1]; exact List.mem_cons_self, h2⟩
          · exact ⟨t, List.mem_cons_of_mem _ h1, h2⟩
      simp only [hc, List.mem_range]
      constructor
      · rintro ((h | ⟨i, hi, h1, h2, h3⟩) | ⟨i, hi, h1, h2⟩)
        · exact .inl h
        · exact .inr ⟨i, hi, .inl ⟨h1, h2⟩, h3⟩
        · exact .inr ⟨i, hi, .inr h1, h2⟩
      · rintro (h | ⟨i, hi, ⟨h1, h2⟩ | h1, h3⟩)
        · exact .inl (.inl h)
        · exact .inl (.inr ⟨i, hi, h1, h2, h3⟩)
        · exact .inr ⟨i, hi, h1, h3⟩

/-- Everything `addMappedParameters` does to a transform whose rows are covered by the joint map. -/
theorem addMappedParameters_of {orig res : ParameterTransform K} {jm : List (Option Nat)}
    (hrows : orig.transform.rows ≤ 7 * jm.length) (hwf : orig.transform.WF)
    (hname : orig.name.length = orig.transform.cols)
    (hmax : res.name.length + orig.transform.cols ≤ kMaxModelParams)
    (hres : ∀ e ∈ res.transform.entries, e.row < res.transform.rows ∧ e.col < res.name.length)
    (hjm : ∀ (j t : Nat), jm[j]? = some (some t) → t * 7 + 6 < res.transform.rows)
    (hex : ∀ p < orig.transform.cols, Mapped jm orig.transform.entries p →
      ∀ nm, orig.name[p]? = some nm → nm ∉ res.name) :
    ∃ r sets, addMappedParameters orig jm res = some (r,
        shiftedMap (Mapped jm orig.transform.entries) res.name.length orig.transform.cols) ∧
      r = { res with
        name := res.name ++ (keptBelow (Mapped jm orig.transform.entries) orig.transform.cols).filterMap
          (orig.name[·]?)
        transform := ⟨res.transform.rows, res.name.length +
            rankIn (Mapped jm orig.transform.entries) orig.transform.cols,
          res.transform.entries ++ orig.transform.entries.filterMap (mapParamEntry jm
            (shiftedMap (Mapped jm orig.transform.entries) res.name.length orig.transform.cols))⟩
        parameterSets := sets } ∧
      ∀ a b, NamedMem sets a b ↔ NamedMem res.parameterSets a b ∨
        ∃ i < orig.transform.cols, NamedMem orig.parameterSets a i ∧
          Mapped jm orig.transform.entries i ∧
          b = res.name.length + rankIn (Mapped jm orig.transform.entries) i := by
  have hent : ∀ e ∈ orig.transform.entries, e.row / 7 < jm.length ∧ e.col < orig.transform.cols := by
    intro e he
    obtain ⟨h1, h2⟩ := hwf e he
    exact ⟨by omega, h2⟩
  obtain ⟨valid, hv1, hv2, hv3⟩ := validParams_of hent
  set P := Mapped jm orig.transform.entries with hP
  have hnf := nameFold_full (base := res.name) hname hv3 hex
  have hlen : (shiftedMap P res.name.length orig.transform.cols).length = orig.transform.cols := by
    simp [shiftedMap, rankMap_length]
  have hmp := mapParamEntries_of (jm := jm) (o2n := shiftedMap P res.name.length orig.transform.cols)
    (es := orig.transform.entries) (fun e he => ⟨(hent e he).1, by rw [hlen]; exact (hent e he).2⟩)
  have hget : ∀ (i k : Nat), (shiftedMap P res.name.length orig.transform.cols)[i]? = some (some k) ↔
      i < orig.transform.cols ∧ P i ∧ k = res.name.length + rankIn P i := by
    intro i k
    constructor
    · intro h
      have hi : i < orig.transform.cols := by
        have := (List.getElem?_eq_some_iff.1 h).1
        rwa [hlen] at this
      rw [shiftedMap_get hi] at h
      by_cases hPi : P i
      · rw [if_pos hPi] at h
        exact ⟨hi, hPi, by simpa using h.symm⟩
      · rw [if_neg hPi] at h; simp at h
    · rintro ⟨hi, hPi, hk⟩
      rw [shiftedMap_get hi, if_pos hPi, hk]
  have hrk : ∀ i, i < orig.transform.cols → P i → rankIn P i < rankIn P orig.transform.cols :=
    fun i hi hPi => rankIn_lt hi hPi
  have hrkle : rankIn P orig.transform.cols ≤ orig.transform.cols := by
    rw [← keptBelow_length]
    exact (List.length_filter_le _ _).trans (by simp)
  obtain ⟨sets, hs1, hs2⟩ := mergeParamSets_of (n := orig.transform.cols)
    (o2n := shiftedMap P res.name.length orig.transform.cols) (by rw [hlen]) (by omega)
    (fun i k h => by
      obtain ⟨hi, hPi, hk⟩ := (hget i k).1 h
      have := hrk i hi hPi
      omega) orig.parameterSets res.parameterSets
  have hnl : (res.name ++ (keptBelow P orig.transform.cols).filterMap (orig.name[·]?)).length =
      res.name.length + rankIn P orig.transform.cols := by
    rw [List.length_append, filterMap_get_length]
    · rfl
    · intro k hk
      have := (mem_keptBelow.1 hk).1
      omega
  refine ⟨_, sets, ?_, rfl, fun a b => ?_⟩
  · unfold addMappedParameters
    rw [if_pos hrows, hv1]
    simp only [Option.bind_eq_bind, Option.bind_some]
    rw [hnf]
    simp only [Option.bind_some]
    rw [hmp]
    simp only [Option.bind_some]
    rw [hs1]
    simp only [Option.bind_some]
    rw [hnl, if_pos]
    rw [List.all_eq_true]
    intro e he
    simp only [Bool.and_eq_true, decide_eq_true_eq]
    rcases List.mem_append.1 he with he | he
    · have := hres e he
      omega
    · obtain ⟨e0, he0, hm⟩ := List.mem_filterMap.1 he
      unfold mapParamEntry at hm
      split at hm
      · rename_i t ht
        split at hm
        · rename_i k hk
          simp only [Option.some.injEq] at hm
          subst hm
          obtain ⟨hi, hPi, hk'⟩ := (hget _ _).1 hk
          have := hrk _ hi hPi
          have := hjm _ _ ht
          simp only
          omega
        · simp at hm
      · simp at hm
  · rw [hs2]
    simp only [hget]
    constructor
    · rintro (h | ⟨i, hi, h1, -, h2, h3⟩)
      · exact .inl h
      · exact .inr ⟨i, hi, h1, h2, h3⟩
    · rintro (h | ⟨i, hi, h1, h2, h3⟩)
      · exact .inl h
      · exact .inr ⟨i, hi, h1, hi, h2, h3⟩

end
end Momentum
