import Verif.Lemmas.ParameterTransform2

namespace Momentum
open ParameterTransform

variable {K : Type} [CommRing K]

theorem setChecked_some {α : Type} {v w : List α} {i : Nat} {x : α} (h : setChecked v i x = some w) :
    i < v.length ∧ w = v.set i x := by
  unfold setChecked at h
  split at h
  · rename_i hi; exact ⟨hi, by simpa using h.symm⟩
  · simp at h

theorem mapJointOffsets_step {old acc r : List K} {i t n : Nat}
    (h : (List.range n).foldlM (init := acc) (fun acc d => do
      let x ← old[i * 7 + d]?
      setChecked acc (t * 7 + d) x) = some r) :
    r.length = acc.length ∧
    (∀ d < n, t * 7 + d < acc.length ∧ (∃ x, old[i * 7 + d]? = some x) ∧
      r[t * 7 + d]? = old[i * 7 + d]?) ∧
    (∀ k, (∀ d < n, k ≠ t * 7 + d) → r[k]? = acc[k]?) := by
  induction n generalizing r with
  | zero => simp at h; subst h; simp
  | succ n ih =>
    rw [List.range_succ, foldlM_append_one] at h
    simp only [Option.bind_eq_some_iff, Option.bind_eq_bind] at h
    obtain ⟨r', h1, x, hx, h2⟩ := h
    obtain ⟨hlen, hs, hf⟩ := ih h1
    obtain ⟨hi, rfl⟩ := setChecked_some h2
    refine ⟨by simpa using hlen, ?_, ?_⟩
    · intro d hd
      by_cases hdn : d = n
      · subst hdn
        exact ⟨by omega, ⟨x, hx⟩, by rw [List.getElem?_set_self hi, hx]⟩
      · obtain ⟨a, b, c⟩ := hs d (by omega)
        exact ⟨a, b, by rw [List.getElem?_set_ne (by omega), c]⟩
    · intro k hk
      rw [List.getElem?_set_ne (fun h => hk n (by omega) h.symm)]
      exact hf k fun d hd => hk d (by omega)

theorem mapJointOffsets_some {old acc r : List K} {i : Nat} {m : Option Nat}
    (h : mapJointOffsets old acc i m = some r) :
    r.length = acc.length ∧
    (∀ k, m ≠ some (k / 7) → r[k]? = acc[k]?) ∧
    (∀ k, m = some (k / 7) → r[k]? = old[i * 7 + k % 7]? ∧ ∃ x, old[i * 7 + k % 7]? = some x) := by
  unfold mapJointOffsets at h
  cases m with
  | none => simp at h; subst h; simp
  | some t =>
    obtain ⟨h1, h2, h3⟩ := mapJointOffsets_step h
    refine ⟨h1, ?_, ?_⟩
    · intro k hk
      apply h3
      intro d hd he
      apply hk
      rw [he]; congr 1; omega
    · intro k hk
      simp only [Option.some.injEq] at hk
      obtain ⟨_, hx, he⟩ := h2 (k % 7) (Nat.mod_lt _ (by omega))
      have : t * 7 + k % 7 = k := by omega
      rw [this] at he
      exact ⟨he, hx⟩

theorem mapOffsets_fold {old acc r : List K} {l : List (Option Nat)} {k0 : Nat}
    (h : (l.zipIdx k0).foldlM (init := acc) (fun acc mi => mapJointOffsets old acc mi.2 mi.1) = some r) :
    r.length = acc.length ∧
    (∀ k, (∀ i : Nat, l[i]? ≠ some (some (k / 7))) → r[k]? = acc[k]?) ∧
    (∀ (k i : Nat), l[i]? = some (some (k / 7)) → (∀ j : Nat, l[j]? = some (some (k / 7)) → j = i) →
      r[k]? = old[(k0 + i) * 7 + k % 7]? ∧ ∃ x, old[(k0 + i) * 7 + k % 7]? = some x) := by
  induction l generalizing acc k0 with
  | nil => simp at h; subst h; simp
  | cons m l ih =>
    rw [List.zipIdx_cons, List.foldlM_cons] at h
    simp only [Option.bind_eq_bind, Option.bind_eq_some_iff] at h
    obtain ⟨acc', h1, h2⟩ := h
    obtain ⟨s1, s2, s3⟩ := mapJointOffsets_some h1
    obtain ⟨t1, t2, t3⟩ := ih h2
    refine ⟨by omega, ?_, ?_⟩
    · intro k hk
      rw [t2 k fun i => by simpa using hk (i + 1), s2 k]
      intro hm; exact hk 0 (by simp [hm])
    · intro k i hi hu
      cases i with
      | zero =>
        simp only [List.getElem?_cons_zero, Option.some.injEq] at hi
        rw [t2 k]
        · exact s3 k hi
        · intro j hj
          have := hu (j + 1) (by simpa using hj)
          omega
      | succ i =>
        simp only [List.getElem?_cons_succ] at hi
        have := t3 k i hi fun j hj => by
          have := hu (j + 1) (by simpa using hj); omega
        rw [show k0 + (i + 1) = k0 + 1 + i by omega]
        exact this

/-- Renaming of the row of a coefficient under a joint map. -/
def renRow (jm : List (Option Nat)) (e : Triplet K) : Option (Triplet K) :=
  match jm[e.row / 7]? with
  | some (some t) => some ⟨t * 7 + e.row % 7, e.col, e.val⟩
  | _ => none

theorem mapJointEntries_some {jm : List (Option Nat)} {es r : List (Triplet K)}
    (h : mapJointEntries jm es = some r) :
    r = es.filterMap (renRow jm) ∧ ∀ e ∈ es, e.row / 7 < jm.length := by
  unfold mapJointEntries at h
  cases hm : es.mapM (fun e => do
    let m ← jm[e.row / 7]?
    some (m.map fun t => (⟨t * 7 + e.row % 7, e.col, e.val⟩ : Triplet K))) with
  | none => rw [hm] at h; simp at h
  | some l =>
    rw [hm] at h
    simp only [Option.bind_eq_bind, Option.bind_some, Option.some.injEq] at h
    constructor
    · rw [← h, mapM_eq_map (g := renRow jm) hm, filterMap_id_map]
      intro e _ b hb
      unfold renRow
      cases hj : jm[e.row / 7]? with
      | none => simp [hj] at hb
      | some m => cases m <;> simp [hj] at hb <;> simp [hb]
    · intro e he
      obtain ⟨b, _, hb⟩ := mapM_mem hm he
      by_contra hc
      rw [List.getElem?_eq_none (by omega)] at hb
      simp at hb

theorem mapJointEntries_of {jm : List (Option Nat)} {es : List (Triplet K)}
    (h : ∀ e ∈ es, e.row / 7 < jm.length) :
    mapJointEntries jm es = some (es.filterMap (renRow jm)) := by
  unfold mapJointEntries
  rw [mapM_of_forall (g := renRow jm)]
  · simp only [Option.bind_eq_bind, Option.bind_some]
    rw [filterMap_id_map]
  · intro e he
    unfold renRow
    rw [List.getElem?_eq_getElem (h e he)]
    simp only [Option.bind_eq_bind, Option.bind_some]
    cases jm[e.row / 7]'(h e he) <;> rfl

theorem renRow_coeff {jm : List (Option Nat)} (es : List (Triplet K)) (rows cols rows' cols' : Nat)
    {i t d : Nat} (hd : d < 7) (hi : jm[i]? = some (some t))
    (hu : ∀ j : Nat, jm[j]? = some (some t) → j = i) (c : Nat) :
    SparseMat.coeff ⟨rows', cols', es.filterMap (renRow jm)⟩ (t * 7 + d) c
      = SparseMat.coeff ⟨rows, cols, es⟩ (i * 7 + d) c := by
  induction es with
  | nil => rfl
  | cons e es ih =>
    rw [coeff_cons, ← ih, List.filterMap_cons]
    by_cases he : e.row / 7 = i
    · have : renRow jm e = some ⟨t * 7 + e.row % 7, e.col, e.val⟩ := by
        unfold renRow; rw [he, hi]
      rw [this]
      simp only
      rw [coeff_cons]
      congr 1
      have : (t * 7 + e.row % 7 = t * 7 + d) ↔ (e.row = i * 7 + d) := by omega
      simp only [this]
    · rw [if_neg (by rintro ⟨h1, _⟩; omega), zero_add]
      cases hr : renRow jm e with
      | none => rfl
      | some e' =>
        simp only
        rw [coeff_cons, if_neg, zero_add]
        rintro ⟨h1, _⟩
        unfold renRow at hr
        split at hr
        · rename_i t' ht'
          simp only [Option.some.injEq] at hr
          subst hr
          simp only at h1
          have : t' = t := by omega
          subst this
          exact he (hu _ ht')
        · simp at hr

theorem renRow_coeff_zero {jm : List (Option Nat)} (es : List (Triplet K)) (rows' cols' : Nat)
    {r : Nat} (hu : ∀ j : Nat, jm[j]? ≠ some (some (r / 7))) (c : Nat) :
    SparseMat.coeff ⟨rows', cols', es.filterMap (renRow jm)⟩ r c = 0 := by
  induction es with
  | nil => rfl
  | cons e es ih =>
    rw [List.filterMap_cons]
    cases hr : renRow jm e with
    | none => exact ih
    | some e' =>
      simp only
      rw [coeff_cons, ih, if_neg, add_zero]
      rintro ⟨h1, _⟩
      unfold renRow at hr
      split at hr
      · rename_i t' ht'
        simp only [Option.some.injEq] at hr
        subst hr
        simp only at h1
        have : t' = r / 7 := by omega
        subst this
        exact hu _ ht'
      · simp at hr

theorem foldlM_setChecked {α : Type} (x : α) (es : List Nat) (acc : List α)
    (h : ∀ i ∈ es, i < acc.length) :
    es.foldlM (init := acc) (fun acc i => setChecked acc i x)
      = some (es.foldl (fun acc i => acc.set i x) acc) := by
  induction es generalizing acc with
  | nil => rfl
  | cons i es ih =>
    rw [List.foldlM_cons, setChecked, if_pos (h i List.mem_cons_self)]
    simp only [Option.bind_eq_bind, Option.bind_some, List.foldl_cons]
    apply ih
    intro j hj
    rw [List.length_set]
    exact h j (List.mem_cons_of_mem _ hj)

/-! ### index sets -/

theorem indexSet_append_one (b : List Int) (x : Int) :
    indexSet (b ++ [x]) = (indexSet b).bind fun acc =>
      if 0 ≤ x then acc.set x.toNat true else some acc := by
  unfold indexSet
  rw [foldlM_append_one]

theorem set_mem {s t : ParameterSet} {i : Nat} {b : Bool} (h : s.set i b = some t) (j : Nat) :
    i < kMaxModelParams ∧ t.mem j = if j = i then b else s.mem j := by
  unfold ParameterSet.set at h
  split at h
  · rename_i hi
    refine ⟨hi, ?_⟩
    have h := Option.some.inj h
    subst h
    unfold ParameterSet.mem
    by_cases hj : j < kMaxModelParams
    · rw [dif_pos hj, dif_pos hj]
    · rw [dif_neg hj, dif_neg hj, if_neg (by omega)]
  · simp at h

theorem indexSet_mem {b : List Int} {s : ParameterSet} (h : indexSet b = some s) (i : Nat) :
    s.mem i = true ↔ (i : Int) ∈ b := by
  induction b using List.reverseRecOn generalizing s with
  | nil =>
    simp [indexSet] at h
    subst h
    simp [ParameterSet.mem, ParameterSet.empty]
  | append_singleton b x ih =>
    rw [indexSet_append_one, Option.bind_eq_some_iff] at h
    obtain ⟨a, h1, h2⟩ := h
    have ih := ih h1
    split at h2
    · rw [(set_mem h2 i).2]
      by_cases hi : i = x.toNat
      · rw [if_pos hi]; simp; right; omega
      · rw [if_neg hi, ih]; simp; intro h; omega
    · simp only [Option.some.injEq] at h2
      subst h2
      rw [ih]; simp; intro h; omega

theorem indexSet_of {b : List Int} (h : ∀ x ∈ b, x < kMaxModelParams) : ∃ s, indexSet b = some s := by
  induction b using List.reverseRecOn with
  | nil => exact ⟨_, rfl⟩
  | append_singleton b x ih =>
    obtain ⟨s, hs⟩ := ih fun y hy => h y (by simp [hy])
    rw [indexSet_append_one, hs]
    simp only [Option.bind_some]
    split
    · unfold ParameterSet.set
      rw [if_pos (by have := h x (by simp); omega)]
      exact ⟨_, rfl⟩
    · exact ⟨_, rfl⟩

theorem set_ext {s t : ParameterSet} (h : ∀ i < kMaxModelParams, s.mem i = t.mem i) : s = t := by
  funext i
  have := h i.val i.isLt
  unfold ParameterSet.mem at this
  rw [dif_pos i.isLt, dif_pos i.isLt] at this
  exact this

end Momentum
