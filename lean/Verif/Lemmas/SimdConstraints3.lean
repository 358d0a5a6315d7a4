import Verif.Lemmas.SimdConstraints2
import Mathlib.Data.List.Perm.Lattice
import Mathlib.Data.List.Induction

/-!
# What the store holds after concurrent calls
-/

namespace Momentum
namespace AddSystem
variable {K : Type} {n : Nat}

/-- The calls before their first step. -/
def fresh (calls : List (Nat × (Fin (n + 1) → K))) : List (ConstraintCall K n) := calls.map fun c => ⟨c.1, c.2, .start⟩

theorem fresh_start {calls : List (Nat × (Fin (n + 1) → K))} {c : ConstraintCall K n} (h : c ∈ fresh calls) : c.pc = .start := by
  simp only [fresh, List.mem_map] at h
  obtain ⟨a, -, rfl⟩ := h
  rfl

theorem fresh_undos (calls : List (Nat × (Fin (n + 1) → K))) (j : Nat) : undos (fresh calls) j = 0 := by
  unfold undos
  rw [List.countP_eq_zero]
  intro c hc
  rw [fresh_start hc]
  simp

theorem fresh_claim (calls : List (Nat × (Fin (n + 1) → K))) (t : Nat) : claimOf (fresh calls) t = none := by
  unfold claimOf
  cases h : (fresh calls)[t]? with
  | none => rfl
  | some c => rw [Option.bind_some, fresh_start (List.mem_of_getElem? h)]; rfl

theorem fresh_inv {S : SimdStore K n} (hc : ∀ j < S.numJoints, S.count j ≤ kMaxConstraints)
    (calls : List (Nat × (Fin (n + 1) → K))) : Inv S calls ⟨S, fresh calls⟩ fun _ => [] := by
  refine ⟨rfl, ?_, ?_, ?_, ?_, ?_, ?_, ?_, fun a => .inl rfl⟩
  · show (fresh calls).map _ = calls
    unfold fresh
    rw [List.map_map]
    exact List.map_id calls
  · intro j i t; simp [fresh_claim]
  · intro t j x h; simp only [fresh_claim] at h; cases h
  · intro j hj; simpa using hc j hj
  · intro j; simp [fresh_undos]
  · rintro j (h | ⟨c, h1, h2, h3⟩)
    · simp [fresh_undos] at h
    · rw [fresh_start h1] at h3; cases h3
  · intro t c i h1 h2
    rw [fresh_start (List.mem_of_getElem? h1)] at h2; cases h2

theorem fresh_sane (S : SimdStore K n) (calls : List (Nat × (Fin (n + 1) → K))) : Sane ⟨S, fresh calls⟩ := by
  intro c hc; rw [fresh_start hc]; trivial

/-- The two ways to obtain an entry. -/
def Steps (one : SimdStore K n → ConstraintCall K n → Bool → Option (SimdStore K n × AddPc)) : Prop :=
  one = fetchStep ∨ one = swapStep

theorem run_inv {one : SimdStore K n → ConstraintCall K n → Bool → Option (SimdStore K n × AddPc)} (ho : Steps one)
    {S : SimdStore K n} {calls : List (Nat × (Fin (n + 1) → K))} (hj : ∀ c ∈ calls, c.1 < S.numJoints)
    (hJ : S.numJoints ≤ kMaxSimdJoints) (hc : ∀ j < S.numJoints, S.count j ≤ kMaxConstraints)
    (schedule : List (Nat × Bool)) :
    ∃ s claims, run one ⟨S, fresh calls⟩ schedule = some s ∧ Inv S calls s claims ∧ s.Sane := by
  rcases ho with rfl | rfl
  · have : ∀ (l : List (Nat × Bool)) (s : AddSystem K n) (claims : Nat → List Nat), Inv S calls s claims → s.Sane →
        ∃ s' claims', run fetchStep s l = some s' ∧ Inv S calls s' claims' ∧ s'.Sane := by
      intro l
      induction l with
      | nil => intro s claims h hs; exact ⟨s, claims, rfl, h, hs⟩
      | cons e l ih =>
        intro s claims h hs
        obtain ⟨s1, c1, e1, h1, hs1⟩ := fetch_inv h hs hj hJ e
        obtain ⟨s2, c2, e2, h2, hs2⟩ := ih s1 c1 h1 hs1
        refine ⟨s2, c2, ?_, h2, hs2⟩
        unfold run at e2 ⊢
        rw [List.foldlM_cons, e1]; exact e2
    exact this schedule _ _ (fresh_inv hc calls) (fresh_sane S calls)
  · have : ∀ (l : List (Nat × Bool)) (s : AddSystem K n) (claims : Nat → List Nat), Inv S calls s claims → s.Sane →
        (∀ j, undos s.calls j = 0) → ∃ s' claims', run swapStep s l = some s' ∧ Inv S calls s' claims' ∧ s'.Sane := by
      intro l
      induction l with
      | nil => intro s claims h hs hu; exact ⟨s, claims, rfl, h, hs⟩
      | cons e l ih =>
        intro s claims h hs hu
        obtain ⟨s1, c1, e1, h1, hs1, hu1⟩ := swap_inv h hs hu hj hJ e
        obtain ⟨s2, c2, e2, h2, hs2⟩ := ih s1 c1 h1 hs1 hu1
        refine ⟨s2, c2, ?_, h2, hs2⟩
        unfold run at e2 ⊢
        rw [List.foldlM_cons, e1]; exact e2
    exact this schedule _ _ (fresh_inv hc calls) (fresh_sane S calls) (fresh_undos calls)

/-- The values of thread `t`. -/
def valsOf (calls : List (Nat × (Fin (n + 1) → K))) (t : Nat) : Option (Fin (n + 1) → K) := calls[t]?.map (·.2)

/-- All calls have returned. -/
def Returned (s : AddSystem K n) : Prop := ∀ c ∈ s.calls, ∃ o, c.pc = .done o

/-- The threads with calls for joint `j`. -/
def threadsFor (calls : List (Nat × (Fin (n + 1) → K))) (j : Nat) : List Nat :=
  (List.range calls.length).filter fun t => (calls[t]?.map (·.1)) = some j

theorem callsFor_threads (calls : List (Nat × (Fin (n + 1) → K))) (j : Nat) :
    (threadsFor calls j).filterMap (valsOf calls) = callsFor calls j := by
  induction calls using List.reverseRecOn with
  | nil => rfl
  | append_singleton l c ih =>
    unfold threadsFor callsFor at *
    rw [List.length_append, List.length_singleton, List.range_succ, List.filter_append, List.filterMap_append,
      List.filter_append, List.map_append]
    congr 1
    · rw [← ih]
      have : ∀ t ∈ List.range l.length, (l ++ [c])[t]? = l[t]? := fun t ht =>
        List.getElem?_append_left (List.mem_range.1 ht)
      rw [List.filter_congr (q := fun t => decide (l[t]?.map (·.1) = some j)) (fun t ht => by rw [this t ht])]
      refine List.filterMap_congr fun t ht => ?_
      unfold valsOf
      rw [this t (List.mem_of_mem_filter ht)]
    · by_cases h : c.1 = j <;> simp [valsOf, h]

theorem Inv.finish [Zero K] {S : SimdStore K n} {C : Nat → List (Fin (n + 1) → K)} (hS : S.Holds C)
    {calls : List (Nat × (Fin (n + 1) → K))} (hj : ∀ c ∈ calls, c.1 < S.numJoints) {s : AddSystem K n}
    {claims : Nat → List Nat} (h : Inv S calls s claims) (hr : s.Returned) :
    ∃ acc : Nat → List (Fin (n + 1) → K), s.store.numJoints = S.numJoints ∧ s.store.Holds (fun j => C j ++ acc j) ∧
      (∀ j, (acc j).Subperm (callsFor calls j)) ∧
      ∀ j, (acc j).length = min (kMaxConstraints - (C j).length) (callsFor calls j).length := by
  have hlen : s.calls.length = calls.length := by
    have := congrArg List.length h.calls; simpa using this
  have hcall : ∀ (t : Nat) (c : ConstraintCall K n), s.calls[t]? = some c → calls[t]? = some (c.joint, c.vals) := by
    intro t c hc
    rw [← h.calls, List.getElem?_map, hc]; rfl
  have hclaim : ∀ t j i, claimOf s.calls t = some (j, i) → ∃ c, s.calls[t]? = some c ∧ c.joint = j ∧ c.pc = .done (some i) := by
    intro t j i hc
    unfold claimOf at hc
    rw [Option.bind_eq_some_iff] at hc
    obtain ⟨c, h1, h2⟩ := hc
    obtain ⟨o, ho⟩ := hr c (List.mem_of_getElem? h1)
    rw [ho] at h2
    cases o with
    | none => cases h2
    | some x =>
      simp only [AddPc.index, Option.map_some, Option.some.injEq, Prod.mk.injEq] at h2
      exact ⟨c, h1, h2.1, by rw [ho, h2.2]⟩
  have hmemc : ∀ j, ∀ t ∈ claims j, ∃ i c, claimOf s.calls t = some (j, S.count j + i) ∧ s.calls[t]? = some c ∧ c.joint = j := by
    intro j t ht
    obtain ⟨i, hi⟩ := List.mem_iff_getElem?.1 ht
    have := (h.claim j i t).1 hi
    obtain ⟨c, h1, h2, -⟩ := hclaim _ _ _ this
    exact ⟨i, c, this, h1, h2⟩
  have hnodup : ∀ j, (claims j).Nodup := by
    intro j
    rw [List.nodup_iff_getElem?_ne_getElem?]
    intro a b hab hb e
    have hbv := List.getElem?_eq_getElem hb
    rw [hbv] at e
    have h1 := (h.claim j a _).1 e
    have h2 := (h.claim j b _).1 hbv
    rw [h1] at h2
    simp only [Option.some.injEq, Prod.mk.injEq, true_and] at h2
    omega
  have hsub : ∀ j, claims j ⊆ threadsFor calls j := by
    intro j t ht
    obtain ⟨i, c, -, h2, h3⟩ := hmemc j t ht
    have hcc := hcall t c h2
    have hl := (List.getElem?_eq_some_iff.1 hcc).1
    simp only [threadsFor, List.mem_filter, List.mem_range, hcc, Option.map_some, h3, decide_true, and_true]
    exact hl
  have hperm : ∀ j, (claims j).Subperm (threadsFor calls j) := fun j => (hnodup j).subperm (hsub j)
  have hund : ∀ j, undos s.calls j = 0 := by
    intro j
    unfold undos
    rw [List.countP_eq_zero]
    intro c hc
    obtain ⟨o, ho⟩ := hr c hc
    rw [ho]; simp
  let acc : Nat → List (Fin (n + 1) → K) := fun j => (claims j).filterMap (valsOf calls)
  have hacc : ∀ j i t, (claims j)[i]? = some t → ∃ c, s.calls[t]? = some c ∧ c.joint = j ∧
      c.pc = .done (some (S.count j + i)) ∧ valsOf calls t = some c.vals := by
    intro j i t ht
    obtain ⟨c, h1, h2, h3⟩ := hclaim _ _ _ ((h.claim j i t).1 ht)
    exact ⟨c, h1, h2, h3, by unfold valsOf; rw [hcall t c h1]; rfl⟩
  have hsome : ∀ j, acc j = (claims j).map fun t => (valsOf calls t).getD (fun _ => 0) := by
    intro j
    have : ∀ l : List Nat, (∀ t ∈ l, ∃ v, valsOf calls t = some v) →
        l.filterMap (valsOf calls) = l.map fun t => (valsOf calls t).getD (fun _ => 0) := by
      intro l
      induction l with
      | nil => intro _; rfl
      | cons t l ih =>
        intro hl
        obtain ⟨v, hv⟩ := hl t (by simp)
        rw [List.filterMap_cons, List.map_cons, hv, ih fun t' ht' => hl t' (by simp [ht'])]
        rfl
    refine this _ fun t ht => ?_
    obtain ⟨i, hi⟩ := List.mem_iff_getElem?.1 ht
    obtain ⟨c, -, -, -, hv⟩ := hacc j i t hi
    exact ⟨_, hv⟩
  have haccl : ∀ j, (acc j).length = (claims j).length := by intro j; rw [hsome, List.length_map]
  have haccg : ∀ (j i : Nat) (v : Fin (n + 1) → K), (acc j)[i]? = some v → ∃ (t : Nat) (c : ConstraintCall K n), s.calls[t]? = some c ∧ c.joint = j ∧
      c.pc = .done (some (S.count j + i)) ∧ c.vals = v := by
    intro j i v hv
    rw [hsome, List.getElem?_map, Option.map_eq_some_iff] at hv
    obtain ⟨t, ht, hv⟩ := hv
    obtain ⟨c, h1, h2, h3, h4⟩ := hacc j i t ht
    refine ⟨t, c, h1, h2, h3, ?_⟩
    rw [h4] at hv; exact hv
  have hsubp : ∀ j, (acc j).Subperm (callsFor calls j) := by
    intro j
    rw [← callsFor_threads]
    obtain ⟨l, h1, h2⟩ := hperm j
    exact ⟨_, h1.filterMap _, h2.filterMap _⟩
  have hcnt : ∀ j < S.numJoints, S.count j = (C j).length := hS.count
  have hcallsl : ∀ j, (callsFor calls j).length = (threadsFor calls j).length := by
    intro j
    rw [← callsFor_threads]
    have : ∀ l : List Nat, (∀ t ∈ l, t < calls.length) → (l.filterMap (valsOf calls)).length = l.length := by
      intro l
      induction l with
      | nil => intro _; rfl
      | cons t l ih =>
        intro hl
        have ht := hl t (by simp)
        have : valsOf calls t = some (calls[t]).2 := by unfold valsOf; rw [List.getElem?_eq_getElem ht]; rfl
        rw [List.filterMap_cons, this, List.length_cons, List.length_cons, ih fun t' ht' => hl t' (by simp [ht'])]
    exact this _ fun t ht => List.mem_range.1 (List.mem_of_mem_filter ht)
  have hclen : ∀ j, (acc j).length = min (kMaxConstraints - (C j).length) (callsFor calls j).length := by
    intro j
    rw [haccl, hcallsl]
    have hle := (hperm j).length_le
    by_cases hjl : j < S.numJoints
    · have hroom := h.room j hjl
      rw [hcnt j hjl] at hroom
      by_cases href : ∃ c ∈ s.calls, c.joint = j ∧ c.pc = .done none
      · have := h.full j (.inr href)
        rw [hcnt j hjl] at this
        omega
      · have hback : threadsFor calls j ⊆ claims j := by
          intro t ht
          simp only [threadsFor, List.mem_filter, List.mem_range, decide_eq_true_eq] at ht
          obtain ⟨ht1, ht2⟩ := ht
          have hts : s.calls[t]? = some (s.calls[t]'(by omega)) := List.getElem?_eq_getElem _
          have hcc := hcall t _ hts
          rw [hcc] at ht2
          simp only [Option.map_some, Option.some.injEq] at ht2
          obtain ⟨o, ho⟩ := hr _ (List.mem_of_getElem? hts)
          cases o with
          | none => exact absurd ⟨_, List.mem_of_getElem? hts, ht2, ho⟩ href
          | some x =>
            have hx : claimOf s.calls t = some (j, x) := by rw [claimOf_self hts, ho, ht2]; rfl
            have hlo := h.lower _ _ _ hx
            have : (claims j)[x - S.count j]? = some t := (h.claim j _ t).2 (by rw [hx]; congr 2; omega)
            exact List.mem_of_getElem? this
        have hnd : (threadsFor calls j).Nodup := List.nodup_range.filter _
        have := (hnd.subperm hback).length_le
        omega
    · have : threadsFor calls j = [] := by
        rw [List.eq_nil_iff_forall_not_mem]
        intro t ht
        simp only [threadsFor, List.mem_filter, List.mem_range, decide_eq_true_eq] at ht
        rw [List.getElem?_eq_getElem ht.1] at ht
        simp only [Option.map_some, Option.some.injEq] at ht
        have := hj _ (List.getElem_mem ht.1)
        omega
      rw [this] at hle ⊢
      simp only [List.length_nil, Nat.le_zero_eq] at hle ⊢
      omega
  refine ⟨acc, h.joints, ?_, hsubp, hclen⟩
  have hmemold : ∀ j < S.numJoints, ∀ (i k : Nat), i < kMaxConstraints → k < n + 1 →
      (i < (C j).length ∨ (C j).length + (acc j).length ≤ i) →
      s.store.mem (k * (kMaxConstraints * S.numJoints) + (j * kMaxConstraints + i)) =
        S.mem (k * (kMaxConstraints * S.numJoints) + (j * kMaxConstraints + i)) := by
    intro j hjl i k hi hk hor
    rcases h.kept (k * (kMaxConstraints * S.numJoints) + (j * kMaxConstraints + i)) with e | ⟨t, j', i', k', e1, e2, e3⟩
    · exact e
    · exfalso
      obtain ⟨l1, l2⟩ := h.claim_lt hj e1
      obtain ⟨-, e4, e5⟩ := slot_inj hjl l1 hi l2 e3
      subst e4 e5
      have hlo := h.lower _ _ _ e1
      have : (claims j)[i - S.count j]? = some t := (h.claim j _ t).2 (by rw [e1]; congr 2; omega)
      have hlt := (List.getElem?_eq_some_iff.1 this).1
      rw [haccl] at hor
      rw [hcnt j hjl] at hlo hlt
      omega
  have hcap : ∀ j < S.numJoints, (C j).length + (acc j).length ≤ kMaxConstraints := by
    intro j hjl
    have := hS.room j hjl
    have := hclen j
    omega
  constructor
  · intro j hjl
    rw [h.joints] at hjl
    rw [h.count, hund, List.length_append, haccl, hcnt j hjl]; rfl
  · intro j hjl
    rw [h.joints] at hjl
    rw [List.length_append]; exact hcap j hjl
  · intro j hjl i c hc k
    rw [h.joints] at hjl ⊢
    rw [List.getElem?_append] at hc
    split at hc
    · next hi =>
      rw [hmemold j hjl i k (by have := hcap j hjl; omega) k.2 (.inl hi)]
      exact hS.vals j hjl i c hc k
    · next hi =>
      obtain ⟨t, d, h1, h2, h3, h4⟩ := haccg j _ c hc
      have hx : S.count j + (i - (C j).length) = i := by rw [hcnt j hjl]; omega
      rw [hx] at h3
      have := h.stored t d i h1 (by rw [h3]; rfl) k k.2 (by rw [h3]; exact k.2)
      rw [h2, h4] at this
      exact this
  · intro j hjl i hi hm
    rw [h.joints] at hjl ⊢
    rw [List.length_append] at hi
    rw [hmemold j hjl i n hm (by omega) (.inr hi)]
    exact hS.unused j hjl i (by omega) hm

end AddSystem
end Momentum
