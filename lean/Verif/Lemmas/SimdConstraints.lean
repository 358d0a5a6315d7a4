import Verif.Spec.SimdConstraints
import Mathlib.Tactic.Ring
import Mathlib.Tactic.Linarith
import Mathlib.Data.List.Nodup
import Mathlib.Data.List.Count

/-!
# Every interleaving of `addConstraint` gives each call an entry of its own
-/

namespace Momentum

/-- The entry a call has obtained. -/
def AddPc.index : AddPc → Option Nat
  | .storing i _ => some i
  | .done i => i
  | _ => none

/-- How many of the numbers a call has stored. -/
def AddPc.stored (n : Nat) : AddPc → Nat
  | .storing _ k => k
  | .done (some _) => n + 1
  | _ => 0

theorem slot_inj {M N k k' j j' i i' : Nat} (hj : j < N) (hj' : j' < N) (hi : i < M) (hi' : i' < M)
    (h : k * (M * N) + (j * M + i) = k' * (M * N) + (j' * M + i')) : k = k' ∧ j = j' ∧ i = i' := by
  have hM : 0 < M := by omega
  have b : j * M + i < M * N := by
    have : (j + 1) * M ≤ N * M := Nat.mul_le_mul_right _ hj
    rw [Nat.add_mul, Nat.one_mul] at this
    rw [Nat.mul_comm M N]; omega
  have b' : j' * M + i' < M * N := by
    have : (j' + 1) * M ≤ N * M := Nat.mul_le_mul_right _ hj'
    rw [Nat.add_mul, Nat.one_mul] at this
    rw [Nat.mul_comm M N]; omega
  have h1 : k = k' := by
    have e1 : (k * (M * N) + (j * M + i)) / (M * N) = k := by
      rw [Nat.mul_comm k, Nat.mul_add_div (by omega), Nat.div_eq_of_lt b, Nat.add_zero]
    have e2 : (k' * (M * N) + (j' * M + i')) / (M * N) = k' := by
      rw [Nat.mul_comm k', Nat.mul_add_div (by omega), Nat.div_eq_of_lt b', Nat.add_zero]
    rw [← e1, ← e2, h]
  subst h1
  have h2 : j * M + i = j' * M + i' := by omega
  have h3 : j = j' := by
    have e1 : (j * M + i) / M = j := by rw [Nat.mul_comm, Nat.mul_add_div hM, Nat.div_eq_of_lt hi, Nat.add_zero]
    have e2 : (j' * M + i') / M = j' := by rw [Nat.mul_comm, Nat.mul_add_div hM, Nat.div_eq_of_lt hi', Nat.add_zero]
    rw [← e1, ← e2, h2]
  subst h3
  exact ⟨rfl, rfl, by omega⟩

theorem slot_lt {M N n k j i : Nat} (hk : k < n + 1) (hj : j < N) (hi : i < M) :
    k * (M * N) + (j * M + i) < (n + 1) * (M * N) := by
  have b : j * M + i < M * N := by
    have : (j + 1) * M ≤ N * M := Nat.mul_le_mul_right _ hj
    rw [Nat.add_mul, Nat.one_mul] at this
    rw [Nat.mul_comm M N]; omega
  have : (k + 1) * (M * N) ≤ (n + 1) * (M * N) := Nat.mul_le_mul_right _ hk
  rw [Nat.add_mul, Nat.one_mul] at this
  omega

namespace AddSystem
variable {K : Type} {n : Nat}

/-- The joint and entry thread `t` has obtained. -/
def claimOf (calls : List (ConstraintCall K n)) (t : Nat) : Option (Nat × Nat) :=
  calls[t]?.bind fun c => c.pc.index.map fun i => (c.joint, i)

/-- The calls that have to undo their increment. -/
def undos (calls : List (ConstraintCall K n)) (j : Nat) : Nat := calls.countP fun c => c.joint = j ∧ c.pc = .undo

structure Inv (S0 : SimdStore K n) (calls0 : List (Nat × (Fin (n + 1) → K))) (s : AddSystem K n)
    (claims : Nat → List Nat) : Prop where
  joints : s.store.numJoints = S0.numJoints
  calls : s.calls.map (fun c => (c.joint, c.vals)) = calls0
  claim : ∀ j i t, (claims j)[i]? = some t ↔ claimOf s.calls t = some (j, S0.count j + i)
  lower : ∀ t j x, claimOf s.calls t = some (j, x) → S0.count j ≤ x
  room : ∀ j < S0.numJoints, S0.count j + (claims j).length ≤ kMaxConstraints
  count : ∀ j, s.store.count j = S0.count j + (claims j).length + undos s.calls j
  full : ∀ j, (0 < undos s.calls j ∨ ∃ c ∈ s.calls, c.joint = j ∧ c.pc = .done none) →
    S0.count j + (claims j).length = kMaxConstraints
  stored : ∀ (t : Nat) (c : ConstraintCall K n) (i : Nat), s.calls[t]? = some c → c.pc.index = some i → ∀ k (hk : k < n + 1), k < c.pc.stored n →
    s.store.mem (k * (kMaxConstraints * S0.numJoints) + (c.joint * kMaxConstraints + i)) = c.vals ⟨k, hk⟩
  kept : ∀ a, s.store.mem a = S0.mem a ∨ ∃ (t j i k : Nat), claimOf s.calls t = some (j, i) ∧ k < n + 1 ∧
    a = k * (kMaxConstraints * S0.numJoints) + (j * kMaxConstraints + i)

variable {S0 : SimdStore K n} {calls0 : List (Nat × (Fin (n + 1) → K))} {s : AddSystem K n} {claims : Nat → List Nat}

theorem Inv.joint_lt (h : Inv S0 calls0 s claims) (hj : ∀ c ∈ calls0, c.1 < S0.numJoints) {c : ConstraintCall K n}
    (hc : c ∈ s.calls) : c.joint < S0.numJoints := by
  have := hj (c.joint, c.vals) (by rw [← h.calls]; exact List.mem_map.2 ⟨c, hc, rfl⟩)
  exact this

theorem Inv.claim_lt (h : Inv S0 calls0 s claims) (hj : ∀ c ∈ calls0, c.1 < S0.numJoints) {t j i : Nat}
    (hc : claimOf s.calls t = some (j, i)) : j < S0.numJoints ∧ i < kMaxConstraints := by
  have hj' : j < S0.numJoints := by
    unfold claimOf at hc
    rw [Option.bind_eq_some_iff] at hc
    obtain ⟨c, h1, h2⟩ := hc
    rw [Option.map_eq_some_iff] at h2
    obtain ⟨x, -, h3⟩ := h2
    have := h.joint_lt hj (List.mem_of_getElem? h1)
    simp only [Prod.mk.injEq] at h3
    rw [← h3.1]; exact this
  refine ⟨hj', ?_⟩
  have hl := h.lower _ _ _ hc
  have : (claims j)[i - S0.count j]? = some t := (h.claim j _ t).2 (by rw [hc]; congr 2; omega)
  have h2 := (List.getElem?_eq_some_iff.1 this).1
  have := h.room j hj'
  omega

/-- Two threads never have the same entry. -/
theorem Inv.claim_inj (h : Inv S0 calls0 s claims) {t t' j i : Nat}
    (hc : claimOf s.calls t = some (j, i)) (hc' : claimOf s.calls t' = some (j, i)) : t = t' := by
  have hl := h.lower _ _ _ hc
  have e : (j, i) = (j, S0.count j + (i - S0.count j)) := by congr 1; omega
  have h1 := (h.claim j _ t).2 (by rw [hc, e])
  have h2 := (h.claim j _ t').2 (by rw [hc', e])
  rw [h1] at h2
  exact Option.some.inj h2

theorem claimOf_set {calls : List (ConstraintCall K n)} {t : Nat} {c : ConstraintCall K n} (hc : calls[t]? = some c) (pc : AddPc)
    (t' : Nat) : claimOf (calls.set t { c with pc := pc }) t' =
      if t' = t then pc.index.map (fun i => (c.joint, i)) else claimOf calls t' := by
  unfold claimOf
  by_cases h : t' = t
  · subst h
    rw [if_pos rfl, List.getElem?_set_self (List.getElem?_eq_some_iff.1 hc).1]
    rfl
  · rw [if_neg h, List.getElem?_set_ne (fun e => h e.symm)]

theorem claimOf_self {calls : List (ConstraintCall K n)} {t : Nat} {c : ConstraintCall K n} (hc : calls[t]? = some c) :
    claimOf calls t = c.pc.index.map fun i => (c.joint, i) := by
  unfold claimOf; rw [hc]; rfl

theorem undos_set {calls : List (ConstraintCall K n)} {t : Nat} {c : ConstraintCall K n} (hc : calls[t]? = some c) (pc : AddPc)
    (j : Nat) : undos (calls.set t { c with pc := pc }) j + (if c.joint = j ∧ c.pc = .undo then 1 else 0) =
      undos calls j + (if c.joint = j ∧ pc = .undo then 1 else 0) := by
  unfold undos
  obtain ⟨hl, hv⟩ := List.getElem?_eq_some_iff.1 hc
  rw [List.countP_set hl, hv]
  have hpos : (if c.joint = j ∧ c.pc = .undo then 1 else 0) ≤ calls.countP fun c => c.joint = j ∧ c.pc = .undo := by
    split
    · next h => exact List.countP_pos_iff.2 ⟨c, List.mem_of_getElem? hc, by simpa using h⟩
    · omega
  simp only [decide_eq_true_eq]
  omega

theorem calls_set {calls : List (ConstraintCall K n)} {t : Nat} {c : ConstraintCall K n} (hc : calls[t]? = some c) (pc : AddPc) :
    (calls.set t { c with pc := pc }).map (fun c => (c.joint, c.vals)) = calls.map fun c => (c.joint, c.vals) := by
  rw [List.map_set]
  apply List.ext_getElem?
  intro i
  rw [List.getElem?_set]
  split
  · next h =>
    subst h
    rw [List.getElem?_map, hc]
    simp [(List.getElem?_eq_some_iff.1 hc).1]
  · rfl

theorem refused_set {calls : List (ConstraintCall K n)} {t : Nat} {c : ConstraintCall K n} {pc : AddPc} {j : Nat}
    (h : ∃ d ∈ calls.set t { c with pc := pc }, d.joint = j ∧ d.pc = .done none) :
    (c.joint = j ∧ pc = .done none) ∨ ∃ d ∈ calls, d.joint = j ∧ d.pc = .done none := by
  obtain ⟨d, h1, h2, h3⟩ := h
  rcases List.mem_or_eq_of_mem_set h1 with h4 | h4
  · exact .inr ⟨d, h4, h2, h3⟩
  · subst h4; exact .inl ⟨h2, h3⟩

/-- A step that neither obtains an entry nor stores anything. -/
theorem Inv.idle (h : Inv S0 calls0 s claims) {t : Nat} {c : ConstraintCall K n} (hc : s.calls[t]? = some c) {pc : AddPc}
    (h1 : c.pc.index = none) (h2 : pc.index = none) {cnt : Nat → Nat}
    (hcnt : ∀ j, cnt j = S0.count j + (claims j).length + undos (s.calls.set t { c with pc := pc }) j)
    (hfull : pc = .undo ∨ pc = .done none → S0.count c.joint + (claims c.joint).length = kMaxConstraints) :
    Inv S0 calls0 ⟨{ s.store with count := cnt }, s.calls.set t { c with pc := pc }⟩ claims := by
  have hcl : ∀ t', claimOf (s.calls.set t { c with pc := pc }) t' = claimOf s.calls t' := by
    intro t'
    rw [claimOf_set hc]
    split
    · next e => subst e; rw [claimOf_self hc, h1, h2]
    · rfl
  refine ⟨h.joints, by rw [calls_set hc]; exact h.calls, fun j i t' => by rw [hcl]; exact h.claim j i t',
    fun t' j x => by rw [hcl]; exact h.lower t' j x, h.room, hcnt, ?_, ?_, ?_⟩
  · intro j hj
    rcases hj with hj | hj
    · have := undos_set hc pc j
      by_cases e : c.joint = j ∧ pc = .undo
      · rw [← e.1]; exact hfull (.inl e.2)
      · rw [if_neg e] at this
        simp only at hj
        exact h.full j (.inl (by omega))
    · rcases refused_set hj with e | e
      · rw [← e.1]; exact hfull (.inr e.2)
      · exact h.full j (.inr e)
  · intro t' c' i hc' hi k hk hkk
    simp only at hc'
    rw [List.getElem?_set] at hc'
    split at hc'
    · split at hc'
      · rw [← Option.some.inj hc'] at hi
        simp only [h2] at hi; cases hi
      · cases hc'
    · exact h.stored t' c' i hc' hi k hk hkk
  · intro a
    rcases h.kept a with e | ⟨t', j, i, k, e1, e2, e3⟩
    · exact .inl e
    · exact .inr ⟨t', j, i, k, by rw [hcl]; exact e1, e2, e3⟩

/-- A step that obtains the next entry. -/
theorem Inv.obtain (h : Inv S0 calls0 s claims) {t : Nat} {c : ConstraintCall K n} (hc : s.calls[t]? = some c)
    (h1 : c.pc.index = none) (h0 : c.pc ≠ .undo) {index : Nat} (hi : s.store.count c.joint = index)
    (hu : undos s.calls c.joint = 0) (hm : index < kMaxConstraints) :
    Inv S0 calls0 ⟨{ s.store with count := Function.update s.store.count c.joint (index + 1) },
        s.calls.set t { c with pc := .storing index 0 }⟩
      (Function.update claims c.joint (claims c.joint ++ [t])) := by
  have hcount := h.count c.joint
  rw [hu, hi] at hcount
  have hself : claimOf s.calls t = none := by rw [claimOf_self hc, h1]; rfl
  have hcl : ∀ t', claimOf (s.calls.set t { c with pc := .storing index 0 }) t' =
      if t' = t then some (c.joint, index) else claimOf s.calls t' := by
    intro t'; rw [claimOf_set hc]; rfl
  have hun : ∀ j, undos (s.calls.set t { c with pc := .storing index 0 }) j = undos s.calls j := by
    intro j
    have := undos_set hc (.storing index 0) j
    rw [if_neg (fun e => h0 e.2), if_neg (fun e => by cases e.2)] at this
    omega
  refine ⟨h.joints, by rw [calls_set hc]; exact h.calls, ?_, ?_, ?_, ?_, ?_, ?_, ?_⟩
  · intro j i t'
    rw [hcl]
    by_cases hj : j = c.joint
    · subst hj
      rw [Function.update_self, List.getElem?_append]
      by_cases hil : i < (claims c.joint).length
      · rw [if_pos hil]
        by_cases ht : t' = t
        · subst ht
          rw [if_pos rfl]
          constructor
          · intro e
            have := (h.claim _ _ _).1 e
            rw [hself] at this; cases this
          · intro e
            simp only [Option.some.injEq, Prod.mk.injEq, true_and] at e
            omega
        · rw [if_neg ht]; exact h.claim _ _ _
      · rw [if_neg hil]
        by_cases ht : t' = t
        · subst ht
          rw [if_pos rfl]
          constructor
          · intro e
            have := (List.getElem?_eq_some_iff.1 e).1
            simp only [List.length_singleton] at this
            rw [hcount]; congr 2; omega
          · intro e
            simp only [Option.some.injEq, Prod.mk.injEq, true_and] at e
            rw [show i - (claims c.joint).length = 0 by omega]; rfl
        · rw [if_neg ht]
          constructor
          · intro e
            obtain ⟨e1, e2⟩ := List.getElem?_eq_some_iff.1 e
            simp only [List.getElem_singleton] at e2
            exact absurd e2.symm ht
          · intro e
            have := (h.claim _ _ _).2 e
            exact absurd (List.getElem?_eq_some_iff.1 this).1 hil
    · rw [Function.update_of_ne hj]
      by_cases ht : t' = t
      · subst ht
        rw [if_pos rfl]
        constructor
        · intro e
          have := (h.claim _ _ _).1 e
          rw [hself] at this; cases this
        · intro e
          simp only [Option.some.injEq, Prod.mk.injEq] at e
          exact absurd e.1.symm hj
      · rw [if_neg ht]; exact h.claim _ _ _
  · intro t' j x
    rw [hcl]
    split
    · intro e
      simp only [Option.some.injEq, Prod.mk.injEq] at e
      rw [← e.1, ← e.2]; omega
    · exact h.lower t' j x
  · intro j hj
    by_cases hjc : j = c.joint
    · subst hjc
      rw [Function.update_self, List.length_append, List.length_singleton]; omega
    · rw [Function.update_of_ne hjc]; exact h.room j hj
  · intro j
    simp only [hun]
    by_cases hjc : j = c.joint
    · subst hjc
      rw [Function.update_self, Function.update_self, List.length_append, List.length_singleton, hu]; omega
    · rw [Function.update_of_ne hjc, Function.update_of_ne hjc]; exact h.count j
  · intro j hj
    have hold : 0 < undos s.calls j ∨ ∃ d ∈ s.calls, d.joint = j ∧ d.pc = .done none := by
      rcases hj with hj | hj
      · simp only [hun] at hj; exact .inl hj
      · rcases refused_set hj with e | e
        · cases e.2
        · exact .inr e
    by_cases hjc : j = c.joint
    · subst hjc
      have := h.full _ hold
      omega
    · rw [Function.update_of_ne hjc]; exact h.full j hold
  · intro t' c' i hc' hi' k hk hkk
    simp only at hc'
    rw [List.getElem?_set] at hc'
    split at hc'
    · split at hc'
      · rw [← Option.some.inj hc'] at hkk
        simp [AddPc.stored] at hkk
      · cases hc'
    · exact h.stored t' c' i hc' hi' k hk hkk
  · intro a
    rcases h.kept a with e | ⟨t', j, i, k, e1, e2, e3⟩
    · exact .inl e
    · refine .inr ⟨t', j, i, k, ?_, e2, e3⟩
      rw [hcl, if_neg]
      · exact e1
      · intro e; rw [e, hself] at e1; cases e1

/-- A step that stores a number. -/
theorem Inv.store (h : Inv S0 calls0 s claims) (hj : ∀ c ∈ calls0, c.1 < S0.numJoints) {t : Nat} {c : ConstraintCall K n}
    (hc : s.calls[t]? = some c) {index k : Nat} (h1 : c.pc = .storing index k) (hk : k < n + 1) {pc : AddPc}
    (hp : pc = if k + 1 < n + 1 then .storing index (k + 1) else .done (some index)) :
    Inv S0 calls0 ⟨{ s.store with
        mem := Function.update s.store.mem
          (k * (kMaxConstraints * S0.numJoints) + (c.joint * kMaxConstraints + index)) (c.vals ⟨k, hk⟩) },
      s.calls.set t { c with pc := pc }⟩ claims := by
  have hpi : pc.index = some index := by rw [hp]; split <;> rfl
  have hps : pc.stored n = k + 1 := by
    rw [hp]; split
    · rfl
    · simp only [AddPc.stored]; omega
  have hself : claimOf s.calls t = some (c.joint, index) := by rw [claimOf_self hc, h1]; rfl
  have hcl : ∀ t', claimOf (s.calls.set t { c with pc := pc }) t' = claimOf s.calls t' := by
    intro t'
    rw [claimOf_set hc]
    split
    · next e => subst e; rw [hself, hpi]; rfl
    · rfl
  have hun : ∀ j, undos (s.calls.set t { c with pc := pc }) j = undos s.calls j := by
    intro j
    have := undos_set hc pc j
    rw [if_neg (fun e => by rw [h1] at e; cases e.2), if_neg (fun e => by rw [e.2] at hpi; cases hpi)] at this
    omega
  obtain ⟨l1, l2⟩ := h.claim_lt hj hself
  refine ⟨h.joints, by rw [calls_set hc]; exact h.calls, fun j i t' => by rw [hcl]; exact h.claim j i t',
    fun t' j x => by rw [hcl]; exact h.lower t' j x, h.room, fun j => by simp only [hun]; exact h.count j, ?_, ?_, ?_⟩
  · intro j hj'
    refine h.full j ?_
    rcases hj' with e | e
    · simp only [hun] at e; exact .inl e
    · rcases refused_set e with e | e
      · rw [e.2] at hpi; cases hpi
      · exact .inr e
  · intro t' c' i hc' hi k' hk' hkk
    simp only at hc' ⊢
    rw [List.getElem?_set] at hc'
    split at hc'
    · next e =>
      split at hc'
      · have hcc := Option.some.inj hc'
        rw [← hcc] at hi hkk ⊢
        simp only [hpi, Option.some.injEq] at hi
        simp only [hps] at hkk
        subst hi
        simp only
        by_cases hkk' : k' = k
        · subst hkk'; rw [Function.update_self]
        · rw [Function.update_of_ne]
          · exact h.stored t c index hc (by rw [h1]; rfl) k' hk' (by rw [h1]; simp only [AddPc.stored]; omega)
          · intro e'
            exact hkk' (slot_inj l1 l1 l2 l2 e').1
      · cases hc'
    · next e =>
      have hcl' : claimOf s.calls t' = some (c'.joint, i) := by rw [claimOf_self hc', hi]; rfl
      obtain ⟨m1, m2⟩ := h.claim_lt hj hcl'
      rw [Function.update_of_ne]
      · exact h.stored t' c' i hc' hi k' hk' hkk
      · intro e'
        obtain ⟨-, e2, e3⟩ := slot_inj m1 l1 m2 l2 e'
        rw [e2, e3] at hcl'
        exact e (h.claim_inj hself hcl')
  · intro a
    by_cases ha : a = k * (kMaxConstraints * S0.numJoints) + (c.joint * kMaxConstraints + index)
    · exact .inr ⟨t, c.joint, index, k, by rw [hcl]; exact hself, hk, ha⟩
    · simp only
      rw [Function.update_of_ne ha]
      rcases h.kept a with e | ⟨t', j, i, k', e1, e2, e3⟩
      · exact .inl e
      · exact .inr ⟨t', j, i, k', by rw [hcl]; exact e1, e2, e3⟩

end AddSystem
end Momentum
