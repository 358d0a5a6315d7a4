import Verif.Lemmas.SimdConstraints

/-!
# The steps of `addConstraint` keep the invariant, and what it says when all calls have returned
-/

namespace Momentum
namespace AddSystem
variable {K : Type} {n : Nat} {S0 : SimdStore K n} {calls0 : List (Nat × (Fin (n + 1) → K))} {s : AddSystem K n}
  {claims : Nat → List Nat}

theorem storeStep_eq {S : SimdStore K n} {c : ConstraintCall K n} {index k : Nat} (hk : k < n + 1) (hj : c.joint < S.numJoints)
    (hi : index < kMaxConstraints) : storeStep S c index k = some ({ S with
        mem := Function.update S.mem (k * (kMaxConstraints * S.numJoints) + (c.joint * kMaxConstraints + index))
          (c.vals ⟨k, hk⟩) },
      if k + 1 < n + 1 then .storing index (k + 1) else .done (some index)) := by
  unfold storeStep
  rw [dif_pos hk]
  have hlt : S.addr k (c.joint * kMaxConstraints + index) < (n + 1) * S.dataSize := slot_lt hk hj hi
  exact if_pos hlt

/-- Progress counters never exceed the number of arrays, and a call does not try to obtain an entry that is not there. -/
def _root_.Momentum.AddPc.Sane (n : Nat) : AddPc → Prop
  | .storing _ k => k < n + 1
  | .swap i => i ≠ kMaxConstraints
  | _ => True

def Sane (s : AddSystem K n) : Prop := ∀ c ∈ s.calls, c.pc.Sane n

theorem sane_set {calls : List (ConstraintCall K n)} (h : ∀ c ∈ calls, c.pc.Sane n) {t : Nat}
    {c : ConstraintCall K n} {pc : AddPc} (hp : pc.Sane n) : ∀ d ∈ calls.set t { c with pc := pc }, d.pc.Sane n := by
  intro d hd
  rcases List.mem_or_eq_of_mem_set hd with h1 | h1
  · exact h d h1
  · subst h1; exact hp

theorem set_self_pc {calls : List (ConstraintCall K n)} {t : Nat} {c : ConstraintCall K n} (hc : calls[t]? = some c) :
    calls.set t { c with pc := c.pc } = calls := by
  apply List.ext_getElem?
  intro i
  rw [List.getElem?_set]
  split
  · next h =>
    subst h
    obtain ⟨h1, h2⟩ := List.getElem?_eq_some_iff.1 hc
    simp [h1, h2]
  · rfl

theorem store_any (h : Inv S0 calls0 s claims) (hs : s.Sane) (hj : ∀ c ∈ calls0, c.1 < S0.numJoints) {t : Nat}
    {c : ConstraintCall K n} (hc : s.calls[t]? = some c) {index k : Nat} (h1 : c.pc = .storing index k) :
    ∃ S' pc, storeStep s.store c index k = some (S', pc) ∧
      Inv S0 calls0 ⟨S', s.calls.set t { c with pc := pc }⟩ claims ∧
      Sane ⟨S', s.calls.set t { c with pc := pc }⟩ ∧ pc ≠ .undo ∧ pc ≠ .start ∧ (∀ i, pc ≠ .swap i) ∧
      pc = (if k + 1 < n + 1 then .storing index (k + 1) else .done (some index)) := by
  have hmem := List.mem_of_getElem? hc
  have hk : k < n + 1 := by have := hs c hmem; rw [h1] at this; exact this
  have hself : claimOf s.calls t = some (c.joint, index) := by rw [claimOf_self hc, h1]; rfl
  obtain ⟨l1, l2⟩ := h.claim_lt hj hself
  refine ⟨_, _, storeStep_eq hk (by rw [h.joints]; exact l1) l2, ?_, ?_, ?_, ?_, ?_, rfl⟩
  · have := h.store hj hc h1 hk rfl
    rw [← h.joints] at this; exact this
  · apply sane_set hs
    split
    · assumption
    · trivial
  · split <;> simp
  · split <;> simp
  · intro i; split <;> simp

/-- A step of a position or plane constraint. -/
theorem fetch_inv (h : Inv S0 calls0 s claims) (hs : s.Sane) (hj : ∀ c ∈ calls0, c.1 < S0.numJoints)
    (hJ : S0.numJoints ≤ kMaxSimdJoints) (e : Nat × Bool) :
    ∃ s' claims', step fetchStep s e = some s' ∧ Inv S0 calls0 s' claims' ∧ s'.Sane := by
  unfold step
  cases hc : s.calls[e.1]? with
  | none => exact ⟨s, claims, rfl, h, hs⟩
  | some c =>
    have hmem := List.mem_of_getElem? hc
    have hjl := h.joint_lt hj hmem
    have hnoop : (∃ pc, c.pc = pc ∧ fetchStep s.store c e.2 = some (s.store, pc)) → ∃ s' claims', (match fetchStep s.store c e.2 with
      | none => none
      | some (S', pc) => some ⟨S', s.calls.set e.1 { c with pc := pc }⟩) = some s' ∧ Inv S0 calls0 s' claims' ∧ s'.Sane := by
      rintro ⟨pc, h1, h2⟩
      rw [h2]
      refine ⟨_, claims, rfl, ?_, ?_⟩
      · rw [← h1, set_self_pc hc]; exact h
      · rw [← h1, set_self_pc hc]; exact hs
    cases hpc : c.pc with
    | start =>
      have hf : fetchStep s.store c e.2 = some ({ s.store with
          count := Function.update s.store.count c.joint (s.store.count c.joint + 1) },
          if s.store.count c.joint < kMaxConstraints then .storing (s.store.count c.joint) 0 else .undo) := by
        unfold fetchStep
        rw [hpc]
        simp only
        rw [if_pos (by omega)]
      simp only [hf]
      by_cases hlt : s.store.count c.joint < kMaxConstraints
      · rw [if_pos hlt]
        have hu : undos s.calls c.joint = 0 := by
          by_contra hne
          have := h.full c.joint (.inl (by omega))
          have := h.count c.joint
          omega
        refine ⟨_, _, rfl, h.obtain hc (by rw [hpc]; rfl) (by rw [hpc]; simp) rfl hu hlt, ?_⟩
        exact sane_set hs (Nat.succ_pos n)
      · rw [if_neg hlt]
        refine ⟨_, claims, rfl, h.idle hc (by rw [hpc]; rfl) rfl ?_ ?_, ?_⟩
        · intro j
          have := undos_set hc .undo j
          by_cases hjc : j = c.joint
          · subst hjc
            rw [Function.update_self]
            rw [if_neg (fun e => by rw [hpc] at e; cases e.2), if_pos ⟨rfl, rfl⟩] at this
            have := h.count c.joint
            omega
          · rw [Function.update_of_ne hjc]
            rw [if_neg (fun e => by rw [hpc] at e; cases e.2), if_neg (fun e => hjc e.1.symm)] at this
            have := h.count j
            omega
        · intro _
          have h1 := h.count c.joint
          have h2 := h.room c.joint hjl
          by_cases hu : undos s.calls c.joint = 0
          · omega
          · exact h.full c.joint (.inl (by omega))
        · exact sane_set hs trivial
    | swap i => exact hnoop ⟨_, hpc, by unfold fetchStep; rw [hpc]⟩
    | storing index k =>
      obtain ⟨S', pc, h1, h2, h3, -⟩ := store_any h hs hj hc hpc
      have hf : fetchStep s.store c e.2 = some (S', pc) := by
        unfold fetchStep; rw [hpc]; exact h1
      simp only [hf]
      exact ⟨_, claims, rfl, h2, h3⟩
    | undo =>
      have hf : fetchStep s.store c e.2 = some ({ s.store with
          count := Function.update s.store.count c.joint (s.store.count c.joint - 1) }, .done none) := by
        unfold fetchStep; rw [hpc]
      simp only [hf]
      have hpos : 0 < undos s.calls c.joint :=
        List.countP_pos_iff.2 ⟨c, hmem, by simp [hpc]⟩
      refine ⟨_, claims, rfl, h.idle hc (by rw [hpc]; rfl) rfl ?_ ?_, ?_⟩
      · intro j
        have := undos_set hc (.done none) j
        rw [if_neg (c := c.joint = j ∧ AddPc.done none = .undo) (fun e => by cases e.2)] at this
        by_cases hjc : j = c.joint
        · subst hjc
          rw [Function.update_self]
          rw [if_pos ⟨rfl, hpc⟩] at this
          have := h.count c.joint
          omega
        · rw [Function.update_of_ne hjc]
          rw [if_neg (fun e => hjc e.1.symm)] at this
          have := h.count j
          omega
      · intro _; exact h.full c.joint (.inl hpos)
      · exact sane_set hs trivial
    | done o => exact hnoop ⟨_, hpc, by unfold fetchStep; rw [hpc]⟩

/-- A step of a normal constraint. -/
theorem swap_inv (h : Inv S0 calls0 s claims) (hs : s.Sane) (hu : ∀ j, undos s.calls j = 0)
    (hj : ∀ c ∈ calls0, c.1 < S0.numJoints) (hJ : S0.numJoints ≤ kMaxSimdJoints) (e : Nat × Bool) :
    ∃ s' claims', step swapStep s e = some s' ∧ Inv S0 calls0 s' claims' ∧ s'.Sane ∧ ∀ j, undos s'.calls j = 0 := by
  unfold step
  cases hc : s.calls[e.1]? with
  | none => exact ⟨s, claims, rfl, h, hs, hu⟩
  | some c =>
    have hmem := List.mem_of_getElem? hc
    have hjl := h.joint_lt hj hmem
    have hnu : c.pc ≠ .undo := by
      intro e'
      have : 0 < undos s.calls c.joint := List.countP_pos_iff.2 ⟨c, hmem, by simp [e']⟩
      rw [hu] at this; omega
    have hun : ∀ pc, pc ≠ .undo → ∀ j, undos (s.calls.set e.1 { c with pc := pc }) j = 0 := by
      intro pc hp j
      have := undos_set hc pc j
      rw [if_neg (fun e => hnu e.2), if_neg (fun e => hp e.2), hu] at this
      omega
    have hidle : ∀ pc : AddPc, c.pc.index = none → pc.index = none → pc ≠ .undo →
        (pc = .done none → S0.count c.joint + (claims c.joint).length = kMaxConstraints) →
        Inv S0 calls0 ⟨s.store, s.calls.set e.1 { c with pc := pc }⟩ claims := by
      intro pc h1 h2 h3 h4
      refine h.idle (cnt := s.store.count) hc h1 h2 (fun j => ?_) ?_
      · rw [hun pc h3, h.count j, hu]
      · rintro (h5 | h5)
        · exact absurd h5 h3
        · exact h4 h5
    cases hpc : c.pc with
    | start =>
      have hf : swapStep s.store c e.2 = some (s.store,
          if s.store.count c.joint = kMaxConstraints then .done none else .swap (s.store.count c.joint)) := by
        unfold swapStep; rw [hpc]
        simp only
        rw [if_pos (by omega)]
      simp only [hf]
      by_cases hfull : s.store.count c.joint = kMaxConstraints
      · rw [if_pos hfull]
        refine ⟨_, claims, rfl, hidle _ (by rw [hpc]; rfl) rfl (by simp) (fun _ => ?_), ?_, hun _ (by simp)⟩
        · have := h.count c.joint
          rw [hu] at this; omega
        · exact sane_set hs trivial
      · rw [if_neg hfull]
        refine ⟨_, claims, rfl, hidle _ (by rw [hpc]; rfl) rfl (by simp) (by simp), ?_, hun _ (by simp)⟩
        exact sane_set hs hfull
    | swap index =>
      by_cases hok : s.store.count c.joint = index ∧ e.2 = false
      · have hf : swapStep s.store c e.2 = some ({ s.store with
            count := Function.update s.store.count c.joint (index + 1) }, .storing index 0) := by
          unfold swapStep; rw [hpc]
          simp only
          rw [if_pos hok]
        simp only [hf]
        by_cases hlt : index < kMaxConstraints
        · refine ⟨_, _, rfl, h.obtain hc (by rw [hpc]; rfl) (by rw [hpc]; simp) hok.1 (hu _) hlt, ?_, hun _ (by simp)⟩
          exact sane_set hs (Nat.succ_pos n)
        · exfalso
          have h1 := h.count c.joint
          have h2 := h.room c.joint hjl
          have h3 : index ≠ kMaxConstraints := by have := hs c hmem; rw [hpc] at this; exact this
          rw [hu] at h1
          omega
      · have hf : swapStep s.store c e.2 = some (s.store, .start) := by
          unfold swapStep; rw [hpc]
          simp only
          rw [if_neg hok]
        simp only [hf]
        refine ⟨_, claims, rfl, hidle _ (by rw [hpc]; rfl) rfl (by simp) (by simp), ?_, hun _ (by simp)⟩
        exact sane_set hs trivial
    | storing index k =>
      obtain ⟨S', pc, h1, h2, h3, h4, -⟩ := store_any h hs hj hc hpc
      have hf : swapStep s.store c e.2 = some (S', pc) := by
        unfold swapStep; rw [hpc]; exact h1
      simp only [hf]
      exact ⟨_, claims, rfl, h2, h3, hun _ h4⟩
    | undo => exact absurd hpc hnu
    | done o =>
      have hf : swapStep s.store c e.2 = some (s.store, .done o) := by unfold swapStep; rw [hpc]
      simp only [hf]
      refine ⟨_, claims, rfl, ?_, ?_, ?_⟩
      · rw [← hpc, set_self_pc hc]; exact h
      · rw [← hpc, set_self_pc hc]; exact hs
      · rw [← hpc, set_self_pc hc]; exact hu

end AddSystem
end Momentum
