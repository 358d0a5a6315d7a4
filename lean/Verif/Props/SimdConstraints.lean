import Verif.Lemmas.SimdConstraints3
import Mathlib.Data.Rat.Defs
import Mathlib.Tactic.NormNum
import Mathlib.Tactic.FinCases
import Mathlib.Data.Fintype.Basic
import Mathlib.Data.Fintype.Sets

/-!
# C69: constraints added by many threads at once

`addConstraint` of the position and plane constraints is `fetchStep`, of the normal constraints `swapStep`.
-/

namespace Momentum
open AddSystem
variable {K : Type} {n : Nat}

/-- **C69**: however the calls of `addConstraint` for joints of the skeleton interleave, no check fails and nothing is written
outside the block; and two calls never write to the same number. -/
theorem C69_safe (one : SimdStore K n → ConstraintCall K n → Bool → Option (SimdStore K n × AddPc))
    (ho : one = fetchStep ∨ one = swapStep) (S : SimdStore K n) (hJ : S.numJoints ≤ 512)
    (hc : ∀ j < S.numJoints, S.count j ≤ 4096) (calls : List (Nat × (Fin (n + 1) → K)))
    (hj : ∀ c ∈ calls, c.1 < S.numJoints) (schedule : List (Nat × Bool)) :
    ∃ s, AddSystem.run one ⟨S, calls.map fun c => ⟨c.1, c.2, .start⟩⟩ schedule = some s ∧
      ∀ (t t' : Nat) (c c' : ConstraintCall K n) (i i' k k' : Nat), t ≠ t' → s.calls[t]? = some c → s.calls[t']? = some c' →
        c.pc = .storing i k → c'.pc = .storing i' k' →
        k * (4096 * S.numJoints) + (c.joint * 4096 + i) ≠ k' * (4096 * S.numJoints) + (c'.joint * 4096 + i') := by
  obtain ⟨s, claims, h1, h2, -⟩ := run_inv ho hj hJ hc schedule
  refine ⟨s, h1, ?_⟩
  intro t t' c c' i i' k k' ht hc1 hc2 hp hp' e
  have e1 : claimOf s.calls t = some (c.joint, i) := by rw [claimOf_self hc1, hp]; rfl
  have e2 : claimOf s.calls t' = some (c'.joint, i') := by rw [claimOf_self hc2, hp']; rfl
  obtain ⟨l1, l2⟩ := h2.claim_lt hj e1
  obtain ⟨m1, m2⟩ := h2.claim_lt hj e2
  obtain ⟨-, a, b⟩ := slot_inj l1 m1 l2 m2 e
  rw [a, b] at e1
  exact ht (h2.claim_inj e1 e2)

/-- **C69**: what `addConstraint` tells its caller.  When all calls have returned, a call that has stored its constraint has
an entry of the joint's arrays with its numbers, and no other call has that entry; a call that has not stored it found the
joint full, and the joint is full. -/
theorem C69_returned (one : SimdStore K n → ConstraintCall K n → Bool → Option (SimdStore K n × AddPc))
    (ho : one = fetchStep ∨ one = swapStep) (S : SimdStore K n) (hJ : S.numJoints ≤ 512)
    (hc : ∀ j < S.numJoints, S.count j ≤ 4096) (calls : List (Nat × (Fin (n + 1) → K)))
    (hj : ∀ c ∈ calls, c.1 < S.numJoints) (schedule : List (Nat × Bool)) (s : AddSystem K n)
    (hr : AddSystem.run one ⟨S, calls.map fun c => ⟨c.1, c.2, .start⟩⟩ schedule = some s)
    (hd : ∀ c ∈ s.calls, ∃ o, c.pc = .done o) (t : Nat) (c : ConstraintCall K n) (hct : s.calls[t]? = some c) :
    (∀ i, c.pc = .done (some i) → i < s.store.count c.joint ∧
      (∀ k : Fin (n + 1), s.store.mem (k * (4096 * S.numJoints) + (c.joint * 4096 + i)) = c.vals k) ∧
      ∀ t' c', s.calls[t']? = some c' → c'.joint = c.joint → c'.pc = .done (some i) → t' = t) ∧
    (c.pc = .done none → s.store.count c.joint = 4096) := by
  obtain ⟨s', claims, h1, h2, -⟩ := run_inv ho hj hJ hc schedule
  have e : s = s' := Option.some.inj (hr.symm.trans h1)
  subst e
  have hund : ∀ j, undos s.calls j = 0 := by
    intro j
    unfold undos
    rw [List.countP_eq_zero]
    intro c hc
    obtain ⟨o, ho⟩ := hd c hc
    rw [ho]; simp
  constructor
  · intro i hi
    have e1 : claimOf s.calls t = some (c.joint, i) := by rw [claimOf_self hct, hi]; rfl
    have hlo := h2.lower _ _ _ e1
    have hcl : (claims c.joint)[i - S.count c.joint]? = some t :=
      (h2.claim c.joint _ t).2 (by rw [e1]; congr 2; omega)
    have hlt := (List.getElem?_eq_some_iff.1 hcl).1
    refine ⟨?_, ?_, ?_⟩
    · rw [h2.count, hund]; omega
    · intro k
      exact h2.stored t c i hct (by rw [hi]; rfl) k k.2 (by rw [hi]; exact k.2)
    · intro t' c' h3 h4 h5
      have e2 : claimOf s.calls t' = some (c.joint, i) := by rw [claimOf_self h3, h5, h4]; rfl
      exact h2.claim_inj e2 e1
  · intro hn
    have := h2.full c.joint (.inr ⟨c, List.mem_of_getElem? hct, rfl, hn⟩)
    rw [h2.count, hund, this]; rfl

/-- **C69**: after any history of concurrent calls of `addConstraint` and of `clearConstraints`, the store holds for every
joint the list of constraints that the history says: the constraints added since the last clearing, each once, in some order
for those added at the same time, up to 4096 per joint; and the unused entries have weight zero. -/
theorem C69_history [Zero K] (one : SimdStore K n → ConstraintCall K n → Bool → Option (SimdStore K n × AddPc))
    (ho : one = fetchStep ∨ one = swapStep) (numJoints : Nat) (S0 S : SimdStore K n)
    (h0 : SimdStore.construct numJoints = some S0) (history : List (SimdEvent K n))
    (hj : ∀ e ∈ history, ∀ calls schedule, e = .add calls schedule → ∀ c ∈ calls, c.1 < numJoints)
    (hr : history.foldlM (SimdEvent.run one) S0 = some S) :
    ∃ C, SimdContents history C ∧ S.numJoints = numJoints ∧ S.Holds C := by
  unfold SimdStore.construct at h0
  split at h0
  swap
  · cases h0
  next hJ =>
  have h0 := Option.some.inj h0
  subst h0
  induction history using List.reverseRecOn generalizing S with
  | nil =>
    cases hr
    exact ⟨_, .nil, rfl, ⟨fun j _ => rfl, fun j _ => Nat.zero_le _, fun j _ i c h => by simp at h, fun _ _ _ _ _ => rfl⟩⟩
  | append_singleton l e ih =>
    rw [List.foldlM_append, Option.bind_eq_bind, Option.bind_eq_some_iff] at hr
    obtain ⟨S1, hr1, hr2⟩ := hr
    obtain ⟨C, hC, hn, hH⟩ := ih S1 (fun e he => hj e (by simp [he])) hr1
    simp only [List.foldlM_cons, List.foldlM_nil, Option.bind_eq_bind, Option.bind_eq_some_iff, Option.pure_def,
      Option.some.injEq, exists_eq_right] at hr2
    cases e with
    | clear =>
      have e := Option.some.inj hr2
      subst e
      refine ⟨_, hC.snoc (.clear C), hn, ?_⟩
      refine ⟨fun j hjl => if_pos hjl, fun j _ => Nat.zero_le _, fun j _ i c h => by simp at h, ?_⟩
      intro j hjl i _ hi
      refine if_pos ⟨Nat.le_add_right _ _, ?_⟩
      show n * (kMaxConstraints * S1.numJoints) + _ < n * (kMaxConstraints * S1.numJoints) + (kMaxConstraints * S1.numJoints)
      have : (j + 1) * kMaxConstraints ≤ S1.numJoints * kMaxConstraints := Nat.mul_le_mul_right _ hjl
      rw [Nat.add_mul, Nat.one_mul] at this
      rw [Nat.mul_comm kMaxConstraints]
      omega
    | add calls schedule =>
      simp only [SimdEvent.run] at hr2
      have hjc : ∀ c ∈ calls, c.1 < S1.numJoints := by
        rw [hn]; exact hj (.add calls schedule) (by simp) calls schedule rfl
      obtain ⟨s, claims, h1, h2, -⟩ := run_inv ho hjc (by rw [hn]; exact hJ)
        (fun j hjl => by rw [hH.count j hjl]; exact hH.room j hjl) schedule
      simp only [fresh] at h1
      rw [h1] at hr2
      simp only at hr2
      split at hr2
      swap
      · cases hr2
      next hall =>
      have e := Option.some.inj hr2
      subst e
      have hret : s.Returned := by
        intro c hc
        rw [List.all_eq_true] at hall
        have := hall c hc
        cases hp : c.pc <;> rw [hp] at this <;> first | exact ⟨_, rfl⟩ | cases this
      obtain ⟨acc, a1, a2, a3, a4⟩ := h2.finish hH hjc hret
      exact ⟨_, hC.snoc (.add calls schedule acc (fun _ => rfl) a3 a4), by rw [a1, hn], a2⟩

/-! ## Progress -/

/-- Steps a call still has to take. -/
def AddPc.left (n : Nat) : AddPc → Nat
  | .start => n + 2
  | .swap _ => 0
  | .storing _ k => max 1 (n + 1 - k)
  | .undo => 1
  | .done _ => 0

theorem fetch_left {S S' : SimdStore K n} {c : ConstraintCall K n} {b : Bool} {pc : AddPc} (h : fetchStep S c b = some (S', pc))
    (hs : ∀ i, c.pc ≠ .swap i) : pc.left n ≤ c.pc.left n - 1 ∧ ∀ i, pc ≠ .swap i := by
  unfold fetchStep at h
  cases hp : c.pc with
  | start =>
    rw [hp] at h
    simp only at h
    split at h
    · simp only [Option.some.injEq, Prod.mk.injEq] at h
      rw [← h.2]
      split
      · exact ⟨by simp [AddPc.left], by simp⟩
      · exact ⟨by simp [AddPc.left], by simp⟩
    · cases h
  | swap i => exact absurd hp (hs i)
  | storing index k =>
    rw [hp] at h
    simp only [storeStep] at h
    split at h
    · split at h
      · simp only [Option.some.injEq, Prod.mk.injEq] at h
        rw [← h.2]
        split
        · exact ⟨by simp only [AddPc.left]; omega, by simp⟩
        · exact ⟨by simp [AddPc.left], by simp⟩
      · cases h
    · cases h
  | undo =>
    rw [hp] at h
    simp only [Option.some.injEq, Prod.mk.injEq] at h
    rw [← h.2]
    exact ⟨by simp [AddPc.left], by simp⟩
  | done o =>
    rw [hp] at h
    simp only [Option.some.injEq, Prod.mk.injEq] at h
    rw [← h.2]
    exact ⟨by simp [AddPc.left], by simp⟩

/-- **C69**: position and plane constraints are added without waiting: a call returns after at most `n + 2` of its own steps
(an increment and `n + 1` assignments, or an increment and a decrement), whatever the other threads do. -/
theorem C69_wait_free (S : SimdStore K n) (calls : List (Nat × (Fin (n + 1) → K))) (schedule : List (Nat × Bool))
    (s : AddSystem K n)
    (hr : AddSystem.run fetchStep ⟨S, calls.map fun c => ⟨c.1, c.2, .start⟩⟩ schedule = some s) (t : Nat) (c : ConstraintCall K n)
    (hc : s.calls[t]? = some c) (ht : n + 2 ≤ schedule.countP fun e => e.1 = t) : ∃ o, c.pc = .done o := by
  have key : ∀ (l : List (Nat × Bool)) (s0 s : AddSystem K n) (c0 : ConstraintCall K n), AddSystem.run fetchStep s0 l = some s →
      s0.calls[t]? = some c0 → (∀ i, c0.pc ≠ .swap i) → ∃ c, s.calls[t]? = some c ∧ (∀ i, c.pc ≠ .swap i) ∧
        c.pc.left n ≤ c0.pc.left n - l.countP fun e => e.1 = t := by
    intro l
    induction l with
    | nil =>
      intro s0 s c0 h h0 hs
      cases h
      exact ⟨c0, h0, hs, by simp⟩
    | cons e l ih =>
      intro s0 s c0 h h0 hs
      unfold AddSystem.run at h
      rw [List.foldlM_cons, Option.bind_eq_bind, Option.bind_eq_some_iff] at h
      obtain ⟨s1, h1, h2⟩ := h
      by_cases het : e.1 = t
      · unfold AddSystem.step at h1
        rw [het, h0] at h1
        simp only at h1
        cases hf : fetchStep s0.store c0 e.2 with
        | none => rw [hf] at h1; cases h1
        | some r =>
          rw [hf] at h1
          have h1 := Option.some.inj h1
          obtain ⟨k1, k2⟩ := fetch_left (pc := r.2) (S' := r.1) hf hs
          obtain ⟨c1, m1, m2, m3⟩ := ih s1 s { c0 with pc := r.2 } h2
            (by rw [← h1]; exact List.getElem?_set_self (List.getElem?_eq_some_iff.1 h0).1) k2
          refine ⟨c1, m1, m2, ?_⟩
          rw [List.countP_cons_of_pos (by simpa using het)]
          simp only at m3
          omega
      · have h1' : s1.calls[t]? = some c0 := by
          unfold AddSystem.step at h1
          cases hg : s0.calls[e.1]? with
          | none => rw [hg] at h1; rw [← Option.some.inj h1]; exact h0
          | some d =>
            rw [hg] at h1
            simp only at h1
            cases hf : fetchStep s0.store d e.2 with
            | none => rw [hf] at h1; cases h1
            | some r =>
              rw [hf] at h1
              rw [← Option.some.inj h1]
              simp only
              rw [List.getElem?_set_ne het]; exact h0
        obtain ⟨c1, m1, m2, m3⟩ := ih s1 s c0 h2 h1' hs
        refine ⟨c1, m1, m2, ?_⟩
        rw [List.countP_cons_of_neg (by simpa using het)]
        exact m3
  have hstart : ∃ c0 : ConstraintCall K n, (calls.map fun c => (⟨c.1, c.2, .start⟩ : ConstraintCall K n))[t]? = some c0 ∧ c0.pc = .start := by
    by_contra hno
    have hn : (calls.map fun c => (⟨c.1, c.2, .start⟩ : ConstraintCall K n))[t]? = none := by
      rw [List.getElem?_map] at hno ⊢
      cases hct : calls[t]? with
      | none => rfl
      | some x => exact absurd ⟨_, by rw [hct]; rfl, rfl⟩ hno
    have hlen : ∀ (l : List (Nat × Bool)) (s0 s : AddSystem K n), AddSystem.run fetchStep s0 l = some s →
        s.calls.length = s0.calls.length := by
      intro l
      induction l with
      | nil => intro s0 s h; cases h; rfl
      | cons e l ih =>
        intro s0 s h
        unfold AddSystem.run at h
        rw [List.foldlM_cons, Option.bind_eq_bind, Option.bind_eq_some_iff] at h
        obtain ⟨s1, h1, h2⟩ := h
        rw [ih s1 s h2]
        unfold AddSystem.step at h1
        split at h1
        · rw [← Option.some.inj h1]
        · split at h1
          · cases h1
          · rw [← Option.some.inj h1, List.length_set]
    have h1 := hlen _ _ _ hr
    have h2 := (List.getElem?_eq_some_iff.1 hc).1
    rw [List.getElem?_eq_none_iff] at hn
    simp only at h1
    omega
  obtain ⟨c0, h0, hp⟩ := hstart
  obtain ⟨c1, m1, m2, m3⟩ := key schedule _ s c0 hr h0 (by rw [hp]; simp)
  have e : c1 = c := Option.some.inj (m1.symm.trans hc)
  subst e
  rw [hp] at m3
  simp only [AddPc.left] at m3
  have hz : c1.pc.left n = 0 := by
    have : c1.pc.left n ≤ n + 2 - List.countP (fun e => decide (e.1 = t)) schedule := m3
    omega
  cases hq : c1.pc with
  | start => rw [hq] at hz; simp [AddPc.left] at hz
  | swap i => exact absurd hq (m2 i)
  | undo => rw [hq] at hz; simp [AddPc.left] at hz
  | done o => exact ⟨o, rfl⟩
  | storing i k =>
    exfalso
    rw [hq] at hz
    simp only [AddPc.left] at hz
    omega

/-- Steps a call for normal constraints still has to take when no other thread takes any. -/
def AddPc.leftAlone (n : Nat) (count : Nat) : AddPc → Nat
  | .start => n + 3
  | .swap index => if count = index then n + 2 else n + 4
  | .storing _ k => max 1 (n + 1 - k)
  | .undo => 1
  | .done _ => 0

theorem swap_left {S S' : SimdStore K n} {c : ConstraintCall K n} {pc : AddPc} (h : swapStep S c false = some (S', pc))
    (hs : c.pc ≠ .undo) : pc.leftAlone n (S'.count c.joint) ≤ c.pc.leftAlone n (S.count c.joint) - 1 ∧ pc ≠ .undo := by
  unfold swapStep at h
  cases hp : c.pc with
  | start =>
    rw [hp] at h
    simp only at h
    split at h
    · simp only [Option.some.injEq, Prod.mk.injEq] at h
      rw [← h.2, ← h.1]
      split
      · exact ⟨by simp [AddPc.leftAlone], by simp⟩
      · exact ⟨by simp [AddPc.leftAlone], by simp⟩
    · cases h
  | swap i =>
    rw [hp] at h
    simp only at h
    split at h
    · next hh =>
      simp only [Option.some.injEq, Prod.mk.injEq] at h
      rw [← h.2]
      exact ⟨by simp [AddPc.leftAlone, hh.1], by simp⟩
    · next hh =>
      simp only [Option.some.injEq, Prod.mk.injEq] at h
      rw [← h.2]
      have : S.count c.joint ≠ i := fun e => hh ⟨e, by trivial⟩
      exact ⟨by simp [AddPc.leftAlone, this], by simp⟩
  | storing index k =>
    rw [hp] at h
    simp only [storeStep] at h
    split at h
    · split at h
      · simp only [Option.some.injEq, Prod.mk.injEq] at h
        rw [← h.2]
        split
        · exact ⟨by simp only [AddPc.leftAlone]; omega, by simp⟩
        · exact ⟨by simp [AddPc.leftAlone], by simp⟩
      · cases h
    · cases h
  | undo => exact absurd hp hs
  | done o =>
    rw [hp] at h
    simp only [Option.some.injEq, Prod.mk.injEq] at h
    rw [← h.2]
    exact ⟨by simp [AddPc.leftAlone], by simp⟩

theorem swap_no_undo : ∀ (l : List (Nat × Bool)) (s0 s : AddSystem K n), AddSystem.run swapStep s0 l = some s →
    (∀ c ∈ s0.calls, c.pc ≠ .undo) → ∀ c ∈ s.calls, c.pc ≠ .undo := by
  intro l
  induction l with
  | nil => intro s0 s h h0; cases h; exact h0
  | cons e l ih =>
    intro s0 s h h0
    unfold AddSystem.run at h
    rw [List.foldlM_cons, Option.bind_eq_bind, Option.bind_eq_some_iff] at h
    obtain ⟨s1, h1, h2⟩ := h
    refine ih s1 s h2 ?_
    unfold AddSystem.step at h1
    split at h1
    · rw [← Option.some.inj h1]; exact h0
    · next d hd =>
      split at h1
      · cases h1
      · next S' pc hf =>
        rw [← Option.some.inj h1]
        intro c hc
        rcases List.mem_or_eq_of_mem_set hc with hc | hc
        · exact h0 c hc
        · subst hc
          show pc ≠ .undo
          have hdu := h0 d (List.mem_of_getElem? hd)
          unfold swapStep at hf
          cases hp : d.pc with
          | start =>
            rw [hp] at hf; simp only at hf
            split at hf
            · simp only [Option.some.injEq, Prod.mk.injEq] at hf
              rw [← hf.2]; split <;> simp
            · cases hf
          | swap i =>
            rw [hp] at hf; simp only at hf
            split at hf <;> (simp only [Option.some.injEq, Prod.mk.injEq] at hf; rw [← hf.2]; simp)
          | storing i k =>
            rw [hp] at hf; simp only [storeStep] at hf
            split at hf
            · split at hf
              · simp only [Option.some.injEq, Prod.mk.injEq] at hf
                rw [← hf.2]; split <;> simp
              · cases hf
            · cases hf
          | undo => exact absurd hp hdu
          | done o =>
            rw [hp] at hf
            simp only [Option.some.injEq, Prod.mk.injEq] at hf
            rw [← hf.2]; simp

/-- **C69**: a call that adds a normal constraint returns once it is left alone: whatever has happened before, `n + 4` of its
own steps in which no exchange fails without reason are enough. -/
theorem C69_swap_alone (S : SimdStore K n) (calls : List (Nat × (Fin (n + 1) → K))) (schedule : List (Nat × Bool))
    (s : AddSystem K n) (t : Nat)
    (hr : AddSystem.run swapStep ⟨S, calls.map fun c => ⟨c.1, c.2, .start⟩⟩
      (schedule ++ List.replicate (n + 4) (t, false)) = some s) (c : ConstraintCall K n) (hc : s.calls[t]? = some c) :
    ∃ o, c.pc = .done o := by
  have key : ∀ (m : Nat) (s0 s : AddSystem K n) (c0 : ConstraintCall K n),
      AddSystem.run swapStep s0 (List.replicate m (t, false)) = some s → s0.calls[t]? = some c0 → c0.pc ≠ .undo →
      ∃ c, s.calls[t]? = some c ∧ c.pc ≠ .undo ∧
        c.pc.leftAlone n (s.store.count c.joint) ≤ c0.pc.leftAlone n (s0.store.count c0.joint) - m := by
    intro m
    induction m with
    | zero => intro s0 s c0 h h0 hs; cases h; exact ⟨c0, h0, hs, le_refl _⟩
    | succ m ih =>
      intro s0 s c0 h h0 hs
      unfold AddSystem.run at h
      rw [List.replicate_succ, List.foldlM_cons, Option.bind_eq_bind, Option.bind_eq_some_iff] at h
      obtain ⟨s1, h1, h2⟩ := h
      unfold AddSystem.step at h1
      simp only [h0] at h1
      cases hf : swapStep s0.store c0 false with
      | none => rw [hf] at h1; cases h1
      | some r =>
        rw [hf] at h1
        have h1 := Option.some.inj h1
        obtain ⟨k1, k2⟩ := swap_left (pc := r.2) (S' := r.1) hf hs
        obtain ⟨c1, m1, m2, m3⟩ := ih s1 s { c0 with pc := r.2 } h2
          (by rw [← h1]; exact List.getElem?_set_self (List.getElem?_eq_some_iff.1 h0).1) k2
        refine ⟨c1, m1, m2, ?_⟩
        rw [← h1] at m3
        simp only at m3
        omega
  unfold AddSystem.run at hr
  rw [List.foldlM_append, Option.bind_eq_bind, Option.bind_eq_some_iff] at hr
  obtain ⟨s1, h1, h2⟩ := hr
  have hlen : ∀ (l : List (Nat × Bool)) (s0 s : AddSystem K n), AddSystem.run swapStep s0 l = some s →
      s.calls.length = s0.calls.length := by
    intro l
    induction l with
    | nil => intro s0 s h; cases h; rfl
    | cons e l ih =>
      intro s0 s h
      unfold AddSystem.run at h
      rw [List.foldlM_cons, Option.bind_eq_bind, Option.bind_eq_some_iff] at h
      obtain ⟨s1, h1, h2⟩ := h
      rw [ih s1 s h2]
      unfold AddSystem.step at h1
      split at h1
      · rw [← Option.some.inj h1]
      · split at h1
        · cases h1
        · rw [← Option.some.inj h1, List.length_set]
  have hl : t < s1.calls.length := by
    rw [← hlen _ s1 s h2]; exact (List.getElem?_eq_some_iff.1 hc).1
  have hu := swap_no_undo _ _ s1 h1 (by
    intro c hc
    obtain ⟨d, -, e⟩ := List.mem_map.1 hc
    rw [← e]; simp)
  obtain ⟨c1, m1, m2, m3⟩ := key (n + 4) s1 s s1.calls[t] h2 (List.getElem?_eq_getElem hl) (hu _ (List.getElem_mem hl))
  have e : c1 = c := Option.some.inj (m1.symm.trans hc)
  subst e
  have hb : ∀ (pc : AddPc) (m : Nat), (∃ i k, pc = .storing i k ∧ n + 1 - k > n + 4) ∨ pc.leftAlone n m ≤ n + 4 := by
    intro pc m
    cases pc with
    | swap i => right; simp only [AddPc.leftAlone]; split <;> omega
    | storing i k => right; simp only [AddPc.leftAlone]; omega
    | _ => right; simp [AddPc.leftAlone]
  have hz : c1.pc.leftAlone n (s.store.count c1.joint) = 0 := by
    rcases hb s1.calls[t].pc (s1.store.count s1.calls[t].joint) with ⟨i, k, -, h⟩ | h
    · omega
    · omega
  cases hq : c1.pc with
  | start => rw [hq] at hz; simp [AddPc.leftAlone] at hz
  | swap i =>
    rw [hq] at hz
    simp only [AddPc.leftAlone] at hz
    split at hz <;> omega
  | undo => exact absurd hq m2
  | done o => exact ⟨o, rfl⟩
  | storing i k =>
    exfalso
    rw [hq] at hz
    simp only [AddPc.leftAlone] at hz
    omega

/-! ## What the code does not do -/

/-- **C69**, finding: on a joint that already has 4096 constraints, `addConstraint` of the position and plane constraints
returns like any other call, but the store is as before: the caller is not told. -/
theorem C69_full_dropped (S : SimdStore K n) (j : Nat) (v : Fin (n + 1) → K) (hj : j < 512) (hf : S.count j = 4096) :
    AddSystem.run fetchStep ⟨S, [⟨j, v, .start⟩]⟩ [(0, false), (0, false)] = some ⟨S, [⟨j, v, .done none⟩]⟩ := by
  have hk : j < kMaxSimdJoints := hj
  have e : Function.update (Function.update S.count j (4096 + 1)) j (4096 + 1 - 1) = S.count := by
    rw [Function.update_idem]
    show Function.update S.count j 4096 = S.count
    rw [← hf, Function.update_eq_self]
  simp [AddSystem.run, AddSystem.step, fetchStep, hk, hf, kMaxConstraints, e]

/-- A store for a skeleton with one joint, holding one constraint for it. -/
def exSimdOne : SimdStore ℚ 6 :=
  ⟨1, Function.update (Function.update (fun _ => 0) 4096 7) (6 * 4096) 1, Function.update (fun _ => 0) 0 1⟩

/-- The constraint it holds. -/
def exSimdVals : Fin 7 → ℚ := fun k => if k = 1 then 7 else if k = 6 then 1 else 0

/-- **C69**, finding: `addConstraint` checks the joint against 512 and not against the number of joints it has room for.  In
a store for one joint, a constraint for joint 1 goes through the check, overwrites the second number of the constraint of
joint 0 and ends up writing outside the block. -/
theorem C69_joint_range_wrong :
    exSimdOne.Holds (fun j => if j = 0 then [exSimdVals] else []) ∧
    (∃ s, AddSystem.run fetchStep ⟨exSimdOne, [⟨1, fun _ => 5, .start⟩]⟩ (List.replicate 2 (0, false)) = some s ∧
      s.store.mem 4096 = 5 ∧ exSimdVals 1 = 7) ∧
    AddSystem.run fetchStep ⟨exSimdOne, [⟨1, fun _ => 5, .start⟩]⟩ (List.replicate 8 (0, false)) = none := by
  refine ⟨⟨?_, ?_, ?_, ?_⟩, ?_, ?_⟩
  · intro j hj
    have : j = 0 := by simp only [exSimdOne] at hj; omega
    subst this; simp [exSimdOne]
  · intro j hj
    split <;> simp [kMaxConstraints]
  · intro j hj i c hc k
    have : j = 0 := by simp only [exSimdOne] at hj; omega
    subst this
    rw [if_pos rfl] at hc
    cases i with
    | succ i => simp at hc
    | zero =>
      have hc := Option.some.inj hc
      subst hc
      fin_cases k <;> simp [exSimdOne, exSimdVals, kMaxConstraints, Function.update]
  · intro j hj i hi hlt
    have : j = 0 := by simp only [exSimdOne] at hj; omega
    subst this
    simp only [if_true, List.length_singleton, kMaxConstraints] at hi hlt
    simp only [exSimdOne, kMaxConstraints, Function.update]
    rw [dif_neg (by omega), dif_neg (by omega)]
  · refine ⟨_, rfl, ?_, ?_⟩ <;> decide +kernel
  · decide +kernel

/-! ## Examples -/

/-- Two threads add a constraint to the same joint, the second overtaking the first; both are stored. -/
example : ∃ s, AddSystem.run fetchStep ⟨(⟨1, fun _ => 0, fun _ => 0⟩ : SimdStore ℚ 1),
      [⟨0, fun k => if k = 0 then 3 else 1, .start⟩, ⟨0, fun k => if k = 0 then 4 else 2, .start⟩]⟩
      [(0, false), (1, false), (1, false), (1, false), (0, false), (0, false)] = some s ∧
    s.calls.map (·.pc) = [.done (some 0), .done (some 1)] ∧ s.store.count 0 = 2 ∧ s.store.mem 0 = 3 ∧ s.store.mem 1 = 4 ∧
    s.store.mem 4096 = 1 ∧ s.store.mem 4097 = 2 := by
  refine ⟨_, rfl, ?_⟩
  decide +kernel

/-- The same with `compare_exchange_weak`: the exchange of the first thread fails and is tried again. -/
example : ∃ s, AddSystem.run swapStep ⟨(⟨1, fun _ => 0, fun _ => 0⟩ : SimdStore ℚ 1),
      [⟨0, fun k => if k = 0 then 3 else 1, .start⟩, ⟨0, fun k => if k = 0 then 4 else 2, .start⟩]⟩
      [(0, false), (1, false), (1, false), (0, false), (1, false), (1, false), (0, false), (0, false), (0, false),
        (0, false)] = some s ∧
    s.calls.map (·.pc) = [.done (some 1), .done (some 0)] ∧ s.store.count 0 = 2 ∧ s.store.mem 0 = 4 ∧ s.store.mem 1 = 3 := by
  refine ⟨_, rfl, ?_⟩
  decide +kernel

/-- A history with two threads, a clearing and a third call meets the hypotheses of `C69_history`. -/
def exSimdHistory : List (SimdEvent ℚ 1) :=
  [.add [(0, fun _ => 3), (1, fun _ => 4)] [(1, false), (0, false), (0, false), (1, false), (1, false), (0, false)], .clear,
    .add [(1, fun _ => 5)] [(0, false), (0, false), (0, false)]]

example : ∃ S0 S : SimdStore ℚ 1, SimdStore.construct 2 = some S0 ∧
    (∀ e ∈ exSimdHistory, ∀ calls schedule, e = .add calls schedule → ∀ c ∈ calls, c.1 < 2) ∧
    exSimdHistory.foldlM (SimdEvent.run fetchStep) S0 = some S ∧ S.count 0 = 0 ∧ S.count 1 = 1 ∧ S.mem 4096 = 5 := by
  refine ⟨⟨2, fun _ => 0, fun _ => 0⟩, _, rfl, ?_, rfl, ?_⟩
  · intro e he calls schedule h c hc
    simp only [exSimdHistory, List.mem_cons, List.not_mem_nil, or_false] at he
    rcases he with rfl | rfl | rfl
    · cases h
      simp only [List.mem_cons, List.not_mem_nil, or_false] at hc
      rcases hc with rfl | rfl <;> decide
    · cases h
    · cases h
      simp only [List.mem_cons, List.not_mem_nil, or_false] at hc
      subst hc; decide
  · decide +kernel

end Momentum
