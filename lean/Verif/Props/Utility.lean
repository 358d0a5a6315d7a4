import Verif.Model.Utility
import Mathlib.Tactic.Ring
import Mathlib.Data.List.GetD
import Mathlib.Tactic.Linarith
import Mathlib.Tactic.FieldSimp
import Mathlib.Tactic.Positivity
import Mathlib.Algebra.Order.Ring.Int

/-!
# C46, C48, C49
-/

namespace Momentum

/-! ### C46 -/

section
variable {K : Type} [CommRing K] [LinearOrder K] [IsStrictOrderedRing K]

/-- Specification: the part of a change `d` that stays within `±m`. -/
def IsClamped (d m y : K) : Prop := -m ≤ y ∧ y ≤ m ∧ (-m ≤ d → d ≤ m → y = d) ∧ (d < -m → y = -m) ∧ (m < d → y = m)

theorem isClamped_minmax (d m : K) (hm : 0 ≤ m) : IsClamped d m (max (min d m) (-m)) := by
  have : -m ≤ m := by linarith
  refine ⟨le_max_right _ _, max_le (min_le_right _ _) this, fun h1 h2 => ?_, fun h => ?_, fun h => ?_⟩
  · rw [min_eq_left h2, max_eq_left h1]
  · rw [min_eq_left (by linarith), max_eq_right h.le]
  · rw [min_eq_right h.le, max_eq_left this]

/-- **C46** (all parameters) each parameter moves by `factor` times its last change clamped to `±maxDelta`. -/
theorem C46_all (previous current : List K) (factor maxDelta : K) (hm : 0 ≤ maxDelta)
    (hlen : current.length = previous.length) :
    (extrapolateAll previous current factor maxDelta).length = current.length ∧
    ∀ (i : Nat) (c p : K), current[i]? = some c → previous[i]? = some p →
      ∃ y, IsClamped (c - p) maxDelta y ∧ (extrapolateAll previous current factor maxDelta)[i]? = some (c + factor * y) := by
  unfold extrapolateAll
  rw [if_neg (by simpa using hlen)]
  refine ⟨by simp [hlen], fun i c p hc hp => ⟨_, isClamped_minmax (c - p) maxDelta hm, ?_⟩⟩
  rw [List.getElem?_zipWith, hc, hp]
  simp only [Option.some.injEq]
  ring

/-- **C46** (all parameters) the move is at most `|factor| * maxDelta`. -/
theorem C46_all_bounded (previous current : List K) (factor maxDelta : K) (hm : 0 ≤ maxDelta)
    (hlen : current.length = previous.length) (i : Nat) (c x : K) (hc : current[i]? = some c)
    (hx : (extrapolateAll previous current factor maxDelta)[i]? = some x) : |x - c| ≤ |factor| * maxDelta := by
  have hi := (List.getElem?_eq_some_iff.mp hc).1
  obtain ⟨y, h1, h2⟩ := (C46_all previous current factor maxDelta hm hlen).2 i c (previous[i]'(by omega)) hc
    (List.getElem?_eq_getElem _)
  rw [h2, Option.some.injEq] at hx
  rw [← hx, add_sub_cancel_left, abs_mul]
  exact mul_le_mul_of_nonneg_left (abs_le.mpr ⟨h1.1, h1.2.1⟩) (abs_nonneg _)

omit [IsStrictOrderedRing K] in
/-- **C46** mismatched sizes give the current pose, in both versions. -/
theorem C46_mismatch (previous current : List K) (active : ParameterSet) (factor maxDelta : K)
    (h : current.length ≠ previous.length) : extrapolateAll previous current factor maxDelta = current ∧
      extrapolateActive previous current active factor maxDelta = .ok current := by
  unfold extrapolateAll extrapolateActive
  rw [if_pos h, if_pos h]
  exact ⟨rfl, rfl⟩

theorem stdClamp_ok (d m : K) (hm : 0 ≤ m) : ∃ y, stdClamp d (-m) m = .ok y ∧ IsClamped d m y := by
  unfold stdClamp
  rw [if_neg (by linarith)]
  refine ⟨_, rfl, ?_⟩
  unfold IsClamped
  split_ifs with h1 h2
  · exact ⟨le_rfl, by linarith, fun h => absurd h1 (not_lt.mpr h), fun _ => rfl, fun h => by linarith⟩
  · exact ⟨by linarith, le_rfl, fun _ h => absurd h2 (not_lt.mpr h), fun h => by linarith, fun _ => rfl⟩
  · exact ⟨not_lt.mp h1, not_lt.mp h2, fun _ _ => rfl, fun h => absurd h h1, fun h => absurd h h2⟩

/-- **C46** (active set) active parameters move by `factor` times the clamped last change, all other parameters keep their
current value; the call succeeds for every vector that fits the parameter set. -/
theorem C46_active (previous current : List K) (active : ParameterSet) (factor maxDelta : K) (hm : 0 ≤ maxDelta)
    (hlen : current.length = previous.length) (hsz : current.length ≤ kMaxModelParams) :
    ∃ r, extrapolateActive previous current active factor maxDelta = .ok r ∧ r.length = current.length ∧
      ∀ (i : Nat) (c p : K), current[i]? = some c → previous[i]? = some p →
        (active.test i = some true → ∃ y, IsClamped (c - p) maxDelta y ∧ r[i]? = some (c + factor * y)) ∧
        (active.test i = some false → r[i]? = some c) := by
  unfold extrapolateActive
  rw [if_neg (by simpa using hlen)]
  have key : ∀ m ≤ current.length, ∃ r, (List.range m).foldl
      (fun (acc : Outcome (List K)) i => acc.bind fun r => extrapolateStep previous current active factor maxDelta r i)
      (.ok current) = .ok r ∧ r.length = current.length ∧ (∀ i, m ≤ i → r[i]? = current[i]?) ∧
      ∀ i < m, ∀ c p, current[i]? = some c → previous[i]? = some p →
        (active.test i = some true → ∃ y, IsClamped (c - p) maxDelta y ∧ r[i]? = some (c + factor * y)) ∧
        (active.test i = some false → r[i]? = some c) := by
    intro m hm'
    induction m with
    | zero => exact ⟨current, rfl, rfl, fun _ _ => rfl, fun i hi => by omega⟩
    | succ m ih =>
      obtain ⟨r, h1, h2, h3, h4⟩ := ih (by omega)
      rw [List.range_succ, List.foldl_append, List.foldl_cons, List.foldl_nil, h1]
      simp only [Outcome.bind]
      have ht : active.test m = some (active ⟨m, by omega⟩) := by
        unfold ParameterSet.test; rw [dif_pos (show m < kMaxModelParams by omega)]
      unfold extrapolateStep
      have hc := List.getElem?_eq_getElem (l := current) (show m < current.length by omega)
      have hp := List.getElem?_eq_getElem (l := previous) (show m < previous.length by omega)
      cases hb : active ⟨m, by omega⟩ with
      | false =>
        rw [hb] at ht
        rw [ht]
        refine ⟨r, rfl, h2, fun i hi => h3 i (by omega), fun i hi c p hc' hp' => ?_⟩
        rcases Nat.lt_succ_iff_lt_or_eq.mp hi with h | rfl
        · exact h4 i h c p hc' hp'
        · refine ⟨fun h => by rw [ht] at h; simp at h, fun _ => ?_⟩
          rw [h3 i le_rfl, hc']
      | true =>
        rw [hb] at ht
        rw [ht, hc, hp]
        obtain ⟨y, hy1, hy2⟩ := stdClamp_ok (current[m]'(by omega) - previous[m]'(by omega)) maxDelta hm
        simp only [hy1, Outcome.bind]
        refine ⟨_, rfl, by simpa using h2, fun i hi => ?_, fun i hi c p hc' hp' => ?_⟩
        · rw [List.getElem?_set_ne (by omega), h3 i (by omega)]
        · rcases Nat.lt_succ_iff_lt_or_eq.mp hi with h | rfl
          · rw [List.getElem?_set_ne (by omega)]; exact h4 i h c p hc' hp'
          · rw [hc, Option.some.injEq] at hc'
            rw [hp, Option.some.injEq] at hp'
            rw [hc', hp'] at hy2
            refine ⟨fun _ => ⟨y, hy2, ?_⟩, fun h => by rw [ht] at h; simp at h⟩
            rw [List.getElem?_set_self (by omega), hc']
  obtain ⟨r, h1, h2, _, h4⟩ := key current.length le_rfl
  exact ⟨r, h1, h2, fun i c p hc hp => h4 i (List.getElem?_eq_some_iff.mp hc).1 c p hc hp⟩

/-- **C46** finding: with a negative bound the active-set version is undefined behaviour as soon as a parameter is active
(`std::clamp` with `hi < lo`). -/
theorem C46_negative_bound_counterexample (c p : K) (active : ParameterSet) (h : active.test 0 = some true)
    (factor maxDelta : K) (hm : maxDelta < 0) : extrapolateActive [p] [c] active factor maxDelta = .ub := by
  unfold extrapolateActive extrapolateStep
  simp [Outcome.bind, h, stdClamp, show maxDelta < -maxDelta by linarith]

end

/-- Three parameters, one of them inactive; the first change exceeds the bound. -/
example : extrapolateActive [0, 1, 2] ([10, 2, 5] : List Int) (fun j => j.val ≠ 2) 3 4
    = .ok [10 + 3 * 4, 2 + 3 * 1, 5] := by decide
example : extrapolateAll [0, 1, 20] ([10, 2, 5] : List Int) 3 4 = [22, 5, -7] := by decide

/-! ### C48 -/

section
variable {K : Type} [Zero K]

theorem findIdx_name_iff (l : List String) (s : String) (k : Nat) :
    l.findIdx? (fun n => n = s) = some k ↔ l[k]? = some s ∧ ∀ k' < k, l[k']? ≠ some s := by
  rw [List.findIdx?_eq_some_iff_getElem]
  constructor
  · rintro ⟨h, h1, h2⟩
    refine ⟨by rw [List.getElem?_eq_getElem h]; simpa using h1, fun k' hk' he => ?_⟩
    have := h2 k' hk'
    rw [List.getElem?_eq_getElem (by omega), Option.some.injEq] at he
    simp [he] at this
  · rintro ⟨h1, h2⟩
    obtain ⟨h, h1⟩ := List.getElem?_eq_some_iff.mp h1
    refine ⟨h, by simpa using h1, fun j hj => ?_⟩
    have := h2 j hj
    rw [List.getElem?_eq_getElem (by omega)] at this
    simpa using this

/-- Name `i` of the motion is the name of target parameter `k` (its first parameter of that name). -/
def NameHits (target names : List String) (i k : Nat) : Prop :=
  ∃ s, names[i]? = some s ∧ target[k]? = some s ∧ ∀ k' < k, target[k']? ≠ some s

theorem nameHits_iff (target names : List String) (i k : Nat) (hi : i < names.length) :
    NameHits target names i k ↔ target.findIdx? (fun n => n = names.getD i "") = some k := by
  rw [findIdx_name_iff]
  unfold NameHits
  rw [List.getD_eq_getElem _ _ hi, List.getElem?_eq_getElem hi]
  constructor
  · rintro ⟨s, h1, h2, h3⟩
    rw [Option.some.injEq] at h1; rw [h1]; exact ⟨h2, h3⟩
  · rintro ⟨h2, h3⟩; exact ⟨_, rfl, h2, h3⟩

/-- **C48** motion: row `i` of the motion lands in the parameter it names (the last row with the name wins), every parameter
that no row names stays zero, and the call only fails when there are not as many names as rows. -/
theorem C48_motion (target names : List String) (cols : Nat) (motion : List (List K)) :
    (names.length ≠ motion.length → mapMotionToCharacter target names cols motion = none) ∧
    (names.length = motion.length → ∃ r, mapMotionToCharacter target names cols motion = some r ∧ r.length = target.length ∧
      ∀ k < target.length,
        ((∀ i, ¬ NameHits target names i k) → r[k]? = some (List.replicate cols 0)) ∧
        (∀ i, NameHits target names i k → (∀ i', i < i' → ¬ NameHits target names i' k) → r[k]? = motion[i]?)) := by
  refine ⟨fun h => by unfold mapMotionToCharacter; rw [if_neg h], fun hlen => ?_⟩
  unfold mapMotionToCharacter
  rw [if_pos hlen]
  have key : ∀ m ≤ names.length, ∃ r, (List.range m).foldlM
      (fun result i => mapMotionStep target motion result i (names.getD i ""))
      (List.replicate target.length (List.replicate cols (0 : K))) = some r ∧ r.length = target.length ∧
      ∀ k < target.length,
        ((∀ i < m, ¬ NameHits target names i k) → r[k]? = some (List.replicate cols 0)) ∧
        (∀ i < m, NameHits target names i k → (∀ i', i < i' → i' < m → ¬ NameHits target names i' k) →
          r[k]? = motion[i]?) := by
    intro m hm
    induction m with
    | zero =>
      refine ⟨_, rfl, by simp, fun k hk => ⟨fun _ => by simp [hk], fun i hi => by omega⟩⟩
    | succ m ih =>
      obtain ⟨r, h1, h2, h3⟩ := ih (by omega)
      rw [List.range_succ, List.foldlM_append, h1]
      simp only [Option.bind_eq_bind, Option.bind_some, List.foldlM_cons, List.foldlM_nil, Option.pure_def]
      unfold mapMotionStep getParameterIdByName
      cases hf : target.findIdx? (fun n => n = names.getD m "") with
      | none =>
        have no : ∀ k, ¬ NameHits target names m k := fun k h => by
          rw [nameHits_iff _ _ _ _ (by omega), hf] at h; simp at h
        refine ⟨r, rfl, h2, fun k hk => ⟨fun h => (h3 k hk).1 fun i hi => h i (by omega), fun i hi hhit hlast => ?_⟩⟩
        rcases Nat.lt_succ_iff_lt_or_eq.mp hi with h | rfl
        · exact (h3 k hk).2 i h hhit fun i' a b => hlast i' a (by omega)
        · exact absurd hhit (no k)
      | some index =>
        have yes := (nameHits_iff target names m index (by omega)).mpr hf
        have uniq : ∀ k, NameHits target names m k → k = index := fun k h => by
          rw [nameHits_iff _ _ _ _ (by omega), hf, Option.some.injEq] at h; exact h.symm
        have hidx : index < target.length := by
          obtain ⟨s, _, h, _⟩ := yes
          exact (List.getElem?_eq_some_iff.mp h).1
        simp only [Option.bind_eq_bind, Option.bind_some, List.getElem?_eq_getElem (show m < motion.length by omega)]
        refine ⟨_, rfl, by simpa using h2, fun k hk => ⟨fun h => ?_, fun i hi hhit hlast => ?_⟩⟩
        · have hne : index ≠ k := fun e => h m (by omega) (e ▸ yes)
          rw [List.getElem?_set_ne hne]
          exact (h3 k hk).1 fun i hi => h i (by omega)
        · rcases Nat.lt_succ_iff_lt_or_eq.mp hi with h | rfl
          · have hne : index ≠ k := fun e => hlast m h (by omega) (e ▸ yes)
            rw [List.getElem?_set_ne hne]
            exact (h3 k hk).2 i h hhit fun i' a b => hlast i' a (by omega)
          · rw [uniq k hhit, List.getElem?_set_self (by omega), List.getElem?_eq_getElem (by omega)]
  obtain ⟨r, h1, h2, h3⟩ := key names.length le_rfl
  have out : ∀ i k, names.length ≤ i → ¬ NameHits target names i k := by
    rintro i k hi ⟨s, h, _⟩
    rw [List.getElem?_eq_none hi] at h; simp at h
  refine ⟨r, h1, h2, fun k hk => ⟨fun h => (h3 k hk).1 fun i _ => h i, fun i hhit hlast => ?_⟩⟩
  refine (h3 k hk).2 i ?_ hhit fun i' a _ => hlast i' a
  by_contra hc
  exact out i k (by omega) hhit

theorem nodup_hits (names : List String) (hnd : names.Nodup) (i k : Nat) :
    NameHits names names i k ↔ i = k ∧ k < names.length := by
  constructor
  · rintro ⟨s, h1, h2, _⟩
    obtain ⟨a, ha⟩ := List.getElem?_eq_some_iff.mp h1
    obtain ⟨b, hb⟩ := List.getElem?_eq_some_iff.mp h2
    exact ⟨(List.Nodup.getElem_inj_iff hnd).mp (ha.trans hb.symm), b⟩
  · rintro ⟨rfl, h⟩
    refine ⟨names[i], List.getElem?_eq_getElem h, List.getElem?_eq_getElem h, fun k' hk' he => ?_⟩
    rw [List.getElem?_eq_getElem (by omega), Option.some.injEq, List.Nodup.getElem_inj_iff hnd] at he
    omega

/-- **C48** motion: mapping a motion to the character it was made for is the identity when names are unique. -/
theorem C48_motion_identity (names : List String) (hnd : names.Nodup) (cols : Nat) (motion : List (List K))
    (hlen : names.length = motion.length) : mapMotionToCharacter names names cols motion = some motion := by
  obtain ⟨r, h1, h2, h3⟩ := (C48_motion names names cols motion).2 hlen
  rw [h1, Option.some.injEq]
  apply List.ext_getElem?
  intro k
  by_cases hk : k < names.length
  · exact (h3 k hk).2 k ((nodup_hits names hnd k k).mpr ⟨rfl, hk⟩) fun i' h hh =>
      absurd ((nodup_hits names hnd i' k).mp hh).1 (by omega)
  · rw [List.getElem?_eq_none (by omega), List.getElem?_eq_none (by omega)]

omit [Zero K] in
theorem copyBlock_get (result v : List K) (a b : Nat) (ha : a + 7 ≤ result.length) (hb : b + 7 ≤ v.length) :
    ∃ r, copyBlock result v a b = some r ∧ r.length = result.length ∧ (∀ d < 7, r[a + d]? = v[b + d]?) ∧
      ∀ j, j < a ∨ a + 7 ≤ j → r[j]? = result[j]? := by
  unfold copyBlock
  rw [if_pos ⟨ha, hb⟩]
  have l1 : (result.take a).length = a := by rw [List.length_take]; omega
  have l2 : ((v.drop b).take 7).length = 7 := by rw [List.length_take, List.length_drop]; omega
  refine ⟨_, rfl, ?_, fun d hd => ?_, fun j hj => ?_⟩
  · simp only [List.length_append, l1, l2, List.length_drop]; omega
  · rw [List.getElem?_append_right (by omega), l1, Nat.add_sub_cancel_left, List.getElem?_append_left (by omega),
      List.getElem?_take_of_lt hd, List.getElem?_drop]
  · rcases hj with h | h
    · rw [List.getElem?_append_left (by omega), List.getElem?_take_of_lt h]
    · rw [List.getElem?_append_right (by omega), l1, List.getElem?_append_right (by omega), l2, List.getElem?_drop]
      congr 1; omega

/-- **C48** identity: the seven parameters of each named joint are copied to the joint of that name (last occurrence wins),
joints that are not named stay zero, and the call only fails when the sizes do not fit. -/
theorem C48_identity_vector (target names : List String) (identity : List K) :
    (names.length * 7 ≠ identity.length → mapIdentityToCharacter target names identity = none) ∧
    (names.length * 7 = identity.length → ∃ r, mapIdentityToCharacter target names identity = some r ∧
      r.length = target.length * 7 ∧
      ∀ k < target.length, ∀ d < 7,
        ((∀ i, ¬ NameHits target names i k) → r[k * 7 + d]? = some 0) ∧
        (∀ i, NameHits target names i k → (∀ i', i < i' → ¬ NameHits target names i' k) →
          r[k * 7 + d]? = identity[i * 7 + d]?)) := by
  refine ⟨fun h => by unfold mapIdentityToCharacter; rw [if_neg h], fun hlen => ?_⟩
  unfold mapIdentityToCharacter
  rw [if_pos hlen]
  have key : ∀ m ≤ names.length, ∃ r, (List.range m).foldlM
      (fun result i => mapIdentityStep target identity result i (names.getD i ""))
      (List.replicate (target.length * 7) (0 : K)) = some r ∧ r.length = target.length * 7 ∧
      ∀ k < target.length, ∀ d < 7,
        ((∀ i < m, ¬ NameHits target names i k) → r[k * 7 + d]? = some 0) ∧
        (∀ i < m, NameHits target names i k → (∀ i', i < i' → i' < m → ¬ NameHits target names i' k) →
          r[k * 7 + d]? = identity[i * 7 + d]?) := by
    intro m hm
    induction m with
    | zero =>
      refine ⟨_, rfl, by simp, fun k hk d hd => ⟨fun _ => ?_, fun i hi => by omega⟩⟩
      rw [List.getElem?_replicate, if_pos (by omega)]
    | succ m ih =>
      obtain ⟨r, h1, h2, h3⟩ := ih (by omega)
      rw [List.range_succ, List.foldlM_append, h1]
      simp only [Option.bind_eq_bind, Option.bind_some, List.foldlM_cons, List.foldlM_nil, Option.pure_def]
      unfold mapIdentityStep
      cases hf : target.findIdx? (fun n => n = names.getD m "") with
      | none =>
        have no : ∀ k, ¬ NameHits target names m k := fun k h => by
          rw [nameHits_iff _ _ _ _ (by omega), hf] at h; simp at h
        refine ⟨r, rfl, h2, fun k hk d hd =>
          ⟨fun h => (h3 k hk d hd).1 fun i hi => h i (by omega), fun i hi hhit hlast => ?_⟩⟩
        rcases Nat.lt_succ_iff_lt_or_eq.mp hi with h | rfl
        · exact (h3 k hk d hd).2 i h hhit fun i' a b => hlast i' a (by omega)
        · exact absurd hhit (no k)
      | some index =>
        have yes := (nameHits_iff target names m index (by omega)).mpr hf
        have uniq : ∀ k, NameHits target names m k → k = index := fun k h => by
          rw [nameHits_iff _ _ _ _ (by omega), hf, Option.some.injEq] at h; exact h.symm
        have hidx : index < target.length := by
          obtain ⟨s, _, h, _⟩ := yes
          exact (List.getElem?_eq_some_iff.mp h).1
        obtain ⟨r', g1, g2, g3, g4⟩ := copyBlock_get r identity (index * 7) (m * 7) (by omega) (by omega)
        simp only [g1, Option.bind_some]
        refine ⟨_, rfl, by omega, fun k hk d hd => ⟨fun h => ?_, fun i hi hhit hlast => ?_⟩⟩
        · have hne : index ≠ k := fun e => h m (by omega) (e ▸ yes)
          rw [g4 _ (by omega)]
          exact (h3 k hk d hd).1 fun i hi => h i (by omega)
        · rcases Nat.lt_succ_iff_lt_or_eq.mp hi with h | rfl
          · have hne : index ≠ k := fun e => hlast m h (by omega) (e ▸ yes)
            rw [g4 _ (by omega)]
            exact (h3 k hk d hd).2 i h hhit fun i' a b => hlast i' a (by omega)
          · rw [uniq k hhit]; exact g3 d hd
  obtain ⟨r, h1, h2, h3⟩ := key names.length le_rfl
  have out : ∀ i k, names.length ≤ i → ¬ NameHits target names i k := by
    rintro i k hi ⟨s, h, _⟩
    rw [List.getElem?_eq_none hi] at h; simp at h
  refine ⟨r, h1, h2, fun k hk d hd => ⟨fun h => (h3 k hk d hd).1 fun i _ => h i, fun i hhit hlast => ?_⟩⟩
  refine (h3 k hk d hd).2 i ?_ hhit fun i' a _ => hlast i' a
  by_contra hc
  exact out i k (by omega) hhit

/-- **C48** identity vectors: unique names give back the vector. -/
theorem C48_identity_identity (names : List String) (hnd : names.Nodup) (identity : List K)
    (hlen : names.length * 7 = identity.length) : mapIdentityToCharacter names names identity = some identity := by
  obtain ⟨r, h1, h2, h3⟩ := (C48_identity_vector names names identity).2 hlen
  rw [h1, Option.some.injEq]
  apply List.ext_getElem?
  intro k
  by_cases hk : k < names.length * 7
  · have := (h3 (k / 7) (by omega) (k % 7) (by omega)).2 (k / 7)
      ((nodup_hits names hnd _ _).mpr ⟨rfl, by omega⟩) fun i' h hh =>
      absurd ((nodup_hits names hnd i' _).mp hh).1 (by omega)
    rwa [show k / 7 * 7 + k % 7 = k by omega] at this
  · rw [List.getElem?_eq_none (by omega), List.getElem?_eq_none (by omega)]

end

example : mapMotionToCharacter ["a", "b", "c"] ["c", "x", "a"] 2 ([[1, 2], [3, 4], [5, 6]] : List (List Int))
    = some [[5, 6], [0, 0], [1, 2]] := by decide
example : mapIdentityToCharacter ["a", "b"] ["b"] ([1, 2, 3, 4, 5, 6, 7] : List Int)
    = some [0, 0, 0, 0, 0, 0, 0, 1, 2, 3, 4, 5, 6, 7] := by decide

/-! ### C49 -/

/-- **C49** degrees and radians are mutually inverse. -/
theorem C49_angle (x : ℝ) : toDeg (toRad x) = x ∧ toRad (toDeg x) = x := by
  unfold toDeg toRad
  have := Real.pi_ne_zero
  constructor <;> field_simp

/-- **C49** a half turn is 180 degrees (fixes the scale). -/
theorem C49_half_turn : toRad 180 = Real.pi ∧ toDeg Real.pi = 180 := by
  unfold toDeg toRad
  have := Real.pi_ne_zero
  constructor <;> field_simp

/-- **C49** metres and centimetres are mutually inverse, and a metre is a hundred centimetres. -/
theorem C49_length (x : ℝ) : toCm (toM x) = x ∧ toM (toCm x) = x ∧ toCm 1 = 100 := by
  unfold toCm toM
  refine ⟨by ring, by ring, by norm_num⟩

/-- Specification: an IEEE single is a NaN when its 8 exponent bits are all ones and its 23 fraction bits are not all zero. -/
def IsSingleNaN (x : BitVec 32) : Prop := (x.toNat / 2 ^ 23) % 2 ^ 8 = 2 ^ 8 - 1 ∧ x.toNat % 2 ^ 23 ≠ 0

/-- **C49** the bit test is true exactly on the NaN patterns. -/
theorem C49_nan (x : BitVec 32) : isNanNoOpt x = true ↔ IsSingleNaN x := by
  unfold isNanNoOpt IsSingleNaN
  have hx := x.isLt
  rw [BitVec.ult_iff_lt, BitVec.lt_def, BitVec.toNat_shiftLeft, Nat.shiftLeft_eq]
  simp only [BitVec.toNat_ofNat]
  omega

example : isNanNoOpt 0x7fc00000#32 = true ∧ isNanNoOpt 0xff800000#32 = false ∧ isNanNoOpt 0x7f800001#32 = true := by decide

end Momentum
