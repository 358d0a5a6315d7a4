import Verif.Lemmas.SkinWeights
import Mathlib.Data.Int.Order.Basic
import Mathlib.Algebra.Order.Ring.Int

/-!
# C20, C47: skin weight tables
-/

namespace Momentum

section
variable {K : Type} [CommRing K] [LinearOrder K]

theorem remapSkinRow_some {n : Nat} {jm : Nat → Option Nat} {row row' : SkinRow K}
    (h : remapSkinRow n jm row = some row') :
    ∃ m : SkinRow K, row' = pairLoop n sortStep (pairLoop n mergeStep m) ∧
      ∀ k < n, jm (row k).1 = some (m k).1 ∧ (m k).2 = (row k).2 := by
  unfold remapSkinRow at h
  simp only [Option.bind_eq_bind, Option.bind_eq_some_iff, Option.some.injEq] at h
  obtain ⟨idx, h1, h2⟩ := h
  refine ⟨fun i => (idx.getD i (row i).1, (row i).2), h2.symm, fun k hk => ⟨?_, rfl⟩⟩
  have h3 := mapM_some_iff.mp h1
  have hl := mapM_length h1
  rw [List.length_range] at hl
  have h4 := congrArg (·[k]?) h3
  simp only [List.getElem?_map, List.getElem?_range hk, Option.map_some] at h4
  rw [List.getElem?_eq_getElem (by omega), Option.map_some, Option.some.injEq] at h4
  simp only [h4, List.getD_eq_getElem _ _ (show k < idx.length by omega)]

/-- **C20** for every vertex and every target joint, the weight on that joint after remapping is the sum of the weights of
the source joints that map to it. -/
theorem C20_influence_conserved (jm : Nat → Option Nat) (row row' : SkinRow K)
    (h : remapSkinRow kMaxSkinJoints jm row = some row') (t : Nat) :
    ∑ k ∈ Finset.range kMaxSkinJoints, (if (row' k).1 = t then (row' k).2 else 0)
      = ∑ k ∈ Finset.range kMaxSkinJoints, (if jm (row k).1 = some t then (row k).2 else 0) := by
  obtain ⟨m, rfl, hm⟩ := remapSkinRow_some h
  have h1 : weightOn kMaxSkinJoints (pairLoop kMaxSkinJoints sortStep (pairLoop kMaxSkinJoints mergeStep m)) t
      = weightOn kMaxSkinJoints m t := by
    apply pairLoop_pres kMaxSkinJoints sortStep (fun r => weightOn kMaxSkinJoints r t = weightOn kMaxSkinJoints m t)
    · intro i j r hij hj hr
      rw [sortStep_weightOn _ _ _ _ _ (by omega) hj (by omega), hr]
    · apply pairLoop_pres kMaxSkinJoints mergeStep (fun r => weightOn kMaxSkinJoints r t = weightOn kMaxSkinJoints m t)
      · intro i j r hij hj hr
        rw [mergeStep_weightOn _ _ _ _ _ (by omega) hj (by omega), hr]
      · rfl
  refine Eq.trans h1 ?_
  unfold weightOn
  apply Finset.sum_congr rfl
  intro k hk
  obtain ⟨a, b⟩ := hm k (Finset.mem_range.mp hk)
  rw [a, b]
  simp only [Option.some.injEq]

/-- **C20** the total weight of a vertex is conserved. -/
theorem C20_total_conserved (jm : Nat → Option Nat) (row row' : SkinRow K)
    (h : remapSkinRow kMaxSkinJoints jm row = some row') :
    ∑ k ∈ Finset.range kMaxSkinJoints, (row' k).2 = ∑ k ∈ Finset.range kMaxSkinJoints, (row k).2 := by
  obtain ⟨m, rfl, hm⟩ := remapSkinRow_some h
  have step : ∀ (s : SkinRow K → Nat → Nat → SkinRow K),
      (∀ r i j, i < j → j < kMaxSkinJoints → ∑ k ∈ Finset.range kMaxSkinJoints, (s r i j k).2
        = ∑ k ∈ Finset.range kMaxSkinJoints, (r k).2) →
      ∀ r, ∑ k ∈ Finset.range kMaxSkinJoints, (pairLoop kMaxSkinJoints s r k).2
        = ∑ k ∈ Finset.range kMaxSkinJoints, (r k).2 := by
    intro s hs r
    exact pairLoop_pres kMaxSkinJoints s (fun r' => ∑ k ∈ Finset.range kMaxSkinJoints, (r' k).2
      = ∑ k ∈ Finset.range kMaxSkinJoints, (r k).2) (fun i j r' hij hj h => by rw [hs r' i j hij hj, h]) r rfl
  have upd : ∀ (r r' : SkinRow K) (i j : Nat), i < j → j < kMaxSkinJoints →
      (∀ k, k ≠ i → k ≠ j → r' k = r k) → (r' i).2 + (r' j).2 = (r i).2 + (r j).2 →
      ∑ k ∈ Finset.range kMaxSkinJoints, (r' k).2 = ∑ k ∈ Finset.range kMaxSkinJoints, (r k).2 := by
    intro r r' i j hij hj ho he
    rw [← Finset.add_sum_erase _ _ (Finset.mem_range.mpr (hij.trans hj)),
      ← Finset.add_sum_erase _ _ (Finset.mem_erase.mpr ⟨by omega, Finset.mem_range.mpr hj⟩)]
    conv_rhs => rw [← Finset.add_sum_erase _ _ (Finset.mem_range.mpr (hij.trans hj)),
      ← Finset.add_sum_erase _ _ (Finset.mem_erase.mpr ⟨by omega, Finset.mem_range.mpr hj⟩)]
    rw [← add_assoc, ← add_assoc, he]
    congr 1
    apply Finset.sum_congr rfl
    intro k hk
    have hk1 := (Finset.mem_erase.mp hk).1
    have hk2 := (Finset.mem_erase.mp (Finset.mem_erase.mp hk).2).1
    rw [ho k hk2 hk1]
  rw [step sortStep, step mergeStep]
  · exact Finset.sum_congr rfl fun k hk => (hm k (Finset.mem_range.mp hk)).2
  · intro r i j hij hj
    unfold mergeStep
    split
    · apply upd r _ i j hij hj
      · intro k h1 h2; rw [Function.update_of_ne h2, Function.update_of_ne h1]
      · rw [Function.update_self, Function.update_of_ne (by omega), Function.update_self]; ring
    · rfl
  · intro r i j hij hj
    unfold sortStep
    split
    · apply upd r _ i j hij hj
      · intro k h1 h2; rw [Function.update_of_ne h2, Function.update_of_ne h1]
      · rw [Function.update_self, Function.update_of_ne (by omega), Function.update_self]; ring
    · rfl

/-- **C20** weights end in decreasing order. -/
theorem C20_sorted (jm : Nat → Option Nat) (row row' : SkinRow K)
    (h : remapSkinRow kMaxSkinJoints jm row = some row') (a b : Nat) (hab : a < b) (hb : b < kMaxSkinJoints) :
    (row' b).2 ≤ (row' a).2 := by
  obtain ⟨m, rfl, _⟩ := remapSkinRow_some h
  exact pairLoop_sorted _ _ a b hab hb

/-- **C20** each joint carries weight in at most one slot afterwards. -/
theorem C20_no_duplicates (jm : Nat → Option Nat) (row row' : SkinRow K)
    (h : remapSkinRow kMaxSkinJoints jm row = some row') (a b : Nat) (hab : a ≠ b) (ha : a < kMaxSkinJoints)
    (hb : b < kMaxSkinJoints) (heq : (row' a).1 = (row' b).1) : (row' a).2 = 0 ∨ (row' b).2 = 0 := by
  obtain ⟨m, rfl, _⟩ := remapSkinRow_some h
  refine pairLoop_sort_unique _ _ ?_ a b hab ha hb heq
  intro a b hab ha hb heq
  rcases lt_or_gt_of_ne hab with h | h
  · right; exact pairLoop_merge _ _ a b h hb heq
  · left; exact pairLoop_merge _ _ b a h ha heq.symm

/-- **C20** remapping is defined whenever all joints are mapped. -/
theorem C20_defined (jm : Nat → Option Nat) (row : SkinRow K) (h : ∀ k < kMaxSkinJoints, ∃ t, jm (row k).1 = some t) :
    ∃ row', remapSkinRow kMaxSkinJoints jm row = some row' := by
  unfold remapSkinRow
  have : ∃ idx, (List.range kMaxSkinJoints).mapM (fun i => jm (row i).1) = some idx := by
    refine ⟨_, mapM_of_forall (g := fun i => (jm (row i).1).getD 0) ?_⟩
    intro a ha
    obtain ⟨t, ht⟩ := h a (List.mem_range.mp ha)
    rw [ht]; rfl
  obtain ⟨idx, hi⟩ := this
  rw [hi]
  exact ⟨_, rfl⟩

end

/-- Joints 0..7 with weights 1,2,3,4,0,0,0,0, odd joints mapping to 1 and even ones to 0. -/
example : ((remapSkinRow kMaxSkinJoints (fun i => some (i % 2)) (fun k => (k, if k < 4 then (k : Int) + 1 else 0))).map
    fun r => (List.range 3).map r) = some [(1, 6), (0, 4), (0, 0)] := by
  simp [remapSkinRow, pairLoop, mergeStep, sortStep, kMaxSkinJoints, List.range_succ, Function.update]

/-! ### C47 -/

section
variable {K : Type} [Zero K]

/-- The first eight entries, padded with `z` to length eight. -/
def firstEight {α : Type} (z : α) (l : List α) : List α := l.take 8 ++ List.replicate (8 - l.length) z

theorem writeEntry_ok {α : Type} {m : List (List α)} {i j : Nat} {row : List α} (x : α) (h : m[i]? = some row)
    (hj : j < row.length) : writeEntry m i j x = .ok (m.set i (row.set j x)) := by
  unfold writeEntry; rw [h]; simp [hj]

/-- Writing the first `m` entries of a row one by one. -/
def padded {α : Type} (z : α) (l : List α) (m : Nat) : List α := l.take m ++ List.replicate (8 - m) z

theorem padded_set {α : Type} (z : α) (l : List α) (m : Nat) (hm : m < 8) (x : α) (hx : l[m]? = some x) :
    (padded z l m).set m x = padded z l (m + 1) := by
  have hl : m < l.length := (List.getElem?_eq_some_iff.mp hx).1
  unfold padded
  have ht : (l.take m).length = m := by rw [List.length_take]; omega
  rw [List.set_append_right _ _ (by omega), ht, Nat.sub_self]
  rw [show 8 - m = (8 - (m + 1)) + 1 by omega, List.replicate_succ, List.set_cons_zero, List.take_add_one, hx]
  simp

/-- **C47** for influence lists of matching sizes, each row of the tables holds the first eight influences in order, padded
with zeros (joint numbers are stored modulo 2^32). -/
theorem C47_set (ind : List (List Nat)) (wgt : List (List K)) (hlen : ind.length = wgt.length)
    (hrow : ∀ i, (ind.getD i []).length ≤ (wgt.getD i []).length ∨ 8 ≤ (wgt.getD i []).length) :
    ∃ sw, SkinWeights.set ind wgt = .ok sw ∧ sw.index.length = ind.length ∧ sw.weight.length = ind.length ∧
      ∀ i < ind.length, sw.index[i]? = some (firstEight 0 ((ind.getD i []).map (· % 2 ^ 32))) ∧
        sw.weight[i]? = some (firstEight 0 ((wgt.getD i []).take (ind.getD i []).length)) := by
  unfold SkinWeights.set
  rw [if_pos hlen]
  simp only
  -- invariant over rows
  have rowInv : ∀ m ≤ ind.length, ∃ sw : SkinWeights K,
      (List.range m).foldl (fun acc i =>
        (List.range (min (ind.getD i []).length kMaxSkinJoints)).foldl (fun acc j =>
          acc.bind fun st => setEntry ind wgt st i j) acc)
        (Outcome.ok ⟨List.replicate ind.length (List.replicate kMaxSkinJoints 0),
          List.replicate ind.length (List.replicate kMaxSkinJoints 0)⟩) = .ok sw ∧
      sw.index.length = ind.length ∧ sw.weight.length = ind.length ∧
      (∀ i < m, sw.index[i]? = some (firstEight 0 ((ind.getD i []).map (· % 2 ^ 32))) ∧
        sw.weight[i]? = some (firstEight 0 ((wgt.getD i []).take (ind.getD i []).length))) ∧
      (∀ i, m ≤ i → i < ind.length → sw.index[i]? = some (List.replicate 8 0) ∧
        sw.weight[i]? = some (List.replicate 8 0)) := by
    intro m hm
    induction m with
    | zero =>
      refine ⟨_, rfl, by simp, by simp, by simp, fun i _ hi => ?_⟩
      simp [hi, kMaxSkinJoints]
    | succ m ih =>
      obtain ⟨sw, h1, h2, h3, h4, h5⟩ := ih (by omega)
      rw [List.range_succ, List.foldl_append, List.foldl_cons, List.foldl_nil, h1]
      obtain ⟨z1, z2⟩ := h5 m le_rfl (by omega)
      have hind : ind[m]? = some (ind.getD m []) := by
        rw [List.getElem?_eq_getElem (by omega), List.getD_eq_getElem _ _ (by omega)]
      have hwgt : wgt[m]? = some (wgt.getD m []) := by
        rw [List.getElem?_eq_getElem (by omega), List.getD_eq_getElem _ _ (by omega)]
      have colInv : ∀ c ≤ min (ind.getD m []).length kMaxSkinJoints,
          (List.range c).foldl (fun acc j => acc.bind fun st => setEntry ind wgt st m j) (Outcome.ok sw)
            = .ok ⟨sw.index.set m (padded 0 ((ind.getD m []).map (· % 2 ^ 32)) c),
                sw.weight.set m (padded 0 (wgt.getD m []) c)⟩ := by
        intro c hc
        induction c with
        | zero =>
          simp only [List.range_zero, List.foldl_nil, padded, List.take_zero, List.nil_append, Nat.sub_zero]
          have e1 : sw.index.set m (List.replicate 8 0) = sw.index := by
            apply List.ext_getElem?
            intro i
            by_cases h : m = i
            · subst h; rw [List.getElem?_set_self (by omega), z1]
            · rw [List.getElem?_set_ne h]
          have e2 : sw.weight.set m (List.replicate 8 0) = sw.weight := by
            apply List.ext_getElem?
            intro i
            by_cases h : m = i
            · subst h; rw [List.getElem?_set_self (by omega), z2]
            · rw [List.getElem?_set_ne h]
          rw [e1, e2]
        | succ c ihc =>
          have hc8 : c < 8 := by unfold kMaxSkinJoints at hc; omega
          have hci : c < (ind.getD m []).length := by omega
          have hcw : c < (wgt.getD m []).length := by rcases hrow m with h | h <;> omega
          rw [List.range_succ, List.foldl_append, List.foldl_cons, List.foldl_nil, ihc (by omega)]
          simp only [Outcome.bind]
          unfold setEntry
          rw [hind, hwgt]
          simp only [Option.bind_some]
          rw [List.getElem?_eq_getElem hci, List.getElem?_eq_getElem hcw]
          simp only
          rw [writeEntry_ok (row := padded 0 ((ind.getD m []).map (· % 2 ^ 32)) c) _
              (List.getElem?_set_self (by omega)) (by unfold padded; simp only [List.length_append, List.length_replicate, List.length_take, List.length_map]; omega),
            writeEntry_ok (row := padded 0 (wgt.getD m []) c) _
              (List.getElem?_set_self (by omega)) (by unfold padded; simp only [List.length_append, List.length_replicate, List.length_take, List.length_map]; omega)]
          simp only [Outcome.bind, List.set_set]
          rw [padded_set _ _ _ hc8 _ (by rw [List.getElem?_map, List.getElem?_eq_getElem hci]; rfl),
            padded_set _ _ _ hc8 _ (List.getElem?_eq_getElem hcw)]
      rw [colInv _ le_rfl]
      refine ⟨_, rfl, by simpa using h2, by simpa using h3, ?_, ?_⟩
      · intro i hi
        rcases Nat.lt_succ_iff_lt_or_eq.mp hi with h | rfl
        · simp only
          rw [List.getElem?_set_ne (by omega), List.getElem?_set_ne (by omega)]
          exact h4 i h
        · simp only
          rw [List.getElem?_set_self (by omega), List.getElem?_set_self (by omega)]
          unfold padded firstEight kMaxSkinJoints
          rw [List.length_map]
          constructor
          · rcases le_total (ind.getD i []).length 8 with h | h
            · rw [min_eq_left h, List.take_of_length_le (by simp), List.take_of_length_le (by simpa using h)]
            · rw [min_eq_right h]
              rw [Nat.sub_eq_zero_of_le h]
          · rw [List.length_take]
            rcases le_total (ind.getD i []).length 8 with h | h
            · have hle : (ind.getD i []).length ≤ (wgt.getD i []).length := by
                rcases hrow i with h' | h' <;> omega
              rw [min_eq_left h, min_eq_left hle, List.take_take, min_eq_right h]
            · have hle : 8 ≤ (wgt.getD i []).length := by rcases hrow i with h' | h' <;> omega
              rw [min_eq_right h, List.take_take, min_eq_left h,
                show 8 - min (ind.getD i []).length (wgt.getD i []).length = 8 - 8 by omega]
      · intro i hi hi2
        simp only
        rw [List.getElem?_set_ne (by omega), List.getElem?_set_ne (by omega)]
        exact h5 i (by omega) hi2
  obtain ⟨sw, h1, h2, h3, h4, _⟩ := rowInv ind.length le_rfl
  exact ⟨sw, h1, h2, h3, h4⟩

/-- **C47** tables with different numbers of vertices are rejected. -/
theorem C47_size_error (ind : List (List Nat)) (wgt : List (List K)) (h : ind.length ≠ wgt.length) :
    SkinWeights.set ind wgt = .throws := by
  unfold SkinWeights.set; rw [if_neg h]

/-- **C47** finding: if a vertex has fewer weights than joints the code reads past the end of the weight list. -/
theorem C47_short_weights_counterexample : SkinWeights.set [[1, 2]] ([[5]] : List (List Int)) = .ub := by decide

example : SkinWeights.set [[1, 2], [1, 2, 3, 4, 5, 6, 7, 8, 9]] ([[5, 6], [1, 1, 1, 1, 1, 1, 1, 1, 1]] : List (List Int))
    = .ok ⟨[[1, 2, 0, 0, 0, 0, 0, 0], [1, 2, 3, 4, 5, 6, 7, 8]], [[5, 6, 0, 0, 0, 0, 0, 0], [1, 1, 1, 1, 1, 1, 1, 1]]⟩ := by
  decide

end
end Momentum
