import Verif.Lemmas.KdTree

/-!
# The queries, on the tree behind the node vector
-/

namespace Momentum

section
variable {K : Type} [Field K] [LinearOrder K] [IsStrictOrderedRing K] {n P : Nat}

theorem kdSqDist_coord (p q : Fin n → K) (d : Fin n) : (p d - q d) * (p d - q d) ≤ kdSqDist p q :=
  Finset.single_le_sum (f := fun d => (p d - q d) * (p d - q d)) (fun i _ => mul_self_nonneg _) (Finset.mem_univ d)

theorem extDist_le (b : KdBox K n) (p q : Fin n → K) (h : ∀ d, b.min d ≤ p d ∧ p d ≤ b.max d) :
    b.extDist q ≤ kdSqDist p q := by
  unfold KdBox.extDist kdSqDist
  refine Finset.sum_le_sum fun d _ => ?_
  obtain ⟨h1, h2⟩ := h d
  split_ifs with h3 h4
  · nlinarith
  · nlinarith
  · exact mul_self_nonneg _

/-! ### Blocks -/

theorem kdLeafBlocks_spec (t : KdTree K n P) (nd : KdNode K n) (bs : List (KdBlock K n P)) (h0 : bs ≠ [])
    (h : nd.right = nd.left + bs.length) (hb : ∀ (k : Nat) b, bs[k]? = some b → t.blocks[nd.left + k]? = some b) :
    kdLeafBlocks t nd = .ok bs := by
  have hl : 0 < bs.length := List.length_pos_iff.2 h0
  unfold kdLeafBlocks
  rw [if_pos (by omega), h, Nat.add_sub_cancel_left]
  have key : ∀ m, m ≤ bs.length → (List.range m).foldl
      (fun (acc : Outcome (List (KdBlock K n P))) k => acc.bind fun l => (readAt t.blocks (nd.left + k)).bind fun b => .ok (l ++ [b]))
      (.ok []) = .ok (bs.take m) := by
    intro m
    induction m with
    | zero => intro _; rfl
    | succ m ih =>
      intro hm
      rw [List.range_succ, List.foldl_append, ih (by omega)]
      have e : bs[m]? = some bs[m] := List.getElem?_eq_getElem (by omega)
      simp only [List.foldl_cons, List.foldl_nil, Outcome.bind, readAt, hb m _ e]
      rw [List.take_succ_eq_append_getElem (by omega)]
  rw [key _ le_rfl, List.take_length]

/-- All lanes of a list of blocks. -/
def blockLanes (bs : List (KdBlock K n P)) : List (KdLane K n) := bs.flatMap fun b => (List.finRange P).map b

theorem mem_blockLanes {bs : List (KdBlock K n P)} {x : KdLane K n} :
    x ∈ blockLanes bs ↔ ∃ b ∈ bs, ∃ k, b k = x := by
  simp [blockLanes, List.mem_flatMap]

theorem blocks_fold (q : Fin n → K) (mask : KdLane K n → Bool) : ∀ (bs : List (KdBlock K n P)) (acc : Fin P → KdBest K)
    (k : Fin P), ((bs.foldl (kdBlockStep q mask) acc) k).2 ≤ (acc k).2 ∧
      (∀ b ∈ bs, mask (b k) = true → ((bs.foldl (kdBlockStep q mask) acc) k).2 ≤ kdSqDist (b k).point q) ∧
      ((bs.foldl (kdBlockStep q mask) acc) k = acc k ∨ ∃ b ∈ bs, mask (b k) = true ∧
        (bs.foldl (kdBlockStep q mask) acc) k = ((b k).index, kdSqDist (b k).point q) ∧
        kdSqDist (b k).point q < (acc k).2)
  | [], acc, k => by simp
  | b :: bs, acc, k => by
    obtain ⟨i1, i2, i3⟩ := blocks_fold q mask bs (kdBlockStep q mask acc b) k
    rw [List.foldl_cons]
    have hstep : (kdBlockStep q mask acc b k).2 ≤ (acc k).2 ∧
        (mask (b k) = true → (kdBlockStep q mask acc b k).2 ≤ kdSqDist (b k).point q) ∧
        (kdBlockStep q mask acc b k = acc k ∨ mask (b k) = true ∧
          kdBlockStep q mask acc b k = ((b k).index, kdSqDist (b k).point q) ∧ kdSqDist (b k).point q < (acc k).2) := by
      unfold kdBlockStep
      split_ifs with h
      · exact ⟨h.1.le, fun _ => le_rfl, Or.inr ⟨h.2, rfl, h.1⟩⟩
      · refine ⟨le_rfl, fun hm => ?_, Or.inl rfl⟩
        by_contra hh
        exact h ⟨not_le.1 hh, hm⟩
    refine ⟨i1.trans hstep.1, ?_, ?_⟩
    · intro b' hb' hm
      rcases List.mem_cons.1 hb' with rfl | hb'
      · exact i1.trans (hstep.2.1 hm)
      · exact i2 b' hb' hm
    · rcases i3 with i3 | ⟨b', hb', hm, e, hlt⟩
      · rw [i3]
        rcases hstep.2.2 with h | ⟨h1, h2, h3⟩
        · exact Or.inl h
        · exact Or.inr ⟨b, List.mem_cons_self, h1, h2, h3⟩
      · exact Or.inr ⟨b', List.mem_cons_of_mem _ hb', hm, e, lt_of_lt_of_le hlt hstep.1⟩

/-- One lane of the horizontal search. -/
def laneStep (skip : Bool) (lanes : Fin P → KdBest K) (k : Fin P) (s : KdBest K) : Outcome (KdBest K) :=
  if skip = true ∧ (lanes k).1 = none then .ok s
  else if (lanes k).2 < s.2 then
    match (lanes k).1 with
    | none => .throws
    | some i => .ok (some i, (lanes k).2)
  else .ok s

theorem laneStep_spec (skip : Bool) (lanes : Fin P → KdBest K) (k : Fin P) (s : KdBest K)
    (h : (lanes k).1 = none → skip = true ∨ s.2 ≤ (lanes k).2) :
    ∃ s', laneStep skip lanes k s = .ok s' ∧ s'.2 ≤ s.2 ∧
      (s'.2 ≤ (lanes k).2 ∨ (skip = true ∧ (lanes k).1 = none)) ∧
      (s' = s ∨ s' = lanes k ∧ (lanes k).1 ≠ none ∧ (lanes k).2 < s.2) := by
  unfold laneStep
  split_ifs with h1 h2
  · exact ⟨s, rfl, le_rfl, Or.inr h1, Or.inl rfl⟩
  · cases hi : (lanes k).1 with
    | none =>
      exfalso
      rcases h hi with h3 | h3
      · exact h1 ⟨h3, hi⟩
      · exact absurd h2 (not_lt.2 h3)
    | some i =>
      refine ⟨_, rfl, h2.le, Or.inl le_rfl, Or.inr ⟨?_, by simp, h2⟩⟩
      rw [← hi]
  · exact ⟨s, rfl, le_rfl, Or.inl (not_lt.1 h2), Or.inl rfl⟩

theorem lanes_fold (skip : Bool) (lanes : Fin P → KdBest K) : ∀ (L : List (Fin P)) (s : KdBest K),
    (∀ k ∈ L, (lanes k).1 = none → skip = true ∨ s.2 ≤ (lanes k).2) →
    ∃ s', L.foldl (fun (acc : Outcome (KdBest K)) k => acc.bind (laneStep skip lanes k)) (.ok s) = .ok s' ∧ s'.2 ≤ s.2 ∧
      (∀ k ∈ L, s'.2 ≤ (lanes k).2 ∨ (skip = true ∧ (lanes k).1 = none)) ∧
      (s' = s ∨ ∃ k, s' = lanes k ∧ (lanes k).1 ≠ none ∧ (lanes k).2 < s.2)
  | [], s, _ => ⟨s, rfl, le_rfl, by simp, Or.inl rfl⟩
  | k :: L, s, h => by
    obtain ⟨s1, e1, a1, a2, a3⟩ := laneStep_spec skip lanes k s (h k List.mem_cons_self)
    obtain ⟨s2, e2, b1, b2, b3⟩ := lanes_fold skip lanes L s1
      (fun k' hk' hn => (h k' (List.mem_cons_of_mem _ hk') hn).imp id fun h => a1.trans h)
    refine ⟨s2, ?_, b1.trans a1, ?_, ?_⟩
    · rw [List.foldl_cons, Outcome.bind, e1]; exact e2
    · intro k' hk'
      rcases List.mem_cons.1 hk' with rfl | hk'
      · exact a2.imp (fun h => b1.trans h) id
      · exact b2 k' hk'
    · rcases b3 with rfl | ⟨k', c1, c2, c3⟩
      · rcases a3 with rfl | ⟨c1, c2, c3⟩
        · exact Or.inl rfl
        · exact Or.inr ⟨k, c1, c2, c3⟩
      · exact Or.inr ⟨k', c1, c2, lt_of_lt_of_le c3 a1⟩

theorem kdLanes_eq (skip : Bool) (lanes : Fin P → KdBest K) (s : KdBest K) :
    kdLanes skip lanes s = (List.finRange P).foldl (fun (acc : Outcome (KdBest K)) k => acc.bind (laneStep skip lanes k)) (.ok s) :=
  rfl

/-- When padding lanes do no harm. -/
def PadsHarmless (far : K) (q : Fin n → K) (mask : KdLane K n → Bool) (skip : Bool) (maxSqrDist : K)
    (lane : KdPoint K n → KdLane K n) (pts : List (KdPoint K n)) : Prop :=
  mask (kdPad far) = false ∨ maxSqrDist ≤ kdSqDist (fun _ => far) q ∨
    ((∀ p ∈ pts, mask (lane p) = true → kdSqDist p.2 q < kdSqDist (fun _ => far) q) ∧
      (skip = true ∨ ∀ p ∈ pts, mask (lane p) = true))

/-- The new best after the acceptable points of `pts`. -/
def Improves (q : Fin n → K) (ok : KdPoint K n → Prop) (pts : List (KdPoint K n)) (s s' : KdBest K) : Prop :=
  s'.2 ≤ s.2 ∧ (∀ p ∈ pts, ok p → s'.2 ≤ kdSqDist p.2 q) ∧
    (s' = s ∨ ∃ p ∈ pts, ok p ∧ s' = (some p.1, kdSqDist p.2 q) ∧ kdSqDist p.2 q < s.2)

theorem leaf_closest (hP : 0 < P) (far : K) (normals : List (Fin n → K)) (colors : List (Fin 4 → K)) (q : Fin n → K)
    (mask : KdLane K n → Bool) (skip : Bool) (maxSqrDist : K) (pts : List (KdPoint K n)) (h0 : pts ≠ [])
    (hpad : PadsHarmless far q mask skip maxSqrDist (kdPointLane normals colors) pts) (s : KdBest K) (hs : s.2 ≤ maxSqrDist) :
    ∃ s', kdLanes skip ((kdBlocks P far normals colors pts).foldl (kdBlockStep q mask) fun _ => (none, s.2)) s = .ok s' ∧
      Improves q (fun p => mask (kdPointLane normals colors p) = true) pts s s' := by
  obtain ⟨m, hflat⟩ := kdBlocks_flat hP far normals colors pts
  have hmem : ∀ b ∈ kdBlocks P far normals colors pts, ∀ k,
      (∃ p ∈ pts, b k = kdPointLane normals colors p) ∨ b k = kdPad far := by
    intro b hb k
    have : b k ∈ blockLanes (kdBlocks P far normals colors pts) := mem_blockLanes.2 ⟨b, hb, k, rfl⟩
    rw [blockLanes, hflat, List.mem_append, List.mem_map, List.mem_replicate] at this
    rcases this with ⟨p, hp, e⟩ | ⟨-, e⟩
    · exact Or.inl ⟨p, hp, e.symm⟩
    · exact Or.inr e
  have hall : ∀ p ∈ pts, ∃ b ∈ kdBlocks P far normals colors pts, ∃ k, b k = kdPointLane normals colors p := by
    intro p hp
    apply mem_blockLanes.1
    rw [blockLanes, hflat, List.mem_append]
    exact Or.inl (List.mem_map_of_mem hp)
  generalize hlan : ((kdBlocks P far normals colors pts).foldl (kdBlockStep q mask) fun _ => (none, s.2)) = lanes
  have hspec : ∀ k, (lanes k).2 ≤ s.2 ∧
      (∀ b ∈ kdBlocks P far normals colors pts, mask (b k) = true → (lanes k).2 ≤ kdSqDist (b k).point q) ∧
      (lanes k = (none, s.2) ∨
        (∃ p ∈ pts, mask (kdPointLane normals colors p) = true ∧ lanes k = (some p.1, kdSqDist p.2 q) ∧ kdSqDist p.2 q < s.2) ∨
        (lanes k = (none, kdSqDist (fun _ => far) q) ∧ mask (kdPad far) = true ∧ kdSqDist (fun _ => far) q < s.2)) := by
    intro k
    have := blocks_fold q mask (kdBlocks P far normals colors pts) (fun _ => (none, s.2)) k
    rw [hlan] at this
    refine ⟨this.1, this.2.1, ?_⟩
    rcases this.2.2 with h | ⟨b, hb, hm, e, hlt⟩
    · exact Or.inl h
    · rcases hmem b hb k with ⟨p, hp, ep⟩ | ep
      · rw [ep] at hm e hlt
        exact Or.inr (Or.inl ⟨p, hp, hm, e, hlt⟩)
      · rw [ep] at hm e hlt
        exact Or.inr (Or.inr ⟨e, hm, hlt⟩)
  -- from the lanes to the points
  have finish : ∀ s' : KdBest K, (∀ k, s'.2 ≤ (lanes k).2 ∨ (skip = true ∧ (lanes k).1 = none)) → s'.2 ≤ s.2 →
      ∀ p ∈ pts, mask (kdPointLane normals colors p) = true → s'.2 ≤ kdSqDist p.2 q := by
    intro s' h1 h2 p hp hm
    obtain ⟨b, hb, k, ek⟩ := hall p hp
    obtain ⟨g1, g2, g3⟩ := hspec k
    have hk := g2 b hb (by rw [ek]; exact hm)
    rw [ek] at hk
    have hk' : (lanes k).2 ≤ kdSqDist p.2 q := hk
    rcases h1 k with h | ⟨hsk, hn⟩
    · exact h.trans hk'
    · rcases g3 with e | ⟨p', -, -, e, -⟩ | ⟨e, hmp, hlt⟩
      · rw [e] at hk'; exact h2.trans hk'
      · rw [e] at hn; simp at hn
      · exfalso
        rw [e] at hk'
        rcases hpad with h | h | ⟨h, -⟩
        · rw [hmp] at h; simp at h
        · exact absurd hlt (not_lt.2 (hs.trans h))
        · exact absurd (h p hp hm) (not_lt.2 hk')
  have finish2 : ∀ s' : KdBest K, (s' = s ∨ ∃ k, s' = lanes k ∧ (lanes k).1 ≠ none ∧ (lanes k).2 < s.2) →
      (s' = s ∨ ∃ p ∈ pts, mask (kdPointLane normals colors p) = true ∧ s' = (some p.1, kdSqDist p.2 q) ∧ kdSqDist p.2 q < s.2) := by
    rintro s' (h | ⟨k, e, hn, hlt⟩)
    · exact Or.inl h
    · rcases (hspec k).2.2 with e' | ⟨p, hp, hm, e', hl⟩ | ⟨e', -, -⟩
      · rw [e'] at hn; simp at hn
      · exact Or.inr ⟨p, hp, hm, e.trans e', hl⟩
      · rw [e'] at hn; simp at hn
  rw [kdLanes_eq]
  by_cases hgood : ∀ k ∈ List.finRange P, (lanes k).1 = none → skip = true ∨ s.2 ≤ (lanes k).2
  · obtain ⟨s', e, a1, a2, a3⟩ := lanes_fold skip lanes (List.finRange P) s hgood
    exact ⟨s', e, a1, finish s' (fun k => a2 k (List.mem_finRange k)) a1, finish2 s' a3⟩
  · -- only possible when every point is acceptable and closer than the padding
    push Not at hgood
    obtain ⟨k0, -, hn0, hsk, hlt0⟩ := hgood
    have hk0 : lanes k0 = (none, kdSqDist (fun _ => far) q) ∧ mask (kdPad far) = true ∧ kdSqDist (fun _ => far) q < s.2 := by
      rcases (hspec k0).2.2 with e | ⟨p, -, -, e, -⟩ | e
      · rw [e] at hlt0; exact absurd hlt0 (lt_irrefl _)
      · rw [e] at hn0; simp at hn0
      · exact e
    have hp3 : (∀ p ∈ pts, mask (kdPointLane normals colors p) = true → kdSqDist p.2 q < kdSqDist (fun _ => far) q) ∧
        ∀ p ∈ pts, mask (kdPointLane normals colors p) = true := by
      rcases hpad with h | h | ⟨h, h'⟩
      · rw [hk0.2.1] at h; simp at h
      · exact absurd hk0.2.2 (not_lt.2 (hs.trans h))
      · exact ⟨h, h'.resolve_left (by simpa using hsk)⟩
    obtain ⟨P', rfl⟩ : ∃ P', P = P' + 1 := ⟨P - 1, by omega⟩
    -- lane 0 of the first block is a point
    obtain ⟨p0, ps, rfl⟩ : ∃ p0 ps, pts = p0 :: ps := by
      cases pts with
      | nil => exact absurd rfl h0
      | cons a b => exact ⟨a, b, rfl⟩
    have hlane0 : (lanes 0).2 < kdSqDist (fun _ => far) q := by
      have hb : (fun k : Fin (P' + 1) => kdLane far normals colors (p0 :: ps) (0 * (P' + 1) + (k : Nat))) ∈
          kdBlocks (P' + 1) far normals colors (p0 :: ps) := by
        unfold kdBlocks
        exact List.mem_map.2 ⟨0, List.mem_range.2 (kdNumBlocks_pos hP (by simp)), rfl⟩
      have e0 : kdLane far normals colors (p0 :: ps) (0 * (P' + 1) + ((0 : Fin (P' + 1)) : Nat)) =
          kdPointLane normals colors p0 := by
        simp [kdLane, kdPointLane]
      have := (hspec 0).2.1 _ hb (by rw [e0]; exact hp3.2 p0 List.mem_cons_self)
      rw [e0] at this
      exact lt_of_le_of_lt this (hp3.1 p0 List.mem_cons_self (hp3.2 p0 List.mem_cons_self))
    rw [List.finRange_succ, List.foldl_cons]
    obtain ⟨s1, e1, a1, a2, a3⟩ := laneStep_spec skip lanes 0 s (fun hn => by
      rcases (hspec 0).2.2 with e | ⟨p, -, -, e, -⟩ | ⟨e, -, -⟩
      · rw [e]; exact Or.inr le_rfl
      · rw [e] at hn; simp at hn
      · rw [e] at hlane0; exact absurd hlane0 (lt_irrefl _))
    have hs1 : s1.2 ≤ (lanes 0).2 := a2.resolve_right (fun h => absurd h.1 (by simpa using hsk))
    obtain ⟨s2, e2, b1, b2, b3⟩ := lanes_fold skip lanes ((List.finRange P').map Fin.succ) s1 (fun k hk hn => by
      right
      rcases (hspec k).2.2 with e | ⟨p, -, -, e, -⟩ | ⟨e, -, -⟩
      · rw [e]; exact a1
      · rw [e] at hn; simp at hn
      · rw [e]; exact (hs1.trans hlane0.le))
    have hb : ∀ k, s2.2 ≤ (lanes k).2 ∨ (skip = true ∧ (lanes k).1 = none) := by
      intro k
      refine Fin.cases (Or.inl (b1.trans hs1)) (fun j => ?_) k
      exact b2 _ (List.mem_map_of_mem (List.mem_finRange j))
    refine ⟨s2, ?_, b1.trans a1, finish s2 hb (b1.trans a1), finish2 s2 ?_⟩
    · rw [Outcome.bind, e1]; exact e2
    · rcases b3 with rfl | ⟨k', c1, c2, c3⟩
      · rcases a3 with rfl | ⟨c1, c2, c3⟩
        · exact Or.inl rfl
        · exact Or.inr ⟨0, c1, c2, c3⟩
      · exact Or.inr ⟨k', c1, c2, lt_of_lt_of_le c3 a1⟩

/-! ### The tree -/

theorem Improves.skipped {q : Fin n → K} {ok : KdPoint K n → Prop} {pts : List (KdPoint K n)} {s : KdBest K}
    (h : ∀ p ∈ pts, s.2 ≤ kdSqDist p.2 q) : Improves q ok pts s s :=
  ⟨le_rfl, fun p hp _ => h p hp, Or.inl rfl⟩

theorem Improves.append {q : Fin n → K} {ok : KdPoint K n → Prop} {l r : List (KdPoint K n)} {s s1 s2 : KdBest K}
    (h1 : Improves q ok l s s1) (h2 : Improves q ok r s1 s2) : Improves q ok (l ++ r) s s2 := by
  obtain ⟨a1, a2, a3⟩ := h1
  obtain ⟨b1, b2, b3⟩ := h2
  refine ⟨b1.trans a1, fun p hp hm => ?_, ?_⟩
  · rcases List.mem_append.1 hp with hp | hp
    · exact b1.trans (a2 p hp hm)
    · exact b2 p hp hm
  · rcases b3 with rfl | ⟨p, hp, c1, c2, c3⟩
    · rcases a3 with rfl | ⟨p, hp, c1, c2, c3⟩
      · exact Or.inl rfl
      · exact Or.inr ⟨p, List.mem_append_left _ hp, c1, c2, c3⟩
    · exact Or.inr ⟨p, List.mem_append_right _ hp, c1, c2, lt_of_lt_of_le c3 a1⟩

theorem Improves.perm {q : Fin n → K} {ok : KdPoint K n → Prop} {l r : List (KdPoint K n)} {s s' : KdBest K}
    (h : Improves q ok l s s') (hp : l.Perm r) : Improves q ok r s s' := by
  obtain ⟨a1, a2, a3⟩ := h
  refine ⟨a1, fun p h => a2 p (hp.mem_iff.2 h), a3.imp id ?_⟩
  rintro ⟨p, h, h'⟩
  exact ⟨p, hp.mem_iff.1 h, h'⟩

theorem kdLoop_cons {σ : Type} {step : Nat → List Nat → σ → Outcome (List Nat × σ)} {i : Nat} {rest : List Nat} {s : σ}
    {r : List Nat × σ} (h : step i rest s = .ok r) : kdLoop step (i :: rest) s = kdLoop step r.1 r.2 := by
  rw [kdLoop, h]

theorem PadsHarmless.sub {far : K} {q : Fin n → K} {mask : KdLane K n → Bool} {skip : Bool} {m : K}
    {lane : KdPoint K n → KdLane K n} {l r : List (KdPoint K n)} (h : PadsHarmless far q mask skip m lane r)
    (hs : ∀ p ∈ l, p ∈ r) : PadsHarmless far q mask skip m lane l := by
  rcases h with h | h | ⟨h1, h2⟩
  · exact Or.inl h
  · exact Or.inr (Or.inl h)
  · exact Or.inr (Or.inr ⟨fun p hp => h1 p (hs p hp), h2.imp id fun h p hp => h p (hs p hp)⟩)

theorem tree_closest (hP : 0 < P) (far : K) (normals : List (Fin n → K)) (colors : List (Fin 4 → K)) (q : Fin n → K)
    (mask : KdLane K n → Bool) (skip : Bool) (maxSqrDist : K) (t : KdTree K n P) (lo : Nat) :
    ∀ (sh : KdShape K n) (id : Nat) (rest : List Nat) (s : KdBest K), sh.Good →
      sh.Held far normals colors t.nodes t.blocks lo id → rest.length + sh.height + 1 ≤ kdStackSize →
      PadsHarmless far q mask skip maxSqrDist (kdPointLane normals colors) sh.points → s.2 ≤ maxSqrDist →
      ∃ s', kdLoop (kdClosestStep t q mask skip) (id :: rest) s = kdLoop (kdClosestStep t q mask skip) rest s' ∧
        Improves q (fun p => mask (kdPointLane normals colors p) = true) sh.points s s'
  | .leaf box pts, id, rest, s, hg, hh, hst, hpad, hs => by
    obtain ⟨-, v, b0, hn, hb⟩ := hh
    by_cases hfar : box.extDist q > s.2
    · refine ⟨s, ?_, Improves.skipped fun p hp => hfar.le.trans (extDist_le box p.2 q (hg.2 p hp))⟩
      rw [kdLoop_cons (r := (rest, s))]
      simp [kdClosestStep, readAt, hn, Outcome.bind, hfar]
    · obtain ⟨s', e, hi⟩ := leaf_closest hP far normals colors q mask skip maxSqrDist pts hg.1 hpad s hs
      refine ⟨s', ?_, hi⟩
      rw [kdLoop_cons (r := (rest, s'))]
      unfold kdClosestStep
      simp only [readAt, hn, Outcome.bind]
      rw [if_neg hfar]
      rw [kdLeafBlocks_spec t _ (kdBlocks P far normals colors pts) (by
        intro h
        have := congrArg List.length h
        rw [kdBlocks_length, List.length_nil] at this
        exact absurd this (kdNumBlocks_pos hP (List.length_pos_iff.2 hg.1)).ne') rfl hb]
      simp only [e]
  | .node box dim val l r, id, rest, s, hg, hh, hst, hpad, hs => by
    obtain ⟨-, a, b, hn, hl, hr⟩ := hh
    obtain ⟨g1, g2, g3, g4, g5⟩ := hg
    simp only [KdShape.height] at hst
    by_cases hfar : box.extDist q > s.2
    · refine ⟨s, ?_, Improves.skipped fun p hp => hfar.le.trans (extDist_le box p.2 q (g1 p hp))⟩
      rw [kdLoop_cons (r := (rest, s))]
      simp [kdClosestStep, readAt, hn, Outcome.bind, hfar]
    · have hpl : PadsHarmless far q mask skip maxSqrDist (kdPointLane normals colors) l.points :=
        hpad.sub fun p hp => List.mem_append_left _ hp
      have hpr : PadsHarmless far q mask skip maxSqrDist (kdPointLane normals colors) r.points :=
        hpad.sub fun p hp => List.mem_append_right _ hp
      have p1 : ∀ (i : Nat) (x : List Nat), x.length < kdStackSize → pushIf kdStackSize true i x = .ok (i :: x) := by
        intro i x h; simp [pushIf, h]
      by_cases hside : q dim ≥ val
      · by_cases hnear : (q dim - val) * (q dim - val) < s.2
        · obtain ⟨s1, e1, i1⟩ := tree_closest hP far normals colors q mask skip maxSqrDist t lo r b (a :: rest) s g5 hr
            (by rw [List.length_cons]; omega) hpr hs
          obtain ⟨s2, e2, i2⟩ := tree_closest hP far normals colors q mask skip maxSqrDist t lo l a rest s1 g4 hl
            (by omega) hpl (i1.1.trans hs)
          refine ⟨s2, ?_, (i1.append i2).perm List.perm_append_comm⟩
          rw [kdLoop_cons (r := (b :: a :: rest, s)), e1, e2]
          unfold kdClosestStep
          simp only [readAt, hn, Outcome.bind]
          rw [if_neg hfar]
          simp only [if_pos hside]
          rw [decide_eq_true hnear, p1 _ _ (by omega)]
          simp only []
          rw [p1 _ _ (by rw [List.length_cons]; omega)]
        · obtain ⟨s1, e1, i1⟩ := tree_closest hP far normals colors q mask skip maxSqrDist t lo r b rest s g5 hr
            (by omega) hpr hs
          refine ⟨s1, ?_, ((Improves.skipped (s := s) fun p hp => ?_).append i1)⟩
          · rw [kdLoop_cons (r := (b :: rest, s)), e1]
            unfold kdClosestStep
            simp only [readAt, hn, Outcome.bind]
            rw [if_neg hfar]
            simp only [if_pos hside]
            rw [decide_eq_false hnear]
            simp only [pushIf, Bool.false_eq_true, if_false, if_true]
            rw [if_pos (by omega)]
          · have h1 := g2 p hp
            have h2 := kdSqDist_coord p.2 q dim
            have h3 := not_lt.1 hnear
            nlinarith [mul_nonneg (sub_nonneg.2 h1) (sub_nonneg.2 hside)]
      · have hside' := not_le.1 hside
        by_cases hnear : (q dim - val) * (q dim - val) < s.2
        · obtain ⟨s1, e1, i1⟩ := tree_closest hP far normals colors q mask skip maxSqrDist t lo l a (b :: rest) s g4 hl
            (by rw [List.length_cons]; omega) hpl hs
          obtain ⟨s2, e2, i2⟩ := tree_closest hP far normals colors q mask skip maxSqrDist t lo r b rest s1 g5 hr
            (by omega) hpr (i1.1.trans hs)
          refine ⟨s2, ?_, i1.append i2⟩
          rw [kdLoop_cons (r := (a :: b :: rest, s)), e1, e2]
          unfold kdClosestStep
          simp only [readAt, hn, Outcome.bind]
          rw [if_neg hfar]
          simp only [if_neg hside]
          rw [decide_eq_true hnear, p1 _ _ (by omega)]
          simp only []
          rw [p1 _ _ (by rw [List.length_cons]; omega)]
        · obtain ⟨s1, e1, i1⟩ := tree_closest hP far normals colors q mask skip maxSqrDist t lo l a rest s g4 hl
            (by omega) hpl hs
          refine ⟨s1, ?_, (((Improves.skipped (s := s) fun p hp => ?_).append i1)).perm List.perm_append_comm⟩
          · rw [kdLoop_cons (r := (a :: rest, s)), e1]
            unfold kdClosestStep
            simp only [readAt, hn, Outcome.bind]
            rw [if_neg hfar]
            simp only [if_neg hside]
            rw [decide_eq_false hnear]
            simp only [pushIf, Bool.false_eq_true, if_false, if_true]
            rw [if_pos (by omega)]
          · have h1 := g3 p hp
            have h2 := kdSqDist_coord p.2 q dim
            have h3 := not_lt.1 hnear
            nlinarith [mul_nonneg (sub_nonneg.2 h1) (sub_pos.2 hside').le]

/-! ### The sphere -/

theorem lane_fold_sphere (center : Fin n → K) (r2 : K) : ∀ (L : List (KdLane K n)) (acc : List Nat),
    (∀ x ∈ L, x.index = none → r2 < kdSqDist x.point center) →
    L.foldl (fun (acc : Outcome (List Nat)) x => acc.bind fun pts =>
      if kdSqDist x.point center ≤ r2 then
        match x.index with
        | none => .throws
        | some i => .ok (pts ++ [i])
      else .ok pts) (.ok acc) =
    .ok (acc ++ (L.filter fun x => decide (kdSqDist x.point center ≤ r2)).filterMap KdLane.index)
  | [], acc, _ => by simp
  | x :: L, acc, h => by
    rw [List.foldl_cons, Outcome.bind]
    split_ifs with hx
    · cases hi : x.index with
      | none => exact absurd hx (not_le.2 (h x List.mem_cons_self hi))
      | some i =>
        rw [lane_fold_sphere center r2 L _ fun y hy => h y (List.mem_cons_of_mem _ hy)]
        rw [List.filter_cons_of_pos (by simpa using hx), List.filterMap_cons_some hi]
        simp
    · rw [lane_fold_sphere center r2 L _ fun y hy => h y (List.mem_cons_of_mem _ hy)]
      rw [List.filter_cons_of_neg (by simpa using hx)]

theorem blocks_fold_sphere (center : Fin n → K) (r2 : K) : ∀ (bs : List (KdBlock K n P)) (acc : Outcome (List Nat)),
    bs.foldl (kdSphereBlock center r2) acc =
    (blockLanes bs).foldl (fun (acc : Outcome (List Nat)) x => acc.bind fun pts =>
      if kdSqDist x.point center ≤ r2 then
        match x.index with
        | none => .throws
        | some i => .ok (pts ++ [i])
      else .ok pts) acc
  | [], acc => rfl
  | b :: bs, acc => by
    rw [List.foldl_cons, blocks_fold_sphere center r2 bs]
    have : blockLanes (b :: bs) = (List.finRange P).map b ++ blockLanes bs := rfl
    rw [this, List.foldl_append, List.foldl_map]
    rfl

theorem tree_sphere (hP : 0 < P) (far : K) (normals : List (Fin n → K)) (colors : List (Fin 4 → K)) (center : Fin n → K)
    (radius : K) (hr0 : 0 ≤ radius) (hfarr : radius * radius < kdSqDist (fun _ => far) center) (t : KdTree K n P) (lo : Nat) :
    ∀ (sh : KdShape K n) (id : Nat) (rest : List Nat) (acc : List Nat), sh.Good →
      sh.Held far normals colors t.nodes t.blocks lo id → rest.length + sh.height + 1 ≤ kdStackSize →
      ∃ L, kdLoop (kdSphereStep t center radius) (id :: rest) acc = kdLoop (kdSphereStep t center radius) rest (acc ++ L) ∧
        L.Perm ((sh.points.filter fun p => decide (kdSqDist p.2 center ≤ radius * radius)).map Prod.fst)
  | .leaf box pts, id, rest, acc, hg, hh, hst => by
    obtain ⟨-, v, b0, hn, hb⟩ := hh
    by_cases hfar : box.extDist center > radius * radius
    · refine ⟨[], ?_, ?_⟩
      · rw [kdLoop_cons (r := (rest, acc ++ []))]
        simp [kdSphereStep, readAt, hn, Outcome.bind, hfar]
      · have : (pts.filter fun p => decide (kdSqDist p.2 center ≤ radius * radius)) = [] := by
          rw [List.filter_eq_nil_iff]
          intro p hp
          have := extDist_le box p.2 center (hg.2 p hp)
          simp only [decide_eq_true_eq, not_le]
          exact lt_of_lt_of_le hfar this
        simp only [KdShape.points]
        rw [this]; simp
    · obtain ⟨m, hflat⟩ := kdBlocks_flat hP far normals colors pts
      refine ⟨_, ?_, List.Perm.refl _⟩
      rw [kdLoop_cons (r := (rest, _))]
      unfold kdSphereStep
      simp only [readAt, hn, Outcome.bind]
      rw [if_neg hfar]
      rw [kdLeafBlocks_spec t _ (kdBlocks P far normals colors pts) (by
        intro h
        have := congrArg List.length h
        rw [kdBlocks_length, List.length_nil] at this
        exact absurd this (kdNumBlocks_pos hP (List.length_pos_iff.2 hg.1)).ne') rfl hb]
      simp only
      rw [blocks_fold_sphere, blockLanes, hflat, lane_fold_sphere]
      · simp only [Outcome.ok.injEq, Prod.mk.injEq, true_and]
        congr 1
        rw [List.filter_append, List.filterMap_append]
        have e2 : (List.replicate m (kdPad far : KdLane K n)).filter (fun x => decide (kdSqDist x.point center ≤ radius * radius)) = [] := by
          rw [List.filter_eq_nil_iff]
          intro x hx
          rw [List.mem_replicate] at hx
          rw [hx.2]
          rw [decide_eq_true_iff]
          exact not_le.2 hfarr
        rw [e2, List.filterMap_nil, List.append_nil, List.filter_map, List.filterMap_map]
        rw [← List.filterMap_eq_map]
        rfl
      · intro x hx hi
        rw [List.mem_append, List.mem_map, List.mem_replicate] at hx
        rcases hx with ⟨p, -, rfl⟩ | ⟨-, rfl⟩
        · simp [kdPointLane] at hi
        · exact hfarr
  | .node box dim val l r, id, rest, acc, hg, hh, hst => by
    obtain ⟨-, a, b, hn, hl, hr⟩ := hh
    obtain ⟨g1, g2, g3, g4, g5⟩ := hg
    simp only [KdShape.height] at hst
    by_cases hfar : box.extDist center > radius * radius
    · refine ⟨[], ?_, ?_⟩
      · rw [kdLoop_cons (r := (rest, acc ++ []))]
        simp [kdSphereStep, readAt, hn, Outcome.bind, hfar]
      · have : ((l.points ++ r.points).filter fun p => decide (kdSqDist p.2 center ≤ radius * radius)) = [] := by
          rw [List.filter_eq_nil_iff]
          intro p hp
          have := extDist_le box p.2 center (g1 p hp)
          simp only [decide_eq_true_eq, not_le]
          exact lt_of_lt_of_le hfar this
        simp only [KdShape.points]
        rw [this]; simp
    · have hstep : kdSphereStep t center radius id rest acc =
          (pushIf kdStackSize (decide (center dim - radius ≤ val)) a rest).bind fun st1 =>
            (pushIf kdStackSize (decide (center dim + radius ≥ val)) b st1).bind fun st2 => .ok (st2, acc) := by
        unfold kdSphereStep
        simp only [readAt, hn, Outcome.bind]
        rw [if_neg hfar]
      have emptyl : ¬ center dim - radius ≤ val → (l.points.filter fun p => decide (kdSqDist p.2 center ≤ radius * radius)) = [] := by
        intro h
        rw [List.filter_eq_nil_iff]
        intro p hp
        have h1 := g2 p hp
        have h2 := kdSqDist_coord p.2 center dim
        have h3 := not_le.1 h
        simp only [decide_eq_true_eq, not_le]
        nlinarith
      have emptyr : ¬ center dim + radius ≥ val → (r.points.filter fun p => decide (kdSqDist p.2 center ≤ radius * radius)) = [] := by
        intro h
        rw [List.filter_eq_nil_iff]
        intro p hp
        have h1 := g3 p hp
        have h2 := kdSqDist_coord p.2 center dim
        have h3 := not_le.1 h
        simp only [decide_eq_true_eq, not_le]
        nlinarith
      have pt : ∀ (i : Nat) (x : List Nat), x.length < kdStackSize → pushIf kdStackSize true i x = .ok (i :: x) := by
        intro i x h; simp [pushIf, h]
      have pf : ∀ (i : Nat) (x : List Nat), pushIf kdStackSize false i x = .ok x := by
        intro i x; simp [pushIf]
      simp only [KdShape.points, List.filter_append, List.map_append]
      by_cases c1 : center dim - radius ≤ val <;> by_cases c2 : center dim + radius ≥ val
      · obtain ⟨L2, e2, q2⟩ := tree_sphere hP far normals colors center radius hr0 hfarr t lo r b (a :: rest) acc g5 hr
          (by rw [List.length_cons]; omega)
        obtain ⟨L1, e1, q1⟩ := tree_sphere hP far normals colors center radius hr0 hfarr t lo l a rest (acc ++ L2) g4 hl
          (by omega)
        refine ⟨L2 ++ L1, ?_, List.perm_append_comm.trans (q1.append q2)⟩
        rw [kdLoop_cons (r := (b :: a :: rest, acc)), e2, e1, List.append_assoc]
        rw [hstep, decide_eq_true c1, decide_eq_true c2, pt _ _ (by omega)]
        simp only [Outcome.bind]
        rw [pt _ _ (by rw [List.length_cons]; omega)]
      · obtain ⟨L1, e1, q1⟩ := tree_sphere hP far normals colors center radius hr0 hfarr t lo l a rest acc g4 hl
          (by omega)
        refine ⟨L1, ?_, by rw [emptyr c2]; simpa using q1⟩
        rw [kdLoop_cons (r := (a :: rest, acc)), e1]
        rw [hstep, decide_eq_true c1, decide_eq_false c2, pt _ _ (by omega)]
        simp only [Outcome.bind, pf]
      · obtain ⟨L2, e2, q2⟩ := tree_sphere hP far normals colors center radius hr0 hfarr t lo r b rest acc g5 hr
          (by omega)
        refine ⟨L2, ?_, by rw [emptyl c1]; simpa using q2⟩
        rw [kdLoop_cons (r := (b :: rest, acc)), e2]
        rw [hstep, decide_eq_false c1, decide_eq_true c2, pf]
        simp only [Outcome.bind]
        rw [pt _ _ (by omega)]
      · refine ⟨[], ?_, by rw [emptyl c1, emptyr c2]; simp⟩
        rw [kdLoop_cons (r := (rest, acc ++ []))]
        rw [hstep, decide_eq_false c1, decide_eq_false c2, pf]
        simp only [Outcome.bind, pf, List.append_nil]

end
end Momentum
