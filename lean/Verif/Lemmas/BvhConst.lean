import Verif.Lemmas.BvhComb

/-! # Trees over coinciding boxes: the counterexample to buffer safety (C36) -/

namespace Momentum

/-- Sizes of the leaves in the order a traversal reaches them (right to left) when `n` coinciding
boxes are split in halves down to `c`; `fuel` bounds the depth. -/
def halves (c : Nat) : Nat → Nat → List Nat
  | 0, n => [n]
  | fuel + 1, n => if n ≤ c then [n] else halves c fuel (n - n / 2) ++ halves c fuel (n / 2)

theorem partition_all (prims : List (Box ℚ)) (s e : Nat) (hse : s ≤ e) (he : e ≤ prims.length) (dim : Fin 3) (split : ℚ)
    (h : ∀ k b, s ≤ k → k < e → prims[k]? = some b → b.max.get dim ≤ split) : partitionRange prims s e dim split = .ok (prims, e) := by
  unfold partitionRange
  have key : ∀ j ≤ e - s, (List.range j).foldl
      (fun (acc : Outcome (List (Box ℚ) × Nat)) k => acc.bind fun st => partitionStep dim split st (s + k)) (.ok (prims, s))
      = .ok (prims, s + j) := by
    intro j hj
    induction j with
    | zero => simp
    | succ j ih =>
      rw [List.range_succ, List.foldl_append, List.foldl_cons, List.foldl_nil, ih (by omega), Outcome.bind_ok]
      unfold partitionStep
      simp only
      rw [readAt_ok (by omega), Outcome.bind_ok, if_pos (Or.inl (h _ _ (by omega) (by omega) (List.getElem?_eq_getElem (by omega)))),
        if_neg (by simp)]
      rfl
  rw [key _ le_rfl, show s + (e - s) = e by omega]

/-- `n` coinciding boxes. -/
def coinciding (n : Nat) : List (Box ℚ) := (List.range n).map fun k => xBox 0 k

theorem buildLoop_coinciding (c cap : Nat) (hc : 1 ≤ c) (prims : List (Box ℚ)) (hp : ∀ k < prims.length, prims[k]? = some (xBox 0 k))
    (visit : Box ℚ → Bool) (hv : ∀ id, visit ⟨⟨0, 0, 0⟩, ⟨0, 0, 0⟩, id⟩ = true) :
    ∀ (fuel len : Nat) (flat : List (BvhNode ℚ)) (parent s e : Nat) (rest : List BuildEntry), len ≤ 2 ^ fuel → e - s = len → s < e →
    e ≤ prims.length → (parent = kRootParentIndex ∨ parent < flat.length) → flat.length + 2 * len < kRootParentIndex →
    rest.length + fuel + 1 ≤ cap →
    ∃ new t, buildLoop c cap ⟨prims, flat, ⟨parent, s, e⟩ :: rest⟩ = buildLoop c cap ⟨prims, touch flat parent ++ new, rest⟩ ∧
      new.length = t.size ∧ new.length < 2 * len ∧ Packed ⟨touch flat parent ++ new, prims⟩ t flat.length s e ∧
      ((t.leafLists visit).map List.length) = halves c fuel len ∧ t.height ≤ fuel ∧
      ∃ id, t.bbox = ⟨⟨0, 0, 0⟩, ⟨0, 0, 0⟩, id⟩ := by
  intro fuel
  induction fuel with
  | zero =>
    intro len flat parent s e rest hpow hlen hse he hpar hsz hcap
    have : e = s + 1 := by simp at hpow; omega
    subst this
    have hb := nodeBoxes_line prims (fun _ => 0) s (s + 1) hse (fun k _ h => hp k (by omega)) (fun _ _ _ _ _ => le_rfl)
    refine ⟨[⟨xBox 0 s, s, 1, 0⟩], .leaf (xBox 0 s) [xBox 0 s], ?_, rfl, by simp; omega, ?_, ?_, by simp [BvhTree.height], _, rfl⟩
    · rw [buildLoop]
      simp only
      unfold buildStep
      simp only [hb, Outcome.bind_ok, Nat.add_sub_cancel_left, hc, if_true]
      rw [touchParent_eq _ _ _ hpar]
      simp [BvhNode.isLeaf, xBox]
    · refine ⟨hse, he, ?_, ?_⟩
      · simp only
        rw [slice_succ _ _ _ le_rfl (by omega), (List.getElem?_eq_some_iff.mp (hp s (by omega))).2]
        simp [slice]
      · simp only
        rw [List.getElem?_append_right (by rw [touch_length]), touch_length]
        simp
    · simp [BvhTree.leafLists, halves]; omega
  | succ fuel ih =>
    intro len flat parent s e rest hpow hlen hse he hpar hsz hcap
    have hb := nodeBoxes_line prims (fun _ => 0) s e hse (fun k _ h => hp k (by omega)) (fun _ _ _ _ _ => le_rfl)
    rw [buildLoop]
    simp only
    unfold buildStep
    simp only [hb, Outcome.bind_ok]
    rw [touchParent_eq _ _ _ hpar]
    simp only [Outcome.bind_ok]
    have hul : kUntouched ≠ 0 := by unfold kUntouched; omega
    by_cases hcp : e - s ≤ c
    · simp only [hcp, BvhNode.isLeaf, if_true, decide_true]
      refine ⟨[⟨⟨⟨0, 0, 0⟩, ⟨0, 0, 0⟩, s⟩, s, e - s, 0⟩], .leaf ⟨⟨0, 0, 0⟩, ⟨0, 0, 0⟩, s⟩ (slice prims s e), rfl, rfl, by simp; omega, ?_, ?_,
        by simp [BvhTree.height], _, rfl⟩
      · refine ⟨hse, he, rfl, ?_⟩
        simp only
        rw [List.getElem?_append_right (by rw [touch_length]), touch_length]
        simp
      · simp [BvhTree.leafLists, halves, slice_length prims s e he, ← hlen, hcp]
    · simp only [hcp, BvhNode.isLeaf, if_false, hul, decide_false, Bool.false_eq_true]
      rw [partition_all prims s e hse.le he _ _ ?_]
      swap
      · intro k b h1 h2 hk
        rw [hp k (by omega), Option.some.injEq] at hk
        subst hk
        have : ∀ dd : Fin 3, ((xBox 0 k).max.get dd : ℚ) = 0 := by intro dd; simp [xBox, Vec3.get]
        rw [this]
        have : ∀ dd : Fin 3, (Vec3.get (⟨0, 0, 0⟩ : Vec3 ℚ) dd) = 0 := by intro dd; simp [Vec3.get]
        simp only [this]; norm_num
      simp only [Outcome.bind_ok, or_true, if_true]
      rw [if_pos (by omega)]
      have hi : (touch flat parent ++ [(⟨⟨⟨0, 0, 0⟩, ⟨0, 0, 0⟩, s⟩, s, e - s, kUntouched⟩ : BvhNode ℚ)]).length - 1 = flat.length := by
        simp [touch_length]
      simp only [hi]
      set bb : Box ℚ := ⟨⟨0, 0, 0⟩, ⟨0, 0, 0⟩, s⟩ with hbb
      set A := touch flat parent with hA
      have hAl : A.length = flat.length := touch_length flat parent
      have hne : A.length ≠ kRootParentIndex := by omega
      set mid := s + (e - s) / 2 with hmid
      rw [pow_succ] at hpow
      obtain ⟨newL, tL, hL1, hL4, hL5, hL6, hL7, hL8, idL, hL9⟩ := ih (mid - s) (A ++ [⟨bb, s, e - s, kUntouched⟩]) flat.length s mid
        (⟨flat.length, mid, e⟩ :: rest) (by omega) rfl (by omega) (by omega) (by right; simp [hAl]) (by simp [hAl]; omega)
        (by simp; omega)
      have ht1 : touch (A ++ [⟨bb, s, e - s, kUntouched⟩]) flat.length = A ++ [⟨bb, s, e - s, 2 ^ 32 - 2⟩] := by
        rw [← hAl, touch_mid A [] _ hne]
        have : touchVal kUntouched (A.length + 1 + ([] : List (BvhNode ℚ)).length) A.length = 2 ^ 32 - 2 := by
          unfold touchVal
          rw [if_neg (by decide)]
          decide
        simp only [this]
      rw [ht1] at hL1 hL6
      obtain ⟨newR, tR, hR1, hR4, hR5, hR6, hR7, hR8, idR, hR9⟩ := ih (e - mid) (A ++ [⟨bb, s, e - s, 2 ^ 32 - 2⟩] ++ newL) flat.length mid e rest
        (by omega) rfl (by omega) (by omega) (by right; simp [hAl]) (by simp [hAl]; omega) (by omega)
      have ht2 : touch (A ++ [(⟨bb, s, e - s, 2 ^ 32 - 2⟩ : BvhNode ℚ)] ++ newL) flat.length
          = A ++ ⟨bb, s, e - s, 1 + newL.length⟩ :: newL := by
        rw [← hAl, List.append_assoc, List.singleton_append, touch_mid A newL _ hne]
        have : touchVal (2 ^ 32 - 2) (A.length + 1 + newL.length) A.length = 1 + newL.length := by
          unfold touchVal kTouchedTwice
          rw [if_pos (by decide), show A.length + 1 + newL.length - A.length = 1 + newL.length by omega]
          unfold kRootParentIndex at hsz
          omega
        simp only [this]
      rw [ht2] at hR1 hR6
      have hbase : (A ++ [(⟨bb, s, e - s, 2 ^ 32 - 2⟩ : BvhNode ℚ)] ++ newL).length = flat.length + 1 + newL.length := by
        simp only [List.length_append, List.length_singleton, hAl]
      rw [hbase] at hR6
      have hbase1 : (A ++ [(⟨bb, s, e - s, kUntouched⟩ : BvhNode ℚ)]).length = flat.length + 1 := by simp [hAl]
      rw [hbase1] at hL6
      refine ⟨⟨bb, s, e - s, 1 + newL.length⟩ :: (newL ++ newR), .node bb tL tR, ?_, ?_, ?_, ?_, ?_, ?_, _, rfl⟩
      · refine (hL1.trans hR1).trans ?_
        rw [List.append_assoc, List.cons_append]
      · simp [BvhTree.size, hL4, hR4]; omega
      · simp; omega
      · refine ⟨mid, by omega, by omega, ?_, ?_, ?_⟩
        · simp only
          rw [List.getElem?_append_right (by omega), ← hAl, Nat.sub_self, hL4]
          rfl
        · refine hL6.congr ?_ (fun _ _ _ => rfl) rfl
          intro j hj1 hj2
          simp only
          rw [List.getElem?_append_right (by omega),
            List.getElem?_append_right (by simp [hAl]; omega), List.length_append, hAl, List.length_singleton,
            show j - flat.length = (j - (flat.length + 1)) + 1 by omega, List.getElem?_cons_succ,
            List.getElem?_append_left (by omega)]
        · rw [← hL4]
          refine hR6.congr ?_ (fun _ _ _ => rfl) rfl
          intro j _ _
          simp only
          rw [List.append_assoc, List.cons_append]
      · simp only [BvhTree.leafLists, hL9, hR9, hv, if_true, List.map_append, hL7, hR7, halves]
        rw [if_neg (by omega), ← hlen, show e - mid = e - s - (e - s) / 2 by omega, show mid - s = (e - s) / 2 by omega]
      · simp only [BvhTree.height]; omega

/-- The buffered query on leaves of the given sizes: once the buffer cannot take the next leaf, undefined behaviour. -/
def bufferRun (size : Nat) : List Nat → Nat → Bool
  | [], _ => false
  | k :: ks, n => if size ≤ n then false else if n + k ≤ size then bufferRun size ks (n + k) else true

theorem runLeaf_buffer {K : Type} (size : Nat) (ps : List (Box K)) (hits : List Nat) :
    runLeaf (fun (hits : List Nat) (p : Box K) => if hits.length < size then Outcome.ok (hits ++ [p.id]) else .ub) hits ps
      = if hits.length + ps.length ≤ size ∨ ps = [] then .ok (hits ++ ps.map (·.id)) else .ub := by
  induction ps generalizing hits with
  | nil => simp [runLeaf]
  | cons p ps ih =>
    have hub : ∀ qs : List (Box K), qs.foldl (fun (acc : Outcome (List Nat)) (p : Box K) => acc.bind fun hits =>
        if hits.length < size then Outcome.ok (hits ++ [p.id]) else .ub) .ub = .ub := by
      intro qs; induction qs with
      | nil => rfl
      | cons q qs ih => simpa using ih
    unfold runLeaf at ih ⊢
    rw [List.foldl_cons, Outcome.bind_ok]
    by_cases h : hits.length < size
    · simp only [if_pos h]
      rw [ih]
      simp only [List.length_append, List.length_singleton, List.length_cons, List.length_nil, reduceCtorEq, or_false, List.map_cons, List.append_assoc,
        List.singleton_append]
      by_cases hps : ps = []
      · subst hps; simp; omega
      · simp only [hps, or_false, show hits.length + (0 + 1) + ps.length = hits.length + (ps.length + 1) by omega]
    · simp only [if_neg h]
      rw [hub, if_neg (by simp; omega)]

theorem runLeaves_buffer_ok {K : Type} (size : Nat) (A : List (List (Box K))) (hits : List Nat) (hs : hits.length ≤ size)
    (h : (∀ ps ∈ A, ps.length ≤ 1) ∨ hits.length + A.flatten.length ≤ size) :
    runLeaves (fun hits : List Nat => decide (size ≤ hits.length))
      (fun hits p => if hits.length < size then Outcome.ok (hits ++ [p.id]) else .ub) A hits
      = .ok ((hits ++ A.flatten.map (·.id)).take size) := by
  induction A generalizing hits with
  | nil => simp [runLeaves, List.take_of_length_le hs]
  | cons ps A ih =>
    rw [runLeaves, runLeaf_buffer]
    by_cases hn : size ≤ hits.length
    · simp only [hn, decide_true, if_true]
      rw [List.take_append_of_le_length hn, List.take_of_length_le hs]
    · simp only [hn, decide_false, Bool.false_eq_true, if_false]
      have hfit : hits.length + ps.length ≤ size := by
        rcases h with h | h
        · have := h ps (by simp); omega
        · simp at h; omega
      rw [if_pos (Or.inl hfit), Outcome.bind_ok, ih]
      · simp
      · simpa using hfit
      · rcases h with h | h
        · left; intro qs hq; exact h qs (by simp [hq])
        · right; simp at h ⊢; omega

theorem runLeaves_buffer_overrun (size : Nat) (A : List (List (Box ℚ))) (hits : List Nat)
    (h : bufferRun size (A.map List.length) hits.length = true) :
    runLeaves (fun hits : List Nat => decide (size ≤ hits.length))
      (fun hits p => if hits.length < size then Outcome.ok (hits ++ [p.id]) else .ub) A hits = .ub := by
  induction A generalizing hits with
  | nil => simp [bufferRun] at h
  | cons ps A ih =>
    simp only [List.map_cons, bufferRun] at h
    rw [runLeaves, runLeaf_buffer]
    split at h
    · simp at h
    · rename_i hn
      simp only [hn, decide_false, Bool.false_eq_true, if_false]
      split at h
      · rename_i hle
        rw [if_pos (Or.inl hle), Outcome.bind_ok]
        apply ih
        simpa using h
      · rename_i hle
        have : ps ≠ [] := by rintro rfl; simp at hle; omega
        rw [if_neg (by simp [this]; omega)]
        rfl

end Momentum
