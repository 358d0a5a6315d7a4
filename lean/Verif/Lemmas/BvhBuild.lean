import Verif.Spec.Bvh
import Verif.Lemmas.ListOption
import Mathlib.Data.List.Perm.Basic
import Mathlib.Tactic.Linarith

/-! # The build loop constructs a tree (helper lemmas for C35) -/

namespace Momentum

@[simp] theorem Outcome.bind_ok {α β : Type} (a : α) (f : α → Outcome β) : (Outcome.ok a).bind f = f a := rfl
@[simp] theorem Outcome.bind_ub {α β : Type} (f : α → Outcome β) : (Outcome.ub : Outcome α).bind f = .ub := rfl
@[simp] theorem Outcome.bind_throws {α β : Type} (f : α → Outcome β) : (Outcome.throws : Outcome α).bind f = .throws := rfl

theorem readAt_ok {α : Type} {l : List α} {i : Nat} (h : i < l.length) : readAt l i = .ok l[i] := by
  unfold readAt; rw [List.getElem?_eq_getElem h]

/-! ### slices -/

section slice
variable {α : Type}

theorem slice_append (l : List α) (s m e : Nat) (h1 : s ≤ m) (h2 : m ≤ e) : slice l s e = slice l s m ++ slice l m e := by
  unfold slice
  rw [show e - s = (m - s) + (e - m) by omega, List.take_add, List.drop_drop, show s + (m - s) = m by omega]

theorem slice_length (l : List α) (s e : Nat) (h : e ≤ l.length) : (slice l s e).length = e - s := by
  unfold slice; rw [List.length_take, List.length_drop]; omega

theorem slice_succ (l : List α) (s e : Nat) (h1 : s ≤ e) (h2 : e < l.length) : slice l s (e + 1) = slice l s e ++ [l[e]] := by
  rw [slice_append l s e (e + 1) h1 (by omega)]
  congr 1
  unfold slice
  rw [show e + 1 - e = 1 by omega, List.drop_eq_getElem_cons h2, List.take_succ_cons, List.take_zero]

theorem slice_congr (l l' : List α) (s e : Nat) (h : ∀ j, s ≤ j → j < e → l[j]? = l'[j]?) : slice l s e = slice l' s e := by
  unfold slice
  apply List.ext_getElem?
  intro j
  simp only [List.getElem?_take, List.getElem?_drop]
  split
  · exact h _ (by omega) (by omega)
  · rfl

theorem slice_full (l : List α) : slice l 0 l.length = l := by unfold slice; simp

theorem slice_perm (l l' : List α) (s e : Nat) (hse : s ≤ e) (hp : l'.Perm l)
    (h : ∀ j, j < s ∨ e ≤ j → l'[j]? = l[j]?) : (slice l' s e).Perm (slice l s e) := by
  have hl := hp.length_eq
  have split : ∀ m : List α, m = m.take s ++ (slice m s e ++ m.drop e) := by
    intro m
    unfold slice
    conv_lhs => rw [← List.take_append_drop s m, ← List.take_append_drop (e - s) (m.drop s)]
    rw [List.drop_drop, show s + (e - s) = e by omega]
  have h1 : l'.take s = l.take s := by
    apply List.ext_getElem?; intro j
    simp only [List.getElem?_take]
    split
    · exact h j (by omega)
    · rfl
  have h2 : l'.drop e = l.drop e := by
    apply List.ext_getElem?; intro j
    simp only [List.getElem?_drop]
    exact h _ (by omega)
  rw [split l, split l', h1, h2, List.perm_append_left_iff, List.perm_append_right_iff] at hp
  exact hp

theorem swap_perm [DecidableEq α] (l : List α) (i j : Nat) (hi : i < l.length) (hj : j < l.length) (hij : i ≠ j) :
    ((l.set i l[j]).set j l[i]).Perm l := by
  rw [List.perm_iff_count]
  intro a
  have hc1 : ∀ k (hk : k < l.length), l[k] = a → 0 < l.count a := fun k hk h => by
    rw [List.count_pos_iff]; exact h ▸ List.getElem_mem hk
  rw [List.count_set (by simpa using hj), List.count_set hi, List.getElem_set_ne hij]
  by_cases e1 : l[i] = a <;> by_cases e2 : l[j] = a <;> simp [e1, e2]
  · have := hc1 i hi e1; omega
  · have := hc1 i hi e1; omega

end slice

section
variable {K : Type} [Field K] [LinearOrder K]

/-! ### boxes -/

theorem Box.includes_iff (a b : Box K) : a.Includes b ↔
    (a.min.x ≤ b.min.x ∧ a.min.y ≤ b.min.y ∧ a.min.z ≤ b.min.z) ∧
    (b.max.x ≤ a.max.x ∧ b.max.y ≤ a.max.y ∧ b.max.z ≤ a.max.z) := by
  unfold Box.Includes
  simp only [Fin.forall_fin_succ, Fin.forall_fin_zero_pi, Vec3.get]
  simp
  tauto

theorem Box.includes_refl (a : Box K) : a.Includes a := fun _ => ⟨le_rfl, le_rfl⟩

theorem Box.Includes.trans {a b c : Box K} (h1 : a.Includes b) (h2 : b.Includes c) : a.Includes c :=
  fun d => ⟨(h1 d).1.trans (h2 d).1, (h2 d).2.trans (h1 d).2⟩

theorem Box.contains_iff (a b : Box K) : a.contains b = true ↔ a.Includes b := by
  rw [Box.includes_iff]; unfold Box.contains; rw [decide_eq_true_iff]

theorem Box.extend_left (a b : Box K) : (a.extend b).Includes a := by
  rw [Box.includes_iff]; simp [Box.extend]

theorem Box.extend_right (a b : Box K) : (a.extend b).Includes b := by
  rw [Box.includes_iff]; simp [Box.extend]

theorem Box.extend_least {a b c : Box K} (h1 : c.Includes a) (h2 : c.Includes b) : c.Includes (a.extend b) := by
  rw [Box.includes_iff] at *; simp [Box.extend, h1, h2]

theorem Box.hull_single (a : Box K) : a.IsHull [a] := by
  refine ⟨fun p hp => ?_, fun c h => h a (by simp)⟩
  rw [List.mem_singleton.mp hp]; exact a.includes_refl

theorem Box.hull_extend {a : Box K} {ps : List (Box K)} (h : a.IsHull ps) (b : Box K) : (a.extend b).IsHull (ps ++ [b]) := by
  refine ⟨fun p hp => ?_, fun c hc => ?_⟩
  · rcases List.mem_append.mp hp with hp | hp
    · exact (a.extend_left b).trans (h.1 p hp)
    · rw [List.mem_singleton.mp hp]; exact a.extend_right b
  · exact Box.extend_least (h.2 c fun p hp => hc p (by simp [hp])) (hc b (by simp))

theorem Box.hull_perm {a : Box K} {ps ps' : List (Box K)} (h : a.IsHull ps) (hp : ps.Perm ps') : a.IsHull ps' :=
  ⟨fun p hp' => h.1 p (hp.mem_iff.mpr hp'), fun c hc => h.2 c fun p hp' => hc p (hp.mem_iff.mp hp')⟩

theorem nodeBoxes_ok (prims : List (Box K)) (s e : Nat) (h : s < e) (he : e ≤ prims.length) :
    ∃ bb cc, nodeBoxes prims s e = .ok (bb, cc) ∧ bb.IsHull (slice prims s e) := by
  unfold nodeBoxes
  rw [readAt_ok (by omega)]
  simp only [Outcome.bind_ok]
  have key : ∀ m ≤ e - (s + 1), ∃ bb cc, (List.range m).foldl
      (fun (acc : Outcome (Box K × Box K)) k => acc.bind fun a => boxesStep prims a (s + 1 + k))
      (.ok (prims[s], Box.ofPoint prims[s].center)) = .ok (bb, cc) ∧ bb.IsHull (slice prims s (s + 1 + m)) := by
    intro m hm
    induction m with
    | zero =>
      refine ⟨_, _, rfl, ?_⟩
      rw [Nat.add_zero, slice_succ _ _ _ le_rfl (by omega)]
      have : slice prims s s = [] := by unfold slice; simp
      rw [this]; exact Box.hull_single _
    | succ m ih =>
      obtain ⟨bb, cc, h1, h2⟩ := ih (by omega)
      rw [List.range_succ, List.foldl_append, List.foldl_cons, List.foldl_nil, h1]
      simp only [Outcome.bind_ok]
      unfold boxesStep
      rw [readAt_ok (by omega)]
      refine ⟨_, _, rfl, ?_⟩
      rw [← Nat.add_assoc, slice_succ _ _ _ (by omega) (by omega)]
      exact Box.hull_extend h2 _
  obtain ⟨bb, cc, h1, h2⟩ := key _ le_rfl
  rw [show s + 1 + (e - (s + 1)) = e by omega] at h2
  exact ⟨bb, cc, h1, h2⟩

theorem partitionRange_ok (prims : List (Box K)) (s e : Nat) (hse : s ≤ e) (he : e ≤ prims.length) (dim : Fin 3) (split : K) :
    ∃ ps mid, partitionRange prims s e dim split = .ok (ps, mid) ∧ ps.Perm prims ∧
      (∀ j, j < s ∨ e ≤ j → ps[j]? = prims[j]?) ∧ s ≤ mid ∧ mid ≤ e := by
  unfold partitionRange
  have key : ∀ m ≤ e - s, ∃ ps mid, (List.range m).foldl
      (fun (acc : Outcome (List (Box K) × Nat)) k => acc.bind fun st => partitionStep dim split st (s + k))
      (.ok (prims, s)) = .ok (ps, mid) ∧ ps.Perm prims ∧
      (∀ j, j < s ∨ e ≤ j → ps[j]? = prims[j]?) ∧ s ≤ mid ∧ mid ≤ s + m := by
    intro m hm
    induction m with
    | zero => exact ⟨prims, s, rfl, List.Perm.refl _, fun _ _ => rfl, le_rfl, le_rfl⟩
    | succ m ih =>
      obtain ⟨ps, mid, h1, h2, h3, h4, h5⟩ := ih (by omega)
      have hl := h2.length_eq
      rw [List.range_succ, List.foldl_append, List.foldl_cons, List.foldl_nil, h1]
      simp only [Outcome.bind_ok]
      unfold partitionStep
      rw [readAt_ok (show s + m < ps.length by omega)]
      simp only [Outcome.bind_ok]
      split
      · split
        · rename_i hne
          unfold swapAt
          rw [readAt_ok (show s + m < ps.length by omega), readAt_ok (show mid < ps.length by omega)]
          simp only [Outcome.bind_ok]
          refine ⟨_, _, rfl, (swap_perm ps (s + m) mid (by omega) (by omega) hne).trans h2, fun j hj => ?_, by omega, by omega⟩
          rw [List.getElem?_set_ne (by omega), List.getElem?_set_ne (by omega), h3 j hj]
        · exact ⟨_, _, rfl, h2, h3, by omega, by omega⟩
      · exact ⟨_, _, rfl, h2, h3, h4, by omega⟩
  obtain ⟨ps, mid, h1, h2, h3, h4, h5⟩ := key _ le_rfl
  exact ⟨ps, mid, h1, h2, h3, h4, by omega⟩

/-! ### touching the parent -/

/-- Effect of the child pushed at position `n` on the offset `r` of the parent at position `p`. -/
def touchVal (r n p : Nat) : Nat :=
  if (r + (2 ^ 32 - 1)) % 2 ^ 32 = kTouchedTwice then (n - p) % 2 ^ 32 else (r + (2 ^ 32 - 1)) % 2 ^ 32

/-- The node list with the parent touched by a child about to be pushed. -/
def touch (flat : List (BvhNode K)) (p : Nat) : List (BvhNode K) :=
  if p = kRootParentIndex then flat
  else match flat[p]? with
    | some nd => flat.set p { nd with rightOffset := touchVal nd.rightOffset flat.length p }
    | none => flat

omit [Field K] [LinearOrder K] in
theorem touch_length (flat : List (BvhNode K)) (p : Nat) : (touch flat p).length = flat.length := by
  unfold touch; split
  · rfl
  · split <;> simp

omit [Field K] [LinearOrder K] in
theorem touchParent_eq (flat : List (BvhNode K)) (cur : BvhNode K) (p : Nat) (h : p = kRootParentIndex ∨ p < flat.length) :
    touchParent (flat ++ [cur]) p = .ok (touch flat p ++ [cur]) := by
  unfold touchParent touch
  by_cases hr : p = kRootParentIndex
  · rw [if_pos hr, if_pos hr]
  · have hp : p < flat.length := by tauto
    rw [if_neg hr, if_neg hr, readAt_ok (by simp; omega), List.getElem?_eq_getElem hp]
    simp only [Outcome.bind_ok, List.getElem_append_left hp]
    rw [List.set_append_left _ _ hp]
    simp [touchVal]

omit [Field K] [LinearOrder K] in
theorem touch_mid (A B : List (BvhNode K)) (nd : BvhNode K) (h : A.length ≠ kRootParentIndex) :
    touch (A ++ nd :: B) A.length =
      A ++ { nd with rightOffset := touchVal nd.rightOffset (A.length + 1 + B.length) A.length } :: B := by
  unfold touch
  rw [if_neg h]
  simp only [List.getElem?_append_right (le_refl A.length), Nat.sub_self, List.getElem?_cons_zero]
  rw [List.set_append_right _ _ le_rfl, Nat.sub_self, List.set_cons_zero]
  simp only [List.length_append, List.length_cons]
  rw [show A.length + (B.length + 1) = A.length + 1 + B.length by omega]

/-! ### held trees only depend on their part of the arrays -/

omit [Field K] [LinearOrder K] in
/-- The nodes of the tree `t` at positions `i, …, i + size - 1`, with consecutive layout. -/
theorem holds_prims {b : Bvh K} {t : BvhTree K} {i s e : Nat} (h : Holds b t i s e) :
    s < e ∧ e ≤ b.prims.length ∧ t.prims = slice b.prims s e := by
  induction t generalizing i s e with
  | leaf bb ps => exact ⟨h.1, h.2.1, h.2.2.1.symm⟩
  | node bb l r ihl ihr =>
    obtain ⟨m, ro, h1, h2, h3, h4, h5, h6⟩ := h
    obtain ⟨a1, a2, a3⟩ := ihl h5
    obtain ⟨b1, b2, b3⟩ := ihr h6
    refine ⟨by omega, b2, ?_⟩
    rw [slice_append _ s m e (by omega) (by omega), BvhTree.prims, a3, b3]

/-- Consecutive layout: as `Holds`, and the right child follows the nodes of the left subtree. -/
def Packed (b : Bvh K) : BvhTree K → Nat → Nat → Nat → Prop
  | .leaf bb ps, i, s, e => s < e ∧ e ≤ b.prims.length ∧ slice b.prims s e = ps ∧ b.flat[i]? = some ⟨bb, s, e - s, 0⟩
  | .node bb l r, i, s, e => ∃ m, s < m ∧ m < e ∧ b.flat[i]? = some ⟨bb, s, e - s, 1 + l.size⟩ ∧
      Packed b l (i + 1) s m ∧ Packed b r (i + 1 + l.size) m e

omit [Field K] [LinearOrder K] in
theorem Packed.holds {b : Bvh K} {t : BvhTree K} {i s e : Nat} (h : Packed b t i s e) : Holds b t i s e := by
  induction t generalizing i s e with
  | leaf bb ps => exact h
  | node bb l r ihl ihr =>
    obtain ⟨m, h1, h2, h3, h4, h5⟩ := h
    refine ⟨m, 1 + l.size, h1, h2, by omega, h3, ihl h4, ?_⟩
    rw [← Nat.add_assoc]; exact ihr h5

omit [Field K] [LinearOrder K] in
theorem Packed.congr {b b' : Bvh K} {t : BvhTree K} {i s e : Nat} (h : Packed b t i s e)
    (hf : ∀ j, i ≤ j → j < i + t.size → b'.flat[j]? = b.flat[j]?)
    (hp : ∀ j, s ≤ j → j < e → b'.prims[j]? = b.prims[j]?) (hl : b'.prims.length = b.prims.length) : Packed b' t i s e := by
  induction t generalizing i s e with
  | leaf bb ps =>
    obtain ⟨h1, h2, h3, h4⟩ := h
    refine ⟨h1, by omega, ?_, ?_⟩
    · rw [slice_congr _ _ _ _ hp]; exact h3
    · rw [hf i le_rfl (by simp [BvhTree.size])]; exact h4
  | node bb l r ihl ihr =>
    obtain ⟨m, h1, h2, h3, h4, h5⟩ := h
    simp only [BvhTree.size] at hf
    refine ⟨m, h1, h2, by rw [hf i le_rfl (by omega)]; exact h3, ihl h4 (fun j a c => hf j (by omega) (by omega))
      fun j a c => hp j a (by omega), ihr h5 (fun j a c => hf j (by omega) (by omega)) fun j a c => hp j (by omega) c⟩

/-! ### the main induction -/

/-- What the loop adds for one entry. -/
theorem buildLoop_entry (leafCap cap : Nat) (hleaf : 1 ≤ leafCap) : ∀ (len : Nat) (prims : List (Box K)) (flat : List (BvhNode K))
    (parent s e : Nat) (rest : List BuildEntry), e - s = len → s < e → e ≤ prims.length →
    (parent = kRootParentIndex ∨ parent < flat.length) → flat.length + 2 * len < kRootParentIndex →
    (buildLoop leafCap cap ⟨prims, flat, ⟨parent, s, e⟩ :: rest⟩ = some .ub ∧ cap < rest.length + len) ∨
    ∃ prims' new t, buildLoop leafCap cap ⟨prims, flat, ⟨parent, s, e⟩ :: rest⟩
        = buildLoop leafCap cap ⟨prims', touch flat parent ++ new, rest⟩ ∧
      prims'.Perm prims ∧ (∀ j, j < s ∨ e ≤ j → prims'[j]? = prims[j]?) ∧ new.length = t.size ∧ new.length < 2 * len ∧
      Packed ⟨touch flat parent ++ new, prims'⟩ t flat.length s e ∧ t.LeavesWithin leafCap ∧ t.Tight := by
  intro len
  induction len using Nat.strong_induction_on with
  | _ len ih =>
  intro prims flat parent s e rest hlen hse he hpar hsz
  obtain ⟨bb, cc, hbox, hhull⟩ := nodeBoxes_ok prims s e hse he
  rw [buildLoop]
  simp only
  unfold buildStep
  simp only [hbox, Outcome.bind_ok]
  rw [touchParent_eq _ _ _ hpar]
  simp only [Outcome.bind_ok]
  have hul : kUntouched ≠ 0 := by unfold kUntouched; omega
  by_cases hcap : e - s ≤ leafCap
  · -- leaf
    simp only [hcap, BvhNode.isLeaf, if_true, decide_true]
    right
    refine ⟨prims, [⟨bb, s, e - s, 0⟩], .leaf bb (slice prims s e), rfl, List.Perm.refl _, fun _ _ => rfl, rfl, ?_, ?_, ?_, hhull⟩
    · simp; omega
    · refine ⟨hse, he, rfl, ?_⟩
      simp only
      rw [List.getElem?_append_right (by rw [touch_length]), touch_length]
      simp
    · have := slice_length prims s e he
      simp only [BvhTree.LeavesWithin]
      omega
  · simp only [hcap, BvhNode.isLeaf, if_false, hul, decide_false, Bool.false_eq_true]
    obtain ⟨ps, mid0, hpart, hperm, hout, hm1, hm2⟩ := partitionRange_ok prims s e hse.le he cc.maxDimension
      ((cc.min.get cc.maxDimension + cc.max.get cc.maxDimension) / 2)
    rw [hpart]
    simp only [Outcome.bind_ok]
    have hmid : s < (if mid0 = s ∨ mid0 = e then s + (e - s) / 2 else mid0) ∧
        (if mid0 = s ∨ mid0 = e then s + (e - s) / 2 else mid0) < e := by
      split <;> omega
    generalize (if mid0 = s ∨ mid0 = e then s + (e - s) / 2 else mid0) = mid at hmid
    by_cases hst : rest.length + 2 ≤ cap
    swap
    · left
      rw [if_neg hst]
      exact ⟨rfl, by omega⟩
    rw [if_pos hst]
    have hi : (touch flat parent ++ [(⟨bb, s, e - s, kUntouched⟩ : BvhNode K)]).length - 1 = flat.length := by
      simp [touch_length]
    simp only [hi]
    set A := touch flat parent with hA
    have hAl : A.length = flat.length := touch_length flat parent
    have hpsl := hperm.length_eq
    have hne : A.length ≠ kRootParentIndex := by omega
    rcases ih (mid - s) (by omega) ps (A ++ [⟨bb, s, e - s, kUntouched⟩]) flat.length s mid
        (⟨flat.length, mid, e⟩ :: rest) rfl (by omega) (by omega) (by right; simp [hAl]) (by simp [hAl]; omega) with hub | hok
    · left
      refine ⟨hub.1, ?_⟩
      have := hub.2
      simp only [List.length_cons] at this
      omega
    obtain ⟨ps2, newL, tL, hL1, hL2, hL3, hL4, hL5, hL6, hL7, hL8⟩ := hok
    have ht1 : touch (A ++ [⟨bb, s, e - s, kUntouched⟩]) flat.length = A ++ [⟨bb, s, e - s, 2 ^ 32 - 2⟩] := by
      rw [← hAl, touch_mid A [] _ hne]
      have : touchVal kUntouched (A.length + 1 + ([] : List (BvhNode K)).length) A.length = 2 ^ 32 - 2 := by
        unfold touchVal
        rw [if_neg (by decide)]
        decide
      simp only [this]
    rw [ht1] at hL1 hL6
    have hl2 := hL2.length_eq
    rcases ih (e - mid) (by omega) ps2 (A ++ [⟨bb, s, e - s, 2 ^ 32 - 2⟩] ++ newL) flat.length mid e rest rfl (by omega)
        (by omega) (by right; simp [hAl]) (by simp [hAl]; omega) with hub | hok
    · left
      exact ⟨hL1.trans hub.1, by omega⟩
    obtain ⟨ps3, newR, tR, hR1, hR2, hR3, hR4, hR5, hR6, hR7, hR8⟩ := hok
    have hl3 := hR2.length_eq
    have ht2 : touch (A ++ [(⟨bb, s, e - s, 2 ^ 32 - 2⟩ : BvhNode K)] ++ newL) flat.length
        = A ++ ⟨bb, s, e - s, 1 + newL.length⟩ :: newL := by
      rw [← hAl, List.append_assoc, List.singleton_append, touch_mid A newL _ hne]
      have : touchVal (2 ^ 32 - 2) (A.length + 1 + newL.length) A.length = 1 + newL.length := by
        unfold touchVal kTouchedTwice
        rw [if_pos (by decide), show A.length + 1 + newL.length - A.length = 1 + newL.length by omega]
        unfold kRootParentIndex at hsz
        omega
      simp only [this]
    rw [ht2] at hR1 hR6
    have hbase : (A ++ [(⟨bb, s, e - s, 2 ^ 32 - 2⟩ : BvhNode K)] ++ newL).length = flat.length + 1 + newL.length := by
      simp only [List.length_append, List.length_singleton, hAl]
    rw [hbase] at hR6
    have hbase1 : (A ++ [(⟨bb, s, e - s, kUntouched⟩ : BvhNode K)]).length = flat.length + 1 := by simp [hAl]
    rw [hbase1] at hL6
    right
    refine ⟨ps3, ⟨bb, s, e - s, 1 + newL.length⟩ :: (newL ++ newR), .node bb tL tR, ?_, ?_, ?_, ?_, ?_, ?_, ?_, ?_⟩
    · refine (hL1.trans hR1).trans ?_
      rw [List.append_assoc, List.cons_append]
    · exact hR2.trans (hL2.trans hperm)
    · intro j hj
      rw [hR3 j (by omega), hL3 j (by omega), hout j hj]
    · simp [BvhTree.size, hL4, hR4]; omega
    · simp; omega
    · refine ⟨mid, hmid.1, hmid.2, ?_, ?_, ?_⟩
      · simp only
        rw [List.getElem?_append_right (by omega), ← hAl, Nat.sub_self, hL4]
        rfl
      · refine hL6.congr ?_ ?_ (by simp only; omega)
        · intro j hj1 hj2
          simp only
          rw [List.getElem?_append_right (by omega),
            List.getElem?_append_right (by simp [hAl]; omega), List.length_append, hAl, List.length_singleton,
            show j - flat.length = (j - (flat.length + 1)) + 1 by omega, List.getElem?_cons_succ,
            List.getElem?_append_left (by omega)]
        · intro j hj1 hj2
          exact hR3 j (by omega)
      · rw [← hL4]
        refine hR6.congr ?_ (fun _ _ _ => rfl) rfl
        intro j _ _
        simp only
        rw [List.append_assoc, List.cons_append]
    · exact ⟨hL7, hR7⟩
    · refine ⟨?_, hL8, hR8⟩
      have p1 : tL.prims = slice ps2 s mid := (holds_prims hL6.holds).2.2
      have p2 : tR.prims = slice ps3 mid e := (holds_prims hR6.holds).2.2
      have p3 : slice ps2 s mid = slice ps3 s mid := slice_congr _ _ _ _ fun j _ _ => (hR3 j (by omega)).symm
      rw [p1, p2, p3, ← slice_append _ _ _ _ hmid.1.le hmid.2.le]
      refine Box.hull_perm hhull (slice_perm _ _ s e hse.le (hR2.trans (hL2.trans hperm)) ?_).symm
      intro j hj
      rw [hR3 j (by omega), hL3 j (by omega), hout j hj]

end
end Momentum
