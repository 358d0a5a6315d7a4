import Verif.Lemmas.BvhBuild
import Mathlib.Data.List.Nodup

/-! # Stack based queries visit the right leaves (helper lemmas for C36, C38) -/

namespace Momentum
section
variable {K : Type} [Field K] [LinearOrder K]

omit [Field K] [LinearOrder K] in
theorem nodePrims_ok (b : Bvh K) (nd : BvhNode K) (h : nd.start + nd.nPrims ≤ b.prims.length) :
    nodePrims b nd = .ok (slice b.prims nd.start (nd.start + nd.nPrims)) := by
  unfold nodePrims
  have key : ∀ m ≤ nd.nPrims, (List.range m).foldl
      (fun (acc : Outcome (List (Box K))) k => acc.bind fun l => (readAt b.prims (nd.start + k)).bind fun p => .ok (l ++ [p]))
      (.ok []) = .ok (slice b.prims nd.start (nd.start + m)) := by
    intro m hm
    induction m with
    | zero => simp [slice]
    | succ m ih =>
      rw [List.range_succ, List.foldl_append, List.foldl_cons, List.foldl_nil, ih (by omega)]
      simp only [Outcome.bind_ok]
      rw [readAt_ok (by omega), ← Nat.add_assoc, slice_succ _ _ _ (by omega) (by omega)]
      rfl
  exact key _ le_rfl

omit [Field K] [LinearOrder K] in
theorem nodePrims_leaf {b : Bvh K} {bb : Box K} {s e : Nat} (hse : s < e) (he : e ≤ b.prims.length) :
    nodePrims b ⟨bb, s, e - s, 0⟩ = .ok (slice b.prims s e) := by
  rw [nodePrims_ok _ _ (by simp only; omega)]
  simp only
  rw [show s + (e - s) = e by omega]

/-! ### abstract traversal -/

namespace BvhTree

/-- The leaves (as primitive lists) a traversal reaches, in the order it reaches them. -/
def leafLists (visit : Box K → Bool) : BvhTree K → List (List (Box K))
  | leaf _ ps => [ps]
  | node _ l r => (if visit r.bbox then r.leafLists visit else []) ++ (if visit l.bbox then l.leafLists visit else [])

omit [Field K] [LinearOrder K] in
theorem prims_pos {t : BvhTree K} {c : Nat} (h : t.LeavesWithin c) : 1 ≤ t.prims.length := by
  induction t with
  | leaf bb ps => exact h.1
  | node bb l r ihl _ => have := ihl h.1; simp only [prims, List.length_append]; omega

omit [Field K] [LinearOrder K] in
theorem height_lt {t : BvhTree K} {c : Nat} (h : t.LeavesWithin c) : t.height < t.prims.length := by
  induction t with
  | leaf bb ps => exact h.1
  | node bb l r ihl ihr =>
    have h1 := ihl h.1
    have h2 := ihr h.2
    have h3 := prims_pos h.1
    have h4 := prims_pos h.2
    simp only [prims, List.length_append, height]
    omega

omit [Field K] in
theorem Tight.bounds {t : BvhTree K} (h : t.Tight) : t.Bounds := by
  induction t with
  | leaf bb ps => exact h.1
  | node bb l r ihl ihr => exact ⟨h.1.1, ihl h.2.1, ihr h.2.2⟩

omit [Field K] in
theorem Bounds.root {t : BvhTree K} (h : t.Bounds) {p : Box K} (hp : p ∈ t.prims) : t.bbox.Includes p := by
  cases t with
  | leaf bb ps => exact h p hp
  | node bb l r => exact h.1 p hp

omit [Field K] in
/-- Nothing whose boxes all pass the test is missed. -/
theorem mem_leafLists {t : BvhTree K} (h : t.Bounds) (visit : Box K → Bool) {p : Box K} (hp : p ∈ t.prims)
    (hv : ∀ bb : Box K, bb.Includes p → visit bb = true) : p ∈ (t.leafLists visit).flatten := by
  induction t with
  | leaf bb ps => simpa [leafLists, prims] using hp
  | node bb l r ihl ihr =>
    simp only [prims, List.mem_append] at hp
    simp only [leafLists, List.flatten_append, List.mem_append]
    rcases hp with hp | hp
    · right
      rw [if_pos (hv _ (h.2.1.root hp))]; exact ihl h.2.1 hp
    · left
      rw [if_pos (hv _ (h.2.2.root hp))]; exact ihr h.2.2 hp

omit [Field K] [LinearOrder K] in
/-- Nothing is visited more often than it occurs. -/
theorem leafLists_subperm (t : BvhTree K) (visit : Box K → Bool) : (t.leafLists visit).flatten.Subperm t.prims := by
  induction t with
  | leaf bb ps => simp [leafLists, prims, List.Subperm.refl]
  | node bb l r ihl ihr =>
    simp only [leafLists, prims, List.flatten_append]
    refine (List.Subperm.append (l₂ := r.prims) (r₂ := l.prims) ?_ ?_).trans (List.perm_append_comm.subperm)
    · split
      · exact ihr
      · simp
    · split
      · exact ihl
      · simp

omit [Field K] [LinearOrder K] in
theorem leafLists_mem_length {t : BvhTree K} {c : Nat} (h : t.LeavesWithin c) (visit : Box K → Bool) :
    ∀ ps ∈ t.leafLists visit, 1 ≤ ps.length ∧ ps.length ≤ c := by
  induction t with
  | leaf bb ps => intro qs hq; simp only [leafLists, List.mem_singleton] at hq; subst hq; exact h
  | node bb l r ihl ihr =>
    intro qs hq
    simp only [leafLists, List.mem_append] at hq
    rcases hq with hq | hq
    · split at hq
      · exact ihr h.2 qs hq
      · simp at hq
    · split at hq
      · exact ihl h.1 qs hq
      · simp at hq

end BvhTree

variable {σ : Type}

/-- Processing the primitives of one leaf. -/
def runLeaf (leaf : σ → Box K → Outcome σ) (s : σ) (ps : List (Box K)) : Outcome σ :=
  ps.foldl (fun (acc : Outcome σ) p => acc.bind fun s => leaf s p) (.ok s)

/-- Processing leaves one after the other until told to stop. -/
def runLeaves (stop : σ → Bool) (leaf : σ → Box K → Outcome σ) : List (List (Box K)) → σ → Outcome σ
  | [], s => .ok s
  | ps :: rest, s => if stop s then .ok s else (runLeaf leaf s ps).bind (runLeaves stop leaf rest)

omit [Field K] [LinearOrder K] in
theorem runLeaves_stop {stop : σ → Bool} {leaf : σ → Box K → Outcome σ} (A : List (List (Box K))) {s : σ} (h : stop s = true) :
    runLeaves stop leaf A s = .ok s := by
  cases A with
  | nil => rfl
  | cons a A => rw [runLeaves, if_pos h]

omit [Field K] [LinearOrder K] in
theorem runLeaves_append (stop : σ → Bool) (leaf : σ → Box K → Outcome σ) (A B : List (List (Box K))) (s : σ) :
    runLeaves stop leaf (A ++ B) s = (runLeaves stop leaf A s).bind (runLeaves stop leaf B) := by
  induction A generalizing s with
  | nil => rfl
  | cons a A ih =>
    rw [List.cons_append, runLeaves, runLeaves]
    split
    · rename_i h; rw [Outcome.bind_ok, runLeaves_stop _ h]
    · cases runLeaf leaf s a with
      | ok s' => simp only [Outcome.bind_ok]; exact ih s'
      | throws => rfl
      | ub => rfl

/-- Continue with the rest of the stack after processing some leaves. -/
def contLoop (b : Bvh K) (stackSize : Nat) (visit : Box K → Bool) (leaf : σ → Box K → Outcome σ) (stop : σ → Bool)
    (rest : List Nat) (r : Outcome σ) : Option (Outcome σ) :=
  match r with
  | .ok s => todoLoop b stackSize visit leaf stop rest s
  | .throws => some .throws
  | .ub => some .ub

theorem todoLoop_stop (b : Bvh K) (stackSize : Nat) (visit : Box K → Bool) (leaf : σ → Box K → Outcome σ) (stop : σ → Bool)
    (rest : List Nat) (s : σ) (h : stop s = true) : todoLoop b stackSize visit leaf stop rest s = some (.ok s) := by
  rw [todoLoop.eq_def]
  cases rest with
  | nil => rfl
  | cons a r => simp only [h, if_true]

theorem todoLoop_tree (b : Bvh K) (stackSize : Nat) (visit : Box K → Bool) (leaf : σ → Box K → Outcome σ) (stop : σ → Bool)
    (t : BvhTree K) : ∀ (i s e : Nat) (rest : List Nat) (x : σ), Holds b t i s e →
    (todoLoop b stackSize visit leaf stop (i :: rest) x = some .ub ∧ stackSize ≤ rest.length + t.height) ∨
    todoLoop b stackSize visit leaf stop (i :: rest) x =
      contLoop b stackSize visit leaf stop rest (runLeaves stop leaf (t.leafLists visit) x) := by
  induction t with
  | leaf bb ps =>
    intro i s e rest x h
    right
    obtain ⟨h1, h2, h3, h4⟩ := h
    by_cases hs : stop x = true
    · rw [todoLoop_stop _ _ _ _ _ _ _ hs, runLeaves_stop _ hs, contLoop, todoLoop_stop _ _ _ _ _ _ _ hs]
    · rw [todoLoop]
      have hi := (List.getElem?_eq_some_iff.mp h4).1
      simp only [hs, todoStep, readAt_ok hi, Outcome.bind_ok]
      rw [(List.getElem?_eq_some_iff.mp h4).2]
      simp only [BvhNode.isLeaf, decide_true, if_true, nodePrims_leaf h1 h2, Outcome.bind_ok, h3]
      simp only [BvhTree.leafLists, runLeaves, hs]
      change _ = contLoop b stackSize visit leaf stop rest ((runLeaf leaf x ps).bind _)
      unfold runLeaf
      cases List.foldl (fun (acc : Outcome σ) p => acc.bind fun s => leaf s p) (Outcome.ok x) ps <;> rfl
  | node bb l r ihl ihr =>
    intro i s e rest x h
    obtain ⟨m, ro, h1, h2, h3, h4, h5, h6⟩ := h
    by_cases hs : stop x = true
    · right
      rw [todoLoop_stop _ _ _ _ _ _ _ hs, runLeaves_stop _ hs, contLoop, todoLoop_stop _ _ _ _ _ _ _ hs]
    · have hi := (List.getElem?_eq_some_iff.mp h4).1
      have rootAt : ∀ (t : BvhTree K) i s e, Holds b t i s e → ∃ nd, b.flat[i]? = some nd ∧ nd.bbox = t.bbox := by
        intro t i s e h
        cases t with
        | leaf => exact ⟨_, h.2.2.2, rfl⟩
        | node => obtain ⟨_, _, _, _, _, h, _⟩ := h; exact ⟨_, h, rfl⟩
      obtain ⟨nl, hl1, hl2⟩ := rootAt l _ _ _ h5
      obtain ⟨nr, hr1, hr2⟩ := rootAt r _ _ _ h6
      have key : todoLoop b stackSize visit leaf stop (i :: rest) x =
          match (pushIf stackSize (visit l.bbox) (i + 1) rest).bind fun st1 =>
            (pushIf stackSize (visit r.bbox) (i + ro) st1).bind fun st2 => Outcome.ok (st2, x) with
          | .ok q => todoLoop b stackSize visit leaf stop q.1 q.2
          | .throws => some .throws
          | .ub => some .ub := by
        rw [todoLoop]
        simp only [hs, todoStep, readAt_ok hi, Outcome.bind_ok]
        rw [(List.getElem?_eq_some_iff.mp h4).2]
        have e1 : readAt b.flat (i + 1) = .ok nl := by unfold readAt; rw [hl1]
        have e2 : readAt b.flat (i + ro) = .ok nr := by unfold readAt; rw [hr1]
        simp only [BvhNode.isLeaf, h3, e1, e2, Outcome.bind_ok, hl2, hr2]
        rfl
      rw [key]
      simp only [BvhTree.leafLists, BvhTree.height]
      -- right subtree first
      have goR : ∀ rest', (∀ x', (todoLoop b stackSize visit leaf stop rest' x' = some .ub ∧ stackSize ≤ rest.length + (1 + max l.height r.height))
            ∨ todoLoop b stackSize visit leaf stop rest' x' =
              contLoop b stackSize visit leaf stop rest (runLeaves stop leaf (if visit l.bbox = true then l.leafLists visit else []) x')) →
          rest'.length ≤ rest.length + 1 →
          (match (pushIf stackSize (visit r.bbox) (i + ro) rest').bind fun st2 => Outcome.ok (st2, x) with
          | .ok q => todoLoop b stackSize visit leaf stop q.1 q.2
          | .throws => some .throws
          | .ub => some .ub) = some .ub ∧ stackSize ≤ rest.length + (1 + max l.height r.height) ∨
          (match (pushIf stackSize (visit r.bbox) (i + ro) rest').bind fun st2 => Outcome.ok (st2, x) with
          | .ok q => todoLoop b stackSize visit leaf stop q.1 q.2
          | .throws => some .throws
          | .ub => some .ub) = contLoop b stackSize visit leaf stop rest
            (runLeaves stop leaf ((if visit r.bbox = true then r.leafLists visit else []) ++
              (if visit l.bbox = true then l.leafLists visit else [])) x) := by
        intro rest' hrest' hlen
        unfold pushIf
        by_cases hv : visit r.bbox = true
        · simp only [hv, if_true]
          by_cases hc : rest'.length < stackSize
          · simp only [hc, if_true, Outcome.bind_ok]
            rcases ihr (i + ro) m e rest' x h6 with h | h
            · left; exact ⟨h.1, by omega⟩
            · rw [h, runLeaves_append]
              cases runLeaves stop leaf (r.leafLists visit) x with
              | ok x' => simp only [contLoop, Outcome.bind_ok]; exact hrest' x'
              | throws => right; rfl
              | ub => right; rfl
          · simp only [hc, if_false, Outcome.bind_ub]
            left; exact ⟨trivial, by omega⟩
        · simp only [hv, Outcome.bind_ok]
          simpa using hrest' x
      by_cases hv : visit l.bbox = true
      · by_cases hc : rest.length < stackSize
        · have hp : pushIf stackSize (visit l.bbox) (i + 1) rest = .ok ((i + 1) :: rest) := by
            unfold pushIf; rw [if_pos hv, if_pos hc]
          rw [hp, Outcome.bind_ok]
          refine goR ((i + 1) :: rest) (fun x' => ?_) (by simp)
          rw [if_pos hv]
          rcases ihl (i + 1) s m rest x' h5 with h | h
          · left; exact ⟨h.1, by omega⟩
          · right; exact h
        · have hp : pushIf stackSize (visit l.bbox) (i + 1) rest = .ub := by
            unfold pushIf; rw [if_pos hv, if_neg hc]
          rw [hp]
          left; exact ⟨rfl, by omega⟩
      · have hp : pushIf stackSize (visit l.bbox) (i + 1) rest = .ok rest := by
          unfold pushIf; rw [if_neg hv]
        rw [hp, Outcome.bind_ok]
        refine goR rest (fun x' => ?_) (by simp)
        right
        rw [if_neg hv]; rfl

/-- The whole query. -/
theorem todoLoop_root (b : Bvh K) (stackSize : Nat) (visit : Box K → Bool) (leaf : σ → Box K → Outcome σ) (stop : σ → Bool)
    (t : BvhTree K) (n : Nat) (x : σ) (h : Holds b t 0 0 n) (hh : t.height < stackSize) :
    todoLoop b stackSize visit leaf stop [0] x = some (runLeaves stop leaf (t.leafLists visit) x) := by
  rcases todoLoop_tree b stackSize visit leaf stop t 0 0 n [] x h with h | h
  · have := h.2; simp at this; omega
  · rw [h]
    cases runLeaves stop leaf (t.leafLists visit) x with
    | ok x' => simp only [contLoop]; rw [todoLoop]
    | throws => rfl
    | ub => rfl

/-- Overflow or result. -/
theorem todoLoop_cases (b : Bvh K) (stackSize : Nat) (visit : Box K → Bool) (leaf : σ → Box K → Outcome σ) (stop : σ → Bool)
    (t : BvhTree K) (n c : Nat) (x : σ) (h : Holds b t 0 0 n) (hw : t.LeavesWithin c) :
    (todoLoop b stackSize visit leaf stop [0] x = some .ub ∧ stackSize < t.prims.length) ∨
    todoLoop b stackSize visit leaf stop [0] x = some (runLeaves stop leaf (t.leafLists visit) x) := by
  rcases todoLoop_tree b stackSize visit leaf stop t 0 0 n [] x h with h | h
  · left
    refine ⟨h.1, ?_⟩
    have := BvhTree.height_lt hw
    have := h.2
    simp at this; omega
  · right
    rw [h]
    cases runLeaves stop leaf (t.leafLists visit) x with
    | ok x' => simp only [contLoop]; rw [todoLoop]
    | throws => rfl
    | ub => rfl

omit [Field K] [LinearOrder K] in
/-- Leaf processing that cannot fail, never stopping: a fold over the visited primitives. -/
theorem runLeaves_fold (f : σ → Box K → σ) (A : List (List (Box K))) (s : σ) :
    runLeaves (fun _ => false) (fun s p => .ok (f s p)) A s = .ok (A.flatten.foldl f s) := by
  induction A generalizing s with
  | nil => rfl
  | cons a A ih =>
    have h1 : runLeaf (fun s p => Outcome.ok (f s p)) s a = .ok (a.foldl f s) := by
      unfold runLeaf
      induction a generalizing s with
      | nil => rfl
      | cons p a iha => rw [List.foldl_cons, List.foldl_cons, Outcome.bind_ok]; exact iha (f s p)
    rw [runLeaves, h1]
    simp only [Bool.false_eq_true, if_false, Outcome.bind_ok, List.flatten_cons, List.foldl_append]
    exact ih _

end
end Momentum
