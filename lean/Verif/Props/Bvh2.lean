import Verif.Lemmas.BvhPairs
import Verif.Model.TriBvh
import Verif.Props.Bvh

/-!
# C37, C38: pair traversals and closest queries on bounding volume hierarchies
-/

namespace Momentum
section
variable {K : Type} [Field K] [LinearOrder K] [IsStrictOrderedRing K]

/-! ## C37 -/

/-- **C37** (partial) With one primitive per leaf, on a tree in any history and for every callback (a state transformer that also returns
whether to go on): the traversal terminates, and the calls it makes are exactly, up to order, one call per unordered pair of distinct
primitives with intersecting boxes. What is missing: the traversal ignores the callback's wish to stop (`C37_stop_ignored`), and with larger leaves it misses
pairs (`C37_pairs_missed`). -/
theorem C37_pairs_partial {σ : Type} (b : Bvh K) (h : BvhReachable 1 b) (func : σ → Nat → Nat → σ × Bool) (s : σ) :
    ∃ L, traverseOverlappingPairs b func s = some (callAll func L s) ∧ Reports L (distinctPairs b.prims) := by
  rcases C39_refit_keeps_containment 1 le_rfl b h with ⟨h1, h2⟩ | ⟨t, _, p2, p3, p4, p5, p6⟩
  · exact ⟨[], by simp [traverseOverlappingPairs, h1, callAll], by rw [h2]; exact reports_refl _⟩
  · obtain ⟨L, e, r⟩ := traverseSelf_spec b func 1 (Or.inl rfl) t 0 0 _ p2 p5 p4
    have hpos := t.size_pos
    refine ⟨L, ?_, r.perm (p3 ▸ crossPairs_one t p4)⟩
    unfold traverseOverlappingPairs
    rw [if_neg (by omega), e]; rfl

/-- **C37** for any leaf capacity, with a callback that never asks to stop: the pairs reported are exactly the intersecting pairs of primitives
that are stored in different leaves. -/
theorem C37_pairs_across_leaves {σ : Type} (c : Nat) (hc : 1 ≤ c) (b : Bvh K) (h : BvhReachable c b) (hne : b.prims ≠ [])
    (func : σ → Nat → Nat → σ × Bool) (hf : ∀ s i j, (func s i j).2 = true) (s : σ) :
    ∃ t, Holds b t 0 0 b.prims.length ∧ t.LeavesWithin c ∧ t.prims = b.prims ∧
      ∃ L, traverseOverlappingPairs b func s = some (callAll func L s) ∧ Reports L (crossPairs t) := by
  rcases C39_refit_keeps_containment c hc b h with ⟨h1, h2⟩ | ⟨t, _, p2, p3, p4, p5, p6⟩
  · exact absurd h2 hne
  · obtain ⟨L, e, r⟩ := traverseSelf_spec b func c (Or.inr hf) t 0 0 _ p2 p5 p4
    have hpos := t.size_pos
    refine ⟨t, p2, p4, p3, L, ?_, r⟩
    unfold traverseOverlappingPairs
    rw [if_neg (by omega), e]; rfl

/-- **C37** two trees: every pair of a primitive of one and a primitive of the other with intersecting boxes is reported exactly once (leaf
capacity 1 and any callback, or any capacity and a callback that never asks to stop). -/
theorem C37_pairs_of_two_trees {σ : Type} (c : Nat) (hc : 1 ≤ c) (a b : Bvh K) (ha : BvhReachable c a) (hb : BvhReachable c b)
    (func : σ → Nat → Nat → σ × Bool) (hf : c = 1 ∨ ∀ s i j, (func s i j).2 = true) (s : σ) :
    ∃ L, traverseOverlappingPairs2 a b func s = some (callAll func L s) ∧ Reports L (a.prims ×ˢ b.prims) := by
  rcases C39_refit_keeps_containment c hc a ha with ⟨h1, h2⟩ | ⟨t, _, p2, p3, p4, p5, p6⟩
  · exact ⟨[], by simp [traverseOverlappingPairs2, h1, callAll], by rw [h2]; exact reports_refl _⟩
  · rcases C39_refit_keeps_containment c hc b hb with ⟨h1, h2⟩ | ⟨t', _, q2, q3, q4, q5, q6⟩
    · exact ⟨[], by simp [traverseOverlappingPairs2, h1, callAll], by rw [h2, List.product_nil]; exact reports_refl _⟩
    · obtain ⟨L, e, r⟩ := traverseCollision_spec a b func c hf _ t t' 0 0 _ 0 0 _ le_rfl p2 q2 p5 q5 p4 q4
      have hpos := t.size_pos
      have hpos' := t'.size_pos
      refine ⟨L, ?_, p3 ▸ q3 ▸ r⟩
      unfold traverseOverlappingPairs2
      rw [if_neg (by omega), e]; rfl

end

/-- **C37** counterexample: a callback that always asks to stop, on three coinciding boxes, is still called for all three pairs. -/
theorem C37_stop_ignored : ∃ b : Bvh ℚ, bvhBuild 1 kBuildStack (coinciding 3) = some (.ok b) ∧
    traverseOverlappingPairs b (fun (n : Nat) _ _ => (n + 1, false)) 0 = some 3 := by
  obtain ⟨b, h1, h2⟩ := C35_build_small 1 le_rfl (coinciding 3) (by simp [coinciding])
  have hb : BvhReachable 1 b := .build _ b (by simp [kRootParentIndex, coinciding]) h1
  obtain ⟨L, e, r1, r2⟩ := C37_pairs_partial b hb (fun (n : Nat) _ _ => (n + 1, false)) 0
  refine ⟨b, h1, ?_⟩
  rw [e]
  have hall : ∀ q ∈ distinctPairs b.prims, pairTest q = true := by
    have hmem : ∀ p ∈ b.prims, p.min = ⟨0, 0, 0⟩ ∧ p.max = ⟨0, 0, 0⟩ := by
      intro p hp
      have := h2.subset hp
      unfold coinciding at this
      obtain ⟨k, _, rfl⟩ := List.mem_map.mp this
      simp [xBox]
    have hd : ∀ (l : List (Box ℚ)) q, q ∈ distinctPairs l → q.1 ∈ l ∧ q.2 ∈ l := by
      intro l
      induction l with
      | nil => intro q hq; simp [distinctPairs] at hq
      | cons x l ih =>
        intro q hq
        simp only [distinctPairs, List.mem_append, List.mem_map] at hq
        rcases hq with ⟨y, hy, rfl⟩ | hq
        · simp [hy]
        · have := ih q hq; simp [this]
    intro q hq
    obtain ⟨h3, h4⟩ := hd _ q hq
    have := hmem _ h3
    have := hmem _ h4
    unfold pairTest Box.intersects
    simp_all
  have hlen : L.length = 3 := by
    have e1 : (distinctPairs b.prims).length = 3 := by
      have hl := h2.length_eq
      have : ∃ x y z, b.prims = [x, y, z] := List.length_eq_three.mp (by rw [hl]; simp [coinciding])
      obtain ⟨x, y, z, hh⟩ := this
      rw [hh]; rfl
    have e2 := r1.length_eq
    rw [List.filter_eq_self.mpr hall] at e2
    have e3 := List.length_filter_le pairTest L
    have e4 := r2.length_le
    omega
  have : ∀ (L : List (Box ℚ × Box ℚ)) (n : Nat), callAll (fun (n : Nat) _ _ => (n + 1, false)) L n = n + L.length := by
    intro L
    induction L with
    | nil => intro n; rfl
    | cons q L ih => intro n; unfold callAll at ih ⊢; rw [List.foldl_cons, ih]; simp; omega
  rw [this, hlen]

theorem leafLists_true_ne_nil (t : BvhTree ℚ) : t.leafLists (fun _ => true) ≠ [] := by
  induction t with
  | leaf => simp [BvhTree.leafLists]
  | node bb l r ihl ihr => simp [BvhTree.leafLists, ihl]

/-- **C37** counterexample: with leaf capacity 8, two coinciding boxes share a leaf and their pair is never reported. -/
theorem C37_pairs_missed : ∃ b : Bvh ℚ, bvhBuild 8 kBuildStack (coinciding 2) = some (.ok b) ∧
    ∀ {σ : Type} (func : σ → Nat → Nat → σ × Bool) (s : σ), traverseOverlappingPairs b func s = some s := by
  have hl : (coinciding 2).length = 2 := by simp [coinciding]
  have hp : ∀ k < (coinciding 2).length, (coinciding 2)[k]? = some (xBox 0 k) := by
    intro k hk
    rw [hl] at hk
    unfold coinciding
    rw [List.getElem?_map, List.getElem?_range hk]; rfl
  have ht : touch ([] : List (BvhNode ℚ)) kRootParentIndex = [] := by
    have := touch_length ([] : List (BvhNode ℚ)) kRootParentIndex
    exact List.eq_nil_of_length_eq_zero this
  obtain ⟨new, t, h1, h2, h3, h4, h5, h6, _⟩ := buildLoop_coinciding 8 kBuildStack (by omega) (coinciding 2) hp
    (fun _ => true) (by simp) 1 2 [] kRootParentIndex 0 2 [] (by norm_num) rfl (by omega)
    (by omega) (Or.inl rfl) (by simp [kRootParentIndex]) (by simp [kBuildStack])
  rw [ht, List.nil_append] at h1 h4
  refine ⟨⟨new, coinciding 2⟩, ?_, ?_⟩
  · unfold bvhBuild
    rw [if_neg (by intro h; rw [h] at hl; simp at hl), hl, show 2 % 2 ^ 32 = 2 by norm_num, h1, buildLoop]
    simp only [Option.map_some, Outcome.bind_ok]
  · intro σ func s
    unfold traverseOverlappingPairs
    have := t.size_pos
    rw [if_neg (by simp only; omega)]
    cases t with
    | leaf bb ps =>
      rw [traverseSelfCollision]
      have h7 := h4.2.2.2
      simp only [List.length_nil] at h7
      simp only [h7, BvhNode.isLeaf, Option.bind_eq_bind, Option.bind_some, decide_true, if_true, Option.map_some]
    | node bb l r =>
      exfalso
      have e1 := leafLists_true_ne_nil l
      have e2 := leafLists_true_ne_nil r
      simp only [BvhTree.leafLists, if_true, List.map_append, halves] at h5
      have := congrArg List.length h5
      simp at this
      have := List.length_pos_of_ne_nil e1
      have := List.length_pos_of_ne_nil e2
      omega

section
variable {K : Type} [Field K] [LinearOrder K] [IsStrictOrderedRing K]

/-! ## C38 -/

/-- **C38** the closest-surface-point query on a nonempty tree in any history: it terminates, and it returns a primitive whose projection is at minimal
distance among all primitives, provided no projection is nearer than the primitive's (nonempty) box; it returns nothing only if no
projection is nearer than the largest number. -/
theorem C38_closest_point (c : Nat) (hc : 1 ≤ c) (b : Bvh K) (h : BvhReachable c b) (hne : b.prims ≠ []) (big : K) (q : Vec3 K) (proj : Nat → Vec3 K)
    (hp : ∀ p ∈ b.prims, p.Proper ∧ p.squaredExteriorDistance q ≤ (proj p.id - q).sqNorm) :
    (queryClosestSurfacePoint b big q proj = some none ∧ ∀ p ∈ b.prims, big ≤ (proj p.id - q).sqNorm) ∨
    ∃ p ∈ b.prims, queryClosestSurfacePoint b big q proj = some (some (proj p.id, p.id)) ∧ (proj p.id - q).sqNorm < big ∧
      ∀ p' ∈ b.prims, (proj p.id - q).sqNorm ≤ (proj p'.id - q).sqNorm := by
  rcases C39_refit_keeps_containment c hc b h with ⟨h1, h2⟩ | ⟨t, _, p2, p3, p4, p5, p6⟩
  · exact absurd h2 hne
  · rw [← p3] at hp
    obtain ⟨r, e, h1, h2, h3⟩ := closestHelper_spec b q proj t 0 0 _ (big, none) p2 p5 hp
    rw [p3] at h1 h3
    unfold queryClosestSurfacePoint
    rw [e]
    rcases h1 with rfl | ⟨p, hpm, hlt, rfl⟩
    · left; exact ⟨rfl, h3⟩
    · right; exact ⟨p, hpm, rfl, hlt, h3⟩

/-- **C38** in particular for projections that lie inside the box of their primitive. -/
theorem C38_closest_point_inside (c : Nat) (hc : 1 ≤ c) (b : Bvh K) (h : BvhReachable c b) (hne : b.prims ≠ []) (big : K) (q : Vec3 K)
    (proj : Nat → Vec3 K) (hp : ∀ p ∈ b.prims, p.HasPoint (proj p.id)) (hbig : ∀ p ∈ b.prims, (proj p.id - q).sqNorm < big) :
    ∃ p ∈ b.prims, queryClosestSurfacePoint b big q proj = some (some (proj p.id, p.id)) ∧
      ∀ p' ∈ b.prims, (proj p.id - q).sqNorm ≤ (proj p'.id - q).sqNorm := by
  rcases C38_closest_point c hc b h hne big q proj
    (fun p hm => ⟨fun d => ((hp p hm) d).1.trans ((hp p hm) d).2, exteriorDistance_le (hp p hm) q⟩) with ⟨_, h1⟩ | ⟨p, h1, h2, _, h3⟩
  · obtain ⟨p, hm⟩ := List.exists_mem_of_ne_nil _ hne
    exact absurd (hbig p hm) (not_lt.mpr (h1 p hm))
  · exact ⟨p, h1, h2, h3⟩

/-- Specification of a sound per-primitive intersector: hits are at parameters in `[0, big]` and inside the primitive's box. -/
def SoundHits (ps : List (Box K)) (big : K) (o d : Vec3 K) (hit : Nat → Option K) : Prop :=
  ∀ p ∈ ps, ∀ t, hit p.id = some t → 0 ≤ t ∧ t ≤ big ∧ p.HasPoint (o + t • d)

/-- What the ray queries visit: everything that is hit, nothing else than primitives. -/
theorem visited_of_hits {t : BvhTree K} (hb : t.Bounds) {big : K} (hbig : 0 ≤ big) {o d : Vec3 K} (hd : d.AllNonzero) {hit : Nat → Option K}
    (hh : SoundHits t.prims big o d hit) {p : Box K} (hp : p ∈ t.prims) {x : K} (hx : hit p.id = some x) :
    p ∈ (t.leafLists fun nb => nb.intersectsBranchless big o d.cwiseInverse).flatten := by
  refine BvhTree.mem_leafLists hb _ hp (fun bb hbb => ?_)
  obtain ⟨h0, h1, h2⟩ := hh p hp x hx
  have hin : bb.HasPoint (o + x • d) := fun i => ⟨(hbb i).1.trans (h2 i).1, (h2 i).2.trans (hbb i).2⟩
  exact (C40_intersects_branchless bb o d big hbig (fun i => (hin i).1.trans (hin i).2) hd).mpr ⟨x, h0, h1, hin⟩

omit [Field K] [IsStrictOrderedRing K] in
/-- Fold of the closest-hit callback. -/
theorem closestHit_fold (hit : Nat → Option K) (minT : K) (l : List (Box K)) (s : Option (K × Nat) × K) :
    (l.foldl (fun s p => closestHitStep hit minT s p.id) s).2 ≤ s.2 ∧
    (∀ p ∈ l, ∀ t, hit p.id = some t → minT ≤ t → (l.foldl (fun s p => closestHitStep hit minT s p.id) s).2 ≤ t ∨ s.2 < t) ∧
    (l.foldl (fun s p => closestHitStep hit minT s p.id) s = s ∧ (∀ p ∈ l, ∀ t, hit p.id = some t → ¬ (minT ≤ t ∧ t ≤ s.2)) ∨
      ∃ p ∈ l, ∃ t, hit p.id = some t ∧ minT ≤ t ∧ t ≤ s.2 ∧ l.foldl (fun s p => closestHitStep hit minT s p.id) s = (some (t, p.id), t)) := by
  induction l generalizing s with
  | nil => exact ⟨le_rfl, by simp, Or.inl ⟨rfl, by simp⟩⟩
  | cons q l ih =>
    simp only [List.foldl_cons]
    obtain ⟨h1, h2, h3⟩ := ih (closestHitStep hit minT s q.id)
    have step : (closestHitStep hit minT s q.id = s ∧ ∀ t, hit q.id = some t → ¬ (minT ≤ t ∧ t ≤ s.2)) ∨
        ∃ t, hit q.id = some t ∧ minT ≤ t ∧ t ≤ s.2 ∧ closestHitStep hit minT s q.id = (some (t, q.id), t) := by
      unfold closestHitStep
      cases hq : hit q.id with
      | none => left; simp
      | some t =>
        simp only
        split_ifs with hc
        · right; exact ⟨t, rfl, hc.1, hc.2, rfl⟩
        · left; refine ⟨rfl, fun t' ht' => ?_⟩
          simp only [Option.some.injEq] at ht'; subst ht'; exact hc
    rcases step with ⟨e, hno⟩ | ⟨t0, ht0, hm, hle, e⟩
    · rw [e] at h1 h2 h3 ⊢
      refine ⟨h1, ?_, ?_⟩
      · intro p hp t ht hmt
        rcases List.mem_cons.mp hp with rfl | hp
        · right
          have := hno t ht
          by_contra hc
          exact this ⟨hmt, not_lt.mp hc⟩
        · exact h2 p hp t ht hmt
      · rcases h3 with ⟨h3, h4⟩ | ⟨p, hp, h3⟩
        · left
          refine ⟨h3, fun p hp => ?_⟩
          rcases List.mem_cons.mp hp with rfl | hp
          · exact hno
          · exact h4 p hp
        · right; exact ⟨p, by simp [hp], h3⟩
    · rw [e] at h1 h2 h3 ⊢
      simp only at h1 h2 h3
      refine ⟨h1.trans hle, ?_, ?_⟩
      · intro p hp t ht hmt
        rcases List.mem_cons.mp hp with rfl | hp
        · left
          rw [ht0, Option.some.injEq] at ht; subst ht; exact h1
        · rcases h2 p hp t ht hmt with h | h
          · exact Or.inl h
          · left; exact h1.trans h.le
      · right
        rcases h3 with ⟨h3, _⟩ | ⟨p, hp, t, h5, h6, h7, h8⟩
        · exact ⟨q, by simp, t0, ht0, hm, hle, h3⟩
        · exact ⟨p, by simp [hp], t, h5, h6, h7.trans hle, h8⟩

/-- **C38** (partial) The closest-hit query on a nonempty tree in any history, for a sound intersector and a direction without zero components: either
the stack overflow of C36 (only above 64 primitives), or the answer is the hit with the smallest parameter among all hits in
`[minT, maxT]`, and none exactly when there is no such hit. -/
theorem C38_closest_hit_partial (c : Nat) (hc : 1 ≤ c) (b : Bvh K) (h : BvhReachable c b) (hne : b.prims ≠ []) (big : K) (hbig : 0 ≤ big) (o d : Vec3 K)
    (hd : d.AllNonzero) (minT maxT : K) (hit : Nat → Option K) (hh : SoundHits b.prims big o d hit) :
    (triClosestHit b big o d minT maxT hit = some .ub ∧ 64 < b.prims.length) ∨
    (triClosestHit b big o d minT maxT hit = some (.ok none) ∧ ∀ p ∈ b.prims, ∀ t, hit p.id = some t → ¬ (minT ≤ t ∧ t ≤ maxT)) ∨
    ∃ p ∈ b.prims, ∃ t, triClosestHit b big o d minT maxT hit = some (.ok (some (t, p.id))) ∧ hit p.id = some t ∧ minT ≤ t ∧ t ≤ maxT ∧
      ∀ p' ∈ b.prims, ∀ t', hit p'.id = some t' → minT ≤ t' → t ≤ t' := by
  rcases C39_refit_keeps_containment c hc b h with ⟨h1, h2⟩ | ⟨t, _, p2, p3, p4, p5, p6⟩
  · exact absurd h2 hne
  · rw [← p3] at hh
    unfold triClosestHit rayQueryClosestHit
    rcases todoLoop_cases b kMaxStackDepth (fun nb => nb.intersectsBranchless big o d.cwiseInverse)
        (fun (s : Option (K × Nat) × K) p => .ok (closestHitStep hit minT s p.id)) (fun _ => false) t b.prims.length c (none, maxT) p2 p4 with h' | h'
    · left
      rw [h'.1, ← p3]
      exact ⟨rfl, h'.2⟩
    · right
      rw [h', runLeaves_fold (fun (s : Option (K × Nat) × K) (p : Box K) => closestHitStep hit minT s p.id)]
      obtain ⟨f1, f2, f3⟩ := closestHit_fold hit minT (t.leafLists fun nb => nb.intersectsBranchless big o d.cwiseInverse).flatten (none, maxT)
      have sub := (BvhTree.leafLists_subperm t fun nb => nb.intersectsBranchless big o d.cwiseInverse).subset
      rw [← p3]
      rcases f3 with ⟨e, hno⟩ | ⟨p, hp, x, hx, hm, hle, e⟩
      · left
        rw [e]
        refine ⟨rfl, fun p hp x hx => ?_⟩
        exact hno p (visited_of_hits p5 hbig hd hh hp hx) x hx
      · right
        refine ⟨p, sub hp, x, ?_, hx, hm, hle, ?_⟩
        · rw [e]; rfl
        · intro p' hp' t' ht' hmt
          rw [e] at f2
          rcases f2 p' (visited_of_hits p5 hbig hd hh hp' ht') t' ht' hmt with h | h
          · exact h
          · exact hle.trans h.le

omit [Field K] [LinearOrder K] [IsStrictOrderedRing K] in
theorem runLeaves_any (f : Box K → Bool) (A : List (List (Box K))) (s : Bool) :
    runLeaves (fun s => s) (fun s p => .ok (s || f p)) A s = .ok (s || A.flatten.any f) := by
  induction A generalizing s with
  | nil => simp [runLeaves]
  | cons a A ih =>
    have h1 : ∀ s, runLeaf (fun s p => Outcome.ok (s || f p)) s a = .ok (s || a.any f) := by
      unfold runLeaf
      induction a with
      | nil => simp
      | cons p a iha => intro s; rw [List.foldl_cons, Outcome.bind_ok, iha]; simp [Bool.or_assoc]
    rw [runLeaves, h1]
    cases s with
    | true => rfl
    | false => simp only [Bool.false_eq_true, if_false, Outcome.bind_ok, ih]; simp [Bool.or_assoc]

/-- **C38** (partial) The any-hit query is true exactly when some primitive is hit in `[minT, maxT]` (or the stack overflow of C36). -/
theorem C38_any_hit_partial (c : Nat) (hc : 1 ≤ c) (b : Bvh K) (h : BvhReachable c b) (hne : b.prims ≠ []) (big : K) (hbig : 0 ≤ big) (o d : Vec3 K)
    (hd : d.AllNonzero) (minT maxT : K) (hit : Nat → Option K) (hh : SoundHits b.prims big o d hit) :
    (triAnyHit b big o d minT maxT hit = some .ub ∧ 64 < b.prims.length) ∨
    ∃ r, triAnyHit b big o d minT maxT hit = some (.ok r) ∧
      (r = true ↔ ∃ p ∈ b.prims, ∃ t, hit p.id = some t ∧ minT ≤ t ∧ t ≤ maxT) := by
  rcases C39_refit_keeps_containment c hc b h with ⟨h1, h2⟩ | ⟨t, _, p2, p3, p4, p5, p6⟩
  · exact absurd h2 hne
  · rw [← p3] at hh
    unfold triAnyHit rayQueryAnyHit
    rcases todoLoop_cases b kMaxStackDepth (fun nb => nb.intersectsBranchless big o d.cwiseInverse)
        (fun (s : Bool) p => .ok (s || anyHitTest hit minT maxT p.id)) (fun s => s) t b.prims.length c false p2 p4 with h' | h'
    · left
      rw [h'.1, ← p3]
      exact ⟨rfl, h'.2⟩
    · right
      rw [h', runLeaves_any (fun p : Box K => anyHitTest hit minT maxT p.id)]
      refine ⟨_, rfl, ?_⟩
      rw [← p3, Bool.false_or, List.any_eq_true]
      have sub := (BvhTree.leafLists_subperm t fun nb => nb.intersectsBranchless big o d.cwiseInverse).subset
      constructor
      · rintro ⟨p, hp, ht⟩
        unfold anyHitTest at ht
        cases hx : hit p.id with
        | none => rw [hx] at ht; simp at ht
        | some x =>
          rw [hx] at ht
          simp only [decide_eq_true_iff] at ht
          exact ⟨p, sub hp, x, hx, ht⟩
      · rintro ⟨p, hp, x, hx, ht⟩
        refine ⟨p, visited_of_hits p5 hbig hd hh hp hx, ?_⟩
        unfold anyHitTest
        rw [hx]
        simpa using ht

/-- **C38** (partial) The all-hits query returns exactly the hits in `[minT, maxT]`, each primitive at most as often as it occurs (or the stack
overflow of C36). -/
theorem C38_all_hits_partial (c : Nat) (hc : 1 ≤ c) (b : Bvh K) (h : BvhReachable c b) (hne : b.prims ≠ []) (big : K) (hbig : 0 ≤ big) (o d : Vec3 K)
    (hd : d.AllNonzero) (minT maxT : K) (hit : Nat → Option K) (hh : SoundHits b.prims big o d hit) :
    (triAllHits b big o d minT maxT hit = some .ub ∧ 64 < b.prims.length) ∨
    ∃ r, triAllHits b big o d minT maxT hit = some (.ok r) ∧
      (∀ x i, (x, i) ∈ r ↔ ∃ p ∈ b.prims, p.id = i ∧ hit i = some x ∧ minT ≤ x ∧ x ≤ maxT) ∧
      (r.map (·.2)).Subperm (b.prims.map (·.id)) := by
  rcases C39_refit_keeps_containment c hc b h with ⟨h1, h2⟩ | ⟨t, _, p2, p3, p4, p5, p6⟩
  · exact absurd h2 hne
  · rw [← p3] at hh
    unfold triAllHits rayQueryClosestHit
    rcases todoLoop_cases b kMaxStackDepth (fun nb => nb.intersectsBranchless big o d.cwiseInverse)
        (fun (s : List (K × Nat)) p => .ok (allHitsStep hit minT maxT s p.id)) (fun _ => false) t b.prims.length c [] p2 p4 with h' | h'
    · left
      rw [h'.1, ← p3]
      exact ⟨rfl, h'.2⟩
    · right
      rw [h', runLeaves_fold (fun (s : List (K × Nat)) (p : Box K) => allHitsStep hit minT maxT s p.id)]
      set V := (t.leafLists fun nb => nb.intersectsBranchless big o d.cwiseInverse).flatten with hV
      have sub := BvhTree.leafLists_subperm t fun nb => nb.intersectsBranchless big o d.cwiseInverse
      have key : ∀ (l : List (Box K)) (acc : List (K × Nat)), ∃ r, l.foldl (fun s p => allHitsStep hit minT maxT s p.id) acc = acc ++ r ∧
          (∀ x i, (x, i) ∈ r ↔ ∃ p ∈ l, p.id = i ∧ hit i = some x ∧ minT ≤ x ∧ x ≤ maxT) ∧ (r.map (·.2)).Sublist (l.map (·.id)) := by
        intro l
        induction l with
        | nil => intro acc; exact ⟨[], by simp, by simp, by simp⟩
        | cons q l ih =>
          intro acc
          rw [List.foldl_cons]
          cases hq : hit q.id with
          | none =>
            have e : allHitsStep hit minT maxT acc q.id = acc := by unfold allHitsStep; rw [hq]
            rw [e]
            obtain ⟨r, h1, h2, h3⟩ := ih acc
            refine ⟨r, h1, fun x i => ?_, by simpa using h3.cons _⟩
            rw [h2]
            constructor
            · rintro ⟨p, hp, h⟩; exact ⟨p, by simp [hp], h⟩
            · rintro ⟨p, hp, rfl, hx, h⟩
              rcases List.mem_cons.mp hp with rfl | hp
              · rw [hq] at hx; simp at hx
              · exact ⟨p, hp, rfl, hx, h⟩
          | some y =>
            by_cases hy : minT ≤ y ∧ y ≤ maxT
            · have e : allHitsStep hit minT maxT acc q.id = acc ++ [(y, q.id)] := by
                unfold allHitsStep; rw [hq]; simp only; rw [if_pos hy]
              rw [e]
              obtain ⟨r, h1, h2, h3⟩ := ih (acc ++ [(y, q.id)])
              refine ⟨(y, q.id) :: r, by rw [h1]; simp, fun x i => ?_, h3.cons_cons _⟩
              rw [List.mem_cons, h2]
              constructor
              · rintro (h | ⟨p, hp, h⟩)
                · simp only [Prod.mk.injEq] at h
                  obtain ⟨rfl, rfl⟩ := h
                  exact ⟨q, by simp, rfl, hq, hy⟩
                · exact ⟨p, by simp [hp], h⟩
              · rintro ⟨p, hp, rfl, hx, h⟩
                rcases List.mem_cons.mp hp with rfl | hp
                · left; rw [hq, Option.some.injEq] at hx; rw [hx]
                · right; exact ⟨p, hp, rfl, hx, h⟩
            · have e : allHitsStep hit minT maxT acc q.id = acc := by
                unfold allHitsStep; rw [hq]; simp only; rw [if_neg hy]
              rw [e]
              obtain ⟨r, h1, h2, h3⟩ := ih acc
              refine ⟨r, h1, fun x i => ?_, by simpa using h3.cons _⟩
              rw [h2]
              constructor
              · rintro ⟨p, hp, h⟩; exact ⟨p, by simp [hp], h⟩
              · rintro ⟨p, hp, rfl, hx, h⟩
                rcases List.mem_cons.mp hp with rfl | hp
                · rw [hq, Option.some.injEq] at hx; rw [← hx] at h; exact absurd h hy
                · exact ⟨p, hp, rfl, hx, h⟩
      obtain ⟨r, h1, h2, h3⟩ := key V []
      rw [h1, List.nil_append]
      refine ⟨r, rfl, fun x i => ?_, ?_⟩
      · rw [h2, ← p3]
        constructor
        · rintro ⟨p, hp, h⟩; exact ⟨p, sub.subset hp, h⟩
        · rintro ⟨p, hp, rfl, hx, h⟩; exact ⟨p, visited_of_hits p5 hbig hd hh hp hx, rfl, hx, h⟩
      · rw [← p3]
        exact h3.subperm.trans (subperm_map _ sub)

end

/-- Non-vacuity of C38: a tree over two unit boxes, projections to their centres, hits at the points where the diagonal ray enters them. -/
example : ∃ b : Bvh ℚ, BvhReachable 1 b ∧ b.prims ≠ [] ∧ (∀ p ∈ b.prims, p.HasPoint (if p.id = 10 then ⟨1/2, 1/2, 1/2⟩ else ⟨11/2, 11/2, 11/2⟩)) ∧
    SoundHits b.prims 100 ⟨-1, -1, -1⟩ ⟨1, 1, 1⟩ (fun i => if i = 10 then some 1 else some 6) ∧ (⟨1, 1, 1⟩ : Vec3 ℚ).AllNonzero := by
  obtain ⟨b, h1, h2⟩ := C35_build_small 1 le_rfl
    ([⟨⟨0, 0, 0⟩, ⟨1, 1, 1⟩, 10⟩, ⟨⟨5, 5, 5⟩, ⟨6, 6, 6⟩, 11⟩] : List (Box ℚ)) (by simp)
  refine ⟨b, .build _ b (by simp [kRootParentIndex]) h1, ?_, ?_, ?_, ⟨by norm_num, by norm_num, by norm_num⟩⟩
  · intro h
    have := h2.length_eq
    simp [h] at this
  · intro p hp
    have := h2.subset hp
    simp only [List.mem_cons, List.not_mem_nil, or_false] at this
    rcases this with rfl | rfl <;> intro d <;> fin_cases d <;> norm_num [Vec3.get]
  · intro p hp t ht
    have := h2.subset hp
    simp only [List.mem_cons, List.not_mem_nil, or_false] at this
    rcases this with rfl | rfl
    · simp at ht; subst ht
      refine ⟨by norm_num, by norm_num, fun d => ?_⟩
      fin_cases d <;> norm_num [Vec3.get]
    · simp at ht; subst ht
      refine ⟨by norm_num, by norm_num, fun d => ?_⟩
      fin_cases d <;> norm_num [Vec3.get]

end Momentum
