import Verif.Lemmas.BvhRefit
import Verif.Lemmas.BvhConst
import Verif.Props.BoundingBox

/-!
# C35, C36, C39: building, querying and refitting bounding volume hierarchies
-/

namespace Momentum
section
variable {K : Type} [Field K] [LinearOrder K] [IsStrictOrderedRing K]

/-! ## C35 -/

/-- **C35** (partial) Building from any list of boxes either overflows the 128-entry work stack, which is possible only with more than
128 boxes, or terminates with arrays that hold a binary tree: the primitives are a permutation of the given ones, the leaves from left to
right are exactly the primitives array, no leaf is empty or above capacity, every node box is the hull of the primitives below it, and
the node array has exactly one entry per tree node. The unrestricted claim is false: `C35_build_stack_overflow`. -/
theorem C35_build_partial (c : Nat) (hc : 1 ≤ c) (prims : List (Box K)) (hn : 2 * prims.length < kRootParentIndex) :
    (bvhBuild c kBuildStack prims = some .ub ∧ 128 < prims.length) ∨
    ∃ b, bvhBuild c kBuildStack prims = some (.ok b) ∧ b.prims.Perm prims ∧ (prims = [] → b.flat = []) ∧
      (prims ≠ [] → ∃ t, Packed b t 0 0 prims.length ∧ Holds b t 0 0 prims.length ∧ t.prims = b.prims ∧ t.LeavesWithin c ∧ t.Tight ∧
        b.flat.length = t.size) := by
  by_cases hp : prims = []
  · subst hp
    right
    exact ⟨⟨[], []⟩, by simp [bvhBuild], List.Perm.refl _, fun _ => rfl, fun h => absurd rfl h⟩
  · have hpos : 0 < prims.length := List.length_pos_of_ne_nil hp
    have hmod : prims.length % 2 ^ 32 = prims.length := Nat.mod_eq_of_lt (by unfold kRootParentIndex at hn; omega)
    have hb : bvhBuild c kBuildStack prims = (buildLoop c kBuildStack ⟨prims, [], [⟨kRootParentIndex, 0, prims.length⟩]⟩).map
        fun r => r.bind fun st => .ok ⟨st.flat, st.prims⟩ := by
      unfold bvhBuild; rw [if_neg hp, hmod]
    rcases buildLoop_entry c kBuildStack hc prims.length prims [] kRootParentIndex 0 prims.length [] (by omega) hpos le_rfl (Or.inl rfl)
      (by simpa using hn) with h | ⟨prims', new, t, h1, h2, h3, h4, h5, h6, h7, h8⟩
    · left
      rw [hb, h.1]
      have := h.2
      unfold kBuildStack at this
      exact ⟨rfl, by simpa using this⟩
    · right
      have ht : touch ([] : List (BvhNode K)) kRootParentIndex = [] := by
        have := touch_length ([] : List (BvhNode K)) kRootParentIndex
        exact List.eq_nil_of_length_eq_zero this
      rw [ht, List.nil_append] at h1 h6
      refine ⟨⟨new, prims'⟩, ?_, h2, fun h => absurd h hp, fun _ => ⟨t, h6, h6.holds, ?_, h7, h8, h4⟩⟩
      · rw [hb, h1, buildLoop]
        rfl
      · have := (holds_prims h6.holds).2.2
        rw [this]
        unfold slice
        simp [← h2.length_eq]

/-- **C35** up to 128 boxes the build always succeeds, whatever the boxes. -/
theorem C35_build_small (c : Nat) (hc : 1 ≤ c) (prims : List (Box K)) (hn : prims.length ≤ 128) :
    ∃ b, bvhBuild c kBuildStack prims = some (.ok b) ∧ b.prims.Perm prims := by
  rcases C35_build_partial c hc prims (by unfold kRootParentIndex; omega) with h | ⟨b, h1, h2, _⟩
  · omega
  · exact ⟨b, h1, h2⟩

end

/-- **C35** counterexample: 129 points at `1, 2, 4, …, 2¹²⁸` overflow the work stack of the build (leaf capacity 1). -/
theorem C35_build_stack_overflow : bvhBuild 1 kBuildStack (doubling 129) = some .ub := by
  have hl : (doubling 129).length = 129 := by simp [doubling]
  unfold bvhBuild
  rw [if_neg (by intro h; rw [h] at hl; simp at hl), hl]
  have := buildLoop_doubling kBuildStack (doubling 129) 129 [] kRootParentIndex [] (by omega) (by simp [kBuildStack]) (Or.inl rfl)
    (by
      intro k hk
      unfold doubling
      rw [List.getElem?_map, List.getElem?_range hk]; rfl)
  rw [show 129 % 2 ^ 32 = 129 by norm_num, this]
  rfl

section
variable {K : Type} [Field K] [LinearOrder K] [IsStrictOrderedRing K]

/-! ## C39 -/

/-- **C39** every tree object in any history of moves and refits is either empty or holds a tree whose leaves are exactly its current
primitives and in which every node box contains the boxes of all primitives below it. -/
theorem C39_refit_keeps_containment (c : Nat) (hc : 1 ≤ c) (b : Bvh K) (h : BvhReachable c b) :
    (b.flat = [] ∧ b.prims = []) ∨
    ∃ t, Packed b t 0 0 b.prims.length ∧ Holds b t 0 0 b.prims.length ∧ t.prims = b.prims ∧ t.LeavesWithin c ∧ t.Bounds ∧
      b.flat.length = t.size := by
  induction h with
  | build prims b hn hb =>
    rcases C35_build_partial c hc prims hn with h | ⟨b', h1, h2, h3, h4⟩
    · rw [h.1] at hb; simp at hb
    · rw [h1] at hb
      simp only [Option.some.injEq, Outcome.ok.injEq] at hb
      subst hb
      by_cases hp : prims = []
      · left
        subst hp
        exact ⟨h3 rfl, List.perm_nil.mp h2⟩
      · right
        obtain ⟨t, p1, p2, p3, p4, p5, p6⟩ := h4 hp
        rw [← h2.length_eq] at p1 p2
        exact ⟨t, p1, p2, p3, p4, p5.bounds, p6⟩
  | refit b moved b' hb hl hr ih =>
    rcases ih with ⟨h1, h2⟩ | ⟨t, p1, p2, p3, p4, p5, p6⟩
    · left
      unfold bvhRefit at hr
      rw [h1] at hr
      simp at hr
      subst hr
      rw [h2] at hl
      exact ⟨rfl, List.eq_nil_of_length_eq_zero (by simpa using hl)⟩
    · right
      obtain ⟨t1, q1, q2, q3, q4⟩ := Packed.moved (new := moved) p1 hl p4
      obtain ⟨nodes', t2, r1, r2, r3, r4, r5, r6, r7, r8, r9⟩ := refitRecurse_ok moved c t1 b.flat 0 0 b.prims.length q1 q4
      unfold bvhRefit at hr
      have hpos := t.size_pos
      rw [if_neg (by simp only; omega)] at hr
      simp only [r1, Option.map_some, Option.some.injEq] at hr
      subst hr
      simp only
      rw [hl]
      refine ⟨t2, r4, r4.holds, ?_, r7, r8, by omega⟩
      rw [(holds_prims r4.holds).2.2]
      unfold slice
      simp [← hl]

/-- **C39** refitting never fails, in any history. -/
theorem C39_refit_total (c : Nat) (hc : 1 ≤ c) (b : Bvh K) (h : BvhReachable c b) (moved : List (Box K)) (hl : moved.length = b.prims.length) :
    ∃ b', bvhRefit ⟨b.flat, moved⟩ = some b' ∧ b'.prims = moved := by
  rcases C39_refit_keeps_containment c hc b h with ⟨h1, h2⟩ | ⟨t, p1, p2, p3, p4, p5, p6⟩
  · exact ⟨⟨b.flat, moved⟩, by simp [bvhRefit, h1], rfl⟩
  · obtain ⟨t1, q1, q2, q3, q4⟩ := Packed.moved (new := moved) p1 hl p4
    obtain ⟨nodes', t2, r1, r2, r3, r4, r5, r6, r7, r8, r9⟩ := refitRecurse_ok moved c t1 b.flat 0 0 b.prims.length q1 q4
    have hpos := t.size_pos
    refine ⟨⟨nodes', moved⟩, ?_, rfl⟩
    unfold bvhRefit
    rw [if_neg (by simp only; omega), r1]
    rfl

/-! ## C36 -/

omit [IsStrictOrderedRing K] in
/-- Overlapping boxes pass the box test of every box around them. -/
theorem intersects_of_overlap {a p q : Box K} (h : a.Includes p) (ho : p.Overlap q) : a.intersects q = true := by
  obtain ⟨x, h1, h2⟩ := ho
  unfold Box.intersects
  have e : ∀ d : Fin 3, a.min.get d ≤ q.max.get d ∧ q.min.get d ≤ a.max.get d := fun d =>
    ⟨(h d).1.trans ((h1 d).1.trans (h2 d).2), (h2 d).1.trans ((h1 d).2.trans (h d).2)⟩
  have e0 := e 0; have e1 := e 1; have e2 := e 2
  simp only [Vec3.get] at e0 e1 e2
  simp_all

omit [Field K] [LinearOrder K] [IsStrictOrderedRing K] in
theorem subperm_map {α β : Type} {l₁ l₂ : List α} (f : α → β) (h : l₁.Subperm l₂) : (l₁.map f).Subperm (l₂.map f) := by
  obtain ⟨l, h1, h2⟩ := h
  exact ⟨l.map f, h1.map f, h2.map f⟩

/-- Specification: `hits` is a correct answer to a box query over the primitives `ps`: every primitive whose box overlaps the query box
is in it, and nothing is in it more often than among the primitives. -/
def AnswersBoxQuery (ps : List (Box K)) (box : Box K) (hits : List Nat) : Prop :=
  (∀ p ∈ ps, p.Overlap box → p.id ∈ hits) ∧ hits.Subperm (ps.map (·.id))

omit [IsStrictOrderedRing K] in
theorem answers_of_tree {t : BvhTree K} (h : t.Bounds) (box : Box K) :
    AnswersBoxQuery t.prims box ((t.leafLists fun nb => nb.intersects box).flatten.map (·.id)) := by
  constructor
  · intro p hp ho
    exact List.mem_map.mpr ⟨p, BvhTree.mem_leafLists h _ hp (fun bb hbb => intersects_of_overlap hbb ho), rfl⟩
  · exact subperm_map _ (BvhTree.leafLists_subperm t _)

/-- **C36** (partial) On a tree in any history a box query terminates; either it overflows its 64-entry stack, which needs more than 64
primitives, or it reports the id of every primitive whose box overlaps the query box, and reports nothing more often than it occurs among
the primitives (so with distinct ids nothing is reported twice). False without the first case: `C36_query_stack_overflow`. -/
theorem C36_query_box_partial (c : Nat) (hc : 1 ≤ c) (b : Bvh K) (h : BvhReachable c b) (box : Box K) :
    (queryBox b box = some .ub ∧ 64 < b.prims.length) ∨ ∃ hits, queryBox b box = some (.ok hits) ∧ AnswersBoxQuery b.prims box hits := by
  rcases C39_refit_keeps_containment c hc b h with ⟨h1, h2⟩ | ⟨t, _, p2, p3, p4, p5, p6⟩
  · right
    exact ⟨[], by simp [queryBox, h1], by simp [AnswersBoxQuery, h2]⟩
  · have hpos := t.size_pos
    have hq : queryBox b box = todoLoop b kMaxStackDepth (fun nb => nb.intersects box) (fun hits p => .ok (hits ++ [p.id]))
        (fun _ => false) [0] [] := by unfold queryBox; rw [if_neg (by omega)]
    rcases todoLoop_cases b kMaxStackDepth (fun nb => nb.intersects box) (fun (hits : List Nat) p => .ok (hits ++ [p.id])) (fun _ => false) t
      b.prims.length c [] p2 p4 with h' | h'
    · left
      rw [hq, ← p3]; exact h'
    · right
      rw [h', runLeaves_fold (fun (hits : List Nat) (p : Box K) => hits ++ [p.id])] at hq
      have key : ∀ (l : List (Box K)) (acc : List Nat), l.foldl (fun hits p => hits ++ [p.id]) acc = acc ++ l.map (·.id) := by
        intro l; induction l with
        | nil => simp
        | cons q l ih => intro acc; rw [List.foldl_cons, ih]; simp
      rw [key, List.nil_append] at hq
      refine ⟨_, hq, ?_⟩
      rw [← p3]; exact answers_of_tree p5 box

/-- **C36** with distinct ids and at most 64 primitives a box query always answers, reporting no id twice. -/
theorem C36_query_box_small (c : Nat) (hc : 1 ≤ c) (b : Bvh K) (h : BvhReachable c b) (box : Box K) (hn : b.prims.length ≤ 64)
    (hd : (b.prims.map (·.id)).Nodup) :
    ∃ hits, queryBox b box = some (.ok hits) ∧ hits.Nodup ∧ ∀ p ∈ b.prims, p.Overlap box → p.id ∈ hits := by
  rcases C36_query_box_partial c hc b h box with h' | ⟨hits, h1, h2, l, h3, h4⟩
  · omega
  · exact ⟨hits, h1, h3.nodup_iff.mp (h4.nodup hd), h2⟩

/-- **C36** (partial) The buffered box query, when leaves hold one primitive or the buffer has room for all primitives: either the
stack overflow case, or it writes the first `size` entries of a correct answer and never past the buffer. For larger leaves it can write
past the buffer: `C36_buffer_overrun`. -/
theorem C36_query_buffer_partial (c : Nat) (hc : 1 ≤ c) (b : Bvh K) (h : BvhReachable c b) (box : Box K) (size : Nat)
    (hs : c = 1 ∨ b.prims.length ≤ size) :
    (queryBoxBuffer b box size = some .ub ∧ 64 < b.prims.length) ∨
    ∃ hits, queryBoxBuffer b box size = some (.ok (hits.take size)) ∧ AnswersBoxQuery b.prims box hits := by
  rcases C39_refit_keeps_containment c hc b h with ⟨h1, h2⟩ | ⟨t, _, p2, p3, p4, p5, p6⟩
  · right
    exact ⟨[], by simp [queryBoxBuffer, h1], by simp [AnswersBoxQuery, h2]⟩
  · have hpos := t.size_pos
    have hq : queryBoxBuffer b box size = todoLoop b kMaxStackDepth (fun nb => nb.intersects box)
        (fun hits p => if hits.length < size then .ok (hits ++ [p.id]) else .ub)
        (fun hits => decide (size ≤ hits.length)) [0] [] := by unfold queryBoxBuffer; rw [if_neg (by omega)]
    rcases todoLoop_cases b kMaxStackDepth (fun nb => nb.intersects box)
        (fun (hits : List Nat) p => if hits.length < size then .ok (hits ++ [p.id]) else .ub)
        (fun hits => decide (size ≤ hits.length)) t b.prims.length c [] p2 p4 with h' | h'
    · left
      rw [hq, ← p3]; exact h'
    · right
      refine ⟨_, ?_, p3 ▸ answers_of_tree p5 box⟩
      rw [hq, h']
      congr 1
      have := runLeaves_buffer_ok size (t.leafLists fun nb => nb.intersects box) [] (by simp) ?_
      · rw [this, List.nil_append]
      · rcases hs with rfl | hs
        · left
          intro ps hps
          have := BvhTree.leafLists_mem_length p4 _ ps hps
          omega
        · right
          have := (BvhTree.leafLists_subperm t fun nb => nb.intersects box).length_le
          rw [p3] at this
          simp only [List.length_nil]; omega

/-- **C36** (partial) The ray query on a nonempty tree over nonempty boxes, for directions without zero components: either the stack
overflow case, or exactly the primitives whose box the ray meets are reported, none more often than it occurs. On an empty tree the query
reads out of range: `C36_ray_empty_tree`. -/
theorem C36_query_ray_partial (c : Nat) (hc : 1 ≤ c) (b : Bvh K) (h : BvhReachable c b) (o d : Vec3 K) (hd : d.AllNonzero)
    (hne : b.prims ≠ []) (hp : ∀ p ∈ b.prims, p.Proper) :
    (queryRay b o d = some .ub ∧ 64 < b.prims.length) ∨
    ∃ hits, queryRay b o d = some (.ok hits) ∧ (∀ p ∈ b.prims, RayMeets p o d → p.id ∈ hits) ∧
      (∀ i ∈ hits, ∃ p ∈ b.prims, p.id = i ∧ RayMeets p o d) ∧ hits.Subperm (b.prims.map (·.id)) := by
  rcases C39_refit_keeps_containment c hc b h with ⟨h1, h2⟩ | ⟨t, _, p2, p3, p4, p5, p6⟩
  · exact absurd h2 hne
  · have hq : queryRay b o d = todoLoop b kMaxStackDepth (fun nb => nb.intersectsRay o d)
      (fun hits p => .ok (if p.intersectsRay o d then hits ++ [p.id] else hits)) (fun _ => false) [0] [] := rfl
    rcases todoLoop_cases b kMaxStackDepth (fun nb => nb.intersectsRay o d)
        (fun (hits : List Nat) p => .ok (if p.intersectsRay o d then hits ++ [p.id] else hits)) (fun _ => false) t
        b.prims.length c [] p2 p4 with h' | h'
    · left
      rw [hq, ← p3]; exact h'
    · right
      rw [h', runLeaves_fold (fun (hits : List Nat) (p : Box K) => if p.intersectsRay o d then hits ++ [p.id] else hits)] at hq
      have key : ∀ (l : List (Box K)) (acc : List Nat), l.foldl (fun hits p => if p.intersectsRay o d then hits ++ [p.id] else hits) acc
          = acc ++ (l.filter fun p => p.intersectsRay o d).map (·.id) := by
        intro l; induction l with
        | nil => simp
        | cons q l ih =>
          intro acc
          rw [List.foldl_cons, ih]
          by_cases hh : q.intersectsRay o d <;> simp [hh]
      rw [key, List.nil_append] at hq
      have sub := BvhTree.leafLists_subperm t fun nb => nb.intersectsRay o d
      rw [p3] at sub
      refine ⟨_, hq, ?_, ?_, ?_⟩
      · intro p hpm hm
        have hit := (C40_intersects_ray p o d (hp p hpm) hd).mpr hm
        refine List.mem_map.mpr ⟨p, List.mem_filter.mpr ⟨?_, hit⟩, rfl⟩
        exact BvhTree.mem_leafLists p5 _ (by rwa [p3]) (fun bb hbb => C40_monotone bb p hbb o d hd (hp p hpm) hit)
      · intro i hi
        obtain ⟨p, h1, h2⟩ := List.mem_map.mp hi
        obtain ⟨h3, h4⟩ := List.mem_filter.mp h1
        have hm := sub.subset h3
        exact ⟨p, hm, h2, (C40_intersects_ray p o d (hp p hm) hd).mp h4⟩
      · exact subperm_map _ ((List.filter_sublist.subperm).trans sub)

end

/-- **C36** counterexample: 65 points at `-2⁶⁴, …, -2, -1` build fine, but a box query covering them overflows the 64-entry stack. -/
theorem C36_query_stack_overflow : ∃ b, bvhBuild 1 kBuildStack (halving 65) = some (.ok b) ∧
    queryBox b ⟨⟨-2 ^ 64, 0, 0⟩, ⟨0, 0, 0⟩, 0⟩ = some .ub := by
  have hl : (halving 65).length = 65 := by simp [halving]
  refine ⟨⟨combNodes 65 64, halving 65⟩, ?_, ?_⟩
  · unfold bvhBuild
    rw [if_neg (by intro h; rw [h] at hl; simp at hl), hl]
    have := buildLoop_comb kBuildStack 65 (halving 65) (by simp [kBuildStack])
      (by
        intro k hk
        unfold halving
        rw [List.getElem?_map, List.getElem?_range hk]; rfl) (by unfold kRootParentIndex; omega) 64 [] kRootParentIndex (by omega) (Or.inl rfl)
      (by simp)
    rw [show 65 % 2 ^ 32 = 65 by norm_num]
    rw [show 65 - 1 - 64 = 0 by norm_num] at this
    have ht : touch ([] : List (BvhNode ℚ)) kRootParentIndex = [] := by
      have := touch_length ([] : List (BvhNode ℚ)) kRootParentIndex
      exact List.eq_nil_of_length_eq_zero this
    rw [this, ht, List.nil_append, buildLoop]
    rfl
  · unfold queryBox
    rw [if_neg (by simp [combNodes])]
    exact todoLoop_comb ⟨combNodes 65 64, halving 65⟩ kMaxStackDepth 65 _ _ (by decide +kernel) 64 [] [] [] rfl (by omega) (by simp [kMaxStackDepth])

/-- **C36** counterexample: with leaf capacity 4 or 8 and 513 coinciding boxes the buffered query writes past its 512-entry buffer. -/
theorem C36_buffer_overrun (c : Nat) (hc : c = 4 ∨ c = 8) : ∃ b, bvhBuild c kBuildStack (coinciding 513) = some (.ok b) ∧
    queryBoxBuffer b (xBox 0 0) 512 = some .ub := by
  have hl : (coinciding 513).length = 513 := by simp [coinciding]
  have hp : ∀ k < (coinciding 513).length, (coinciding 513)[k]? = some (xBox 0 k) := by
    intro k hk
    rw [hl] at hk
    unfold coinciding
    rw [List.getElem?_map, List.getElem?_range hk]; rfl
  have ht : touch ([] : List (BvhNode ℚ)) kRootParentIndex = [] := by
    have := touch_length ([] : List (BvhNode ℚ)) kRootParentIndex
    exact List.eq_nil_of_length_eq_zero this
  obtain ⟨new, t, h1, h2, h3, h4, h5, h6, _⟩ := buildLoop_coinciding c kBuildStack (by omega) (coinciding 513) hp
    (fun nb => nb.intersects (xBox 0 0)) (by intro id; simp [Box.intersects, xBox]) 10 513 [] kRootParentIndex 0 513 [] (by norm_num) rfl (by omega)
    (by omega) (Or.inl rfl) (by simp [kRootParentIndex]) (by simp [kBuildStack])
  rw [ht, List.nil_append] at h1 h4
  refine ⟨⟨new, coinciding 513⟩, ?_, ?_⟩
  · unfold bvhBuild
    rw [if_neg (by intro h; rw [h] at hl; simp at hl), hl, show 513 % 2 ^ 32 = 513 by norm_num, h1, buildLoop]
    simp only [Option.map_some, Outcome.bind_ok]
  · unfold queryBoxBuffer
    have := t.size_pos
    rw [if_neg (by simp only; omega)]
    rw [todoLoop_root _ _ _ _ _ t 513 [] h4.holds (by unfold kMaxStackDepth; omega)]
    rw [runLeaves_buffer_overrun 512 _ _ ?_]
    rw [h5]
    rcases hc with rfl | rfl <;> decide +kernel

/-- **C36** counterexample: the ray query on an empty tree reads out of range. -/
theorem C36_ray_empty_tree (o d : Vec3 ℚ) : bvhBuild 1 kBuildStack ([] : List (Box ℚ)) = some (.ok ⟨[], []⟩) ∧
    queryRay (⟨[], []⟩ : Bvh ℚ) o d = some .ub := by
  refine ⟨by simp [bvhBuild], ?_⟩
  unfold queryRay
  rw [todoLoop]
  rfl

/-- Non-vacuity: three boxes, built, moved and refit; the hypotheses of C36 and C39 hold for the result. -/
example : ∃ b b' : Bvh ℚ, bvhBuild 1 kBuildStack [⟨⟨0, 0, 0⟩, ⟨1, 1, 1⟩, 10⟩, ⟨⟨5, 0, 0⟩, ⟨6, 1, 1⟩, 11⟩, ⟨⟨2, 0, 0⟩, ⟨3, 1, 1⟩, 12⟩] = some (.ok b) ∧
    bvhRefit ⟨b.flat, b.prims.map fun p => { p with min := p.min + ⟨1, 1, 1⟩, max := p.max + ⟨1, 1, 1⟩ }⟩ = some b' ∧ BvhReachable 1 b' ∧
    b'.prims ≠ [] := by
  obtain ⟨b, h1, h2⟩ := C35_build_small 1 le_rfl
    ([⟨⟨0, 0, 0⟩, ⟨1, 1, 1⟩, 10⟩, ⟨⟨5, 0, 0⟩, ⟨6, 1, 1⟩, 11⟩, ⟨⟨2, 0, 0⟩, ⟨3, 1, 1⟩, 12⟩] : List (Box ℚ)) (by simp)
  have hb : BvhReachable 1 b := .build _ b (by simp [kRootParentIndex]) h1
  obtain ⟨b', h3, h4⟩ := C39_refit_total 1 le_rfl b hb (b.prims.map fun p => { p with min := p.min + ⟨1, 1, 1⟩, max := p.max + ⟨1, 1, 1⟩ })
    (by simp)
  refine ⟨b, b', h1, h3, .refit b _ b' hb (by simp) h3, ?_⟩
  rw [h4]
  intro h
  have := h2.length_eq
  have h' : b.prims.length = 0 := by simpa using congrArg List.length h
  simp [h'] at this

end Momentum
