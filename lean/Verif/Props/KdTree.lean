import Verif.Lemmas.KdQuery
import Verif.Spec.KdTree
import Mathlib.Data.List.Sort

/-!
# C45: the k-d tree
-/

namespace Momentum

section
variable {K : Type} [Field K] [LinearOrder K] [IsStrictOrderedRing K] {n P : Nat} [NeZero n]

/-- The points with their positions. -/
theorem mem_indexed (points : List (Fin n → K)) (i : Nat) (p : Fin n → K) :
    (i, p) ∈ (points.zipIdx.map fun p => (p.2, p.1)) ↔ points[i]? = some p := by
  rw [List.mem_map]
  constructor
  · rintro ⟨⟨x, j⟩, h, e⟩
    simp only [Prod.mk.injEq] at e
    obtain ⟨rfl, rfl⟩ := e
    exact List.mem_zipIdx_iff_getElem?.1 h
  · intro h
    exact ⟨(p, i), List.mem_zipIdx_iff_getElem?.2 h, rfl⟩

theorem kdInit_spec (lib : StdAlgorithms (KdPoint K n) K) (hP : 0 < P) (far : K) (points normals : List (Fin n → K))
    (colors : List (Fin 4 → K)) (hn : normals = [] ∨ normals.length = points.length)
    (hc : colors = [] ∨ colors.length = points.length) :
    ∃ t, kdInit P lib far points normals colors = .ok t ∧ t.numPoints = points.length ∧ t.depth ≤ kdMaxDepth ∧
      t.hasNormals = decide (points.length = normals.length) ∧ t.hasColors = decide (colors ≠ []) ∧
      (points ≠ [] → ∃ sh : KdShape K n, sh.Good ∧ sh.Held far normals colors t.nodes t.blocks 0 t.root ∧
        sh.height ≤ kdMaxDepth ∧ sh.points.Perm (points.zipIdx.map fun p => (p.2, p.1))) := by
  unfold kdInit
  rw [if_neg (not_not.2 hn), if_neg (not_not.2 hc)]
  by_cases h0 : points = []
  · refine ⟨_, if_pos h0, by simp [h0], Nat.zero_le _, rfl, rfl, fun h => absurd h0 h⟩
  · obtain ⟨st', id, sh, e, g⟩ := kdSplit_spec lib hP far normals colors kdMaxDepth
      (points.zipIdx.map fun p => (p.2, p.1)) ⟨[], [], 0⟩ le_rfl (by simpa using h0)
    dsimp only
    rw [if_neg h0, e]
    exact ⟨_, rfl, rfl, g.depth (Nat.zero_le _), rfl, rfl, fun _ => ⟨sh, g.good, g.held, g.height, g.perm⟩⟩

/-- **C45** The constructor accepts any points, with no or as many normals and colours as points: it neither fails nor has
undefined behaviour, whatever the standard library's `partition` and `nth_element` do within their contract, for every
packet width, and the depth of the tree is at most the maximum; with a wrong number of normals or colours it throws. -/
theorem C45_build (lib : StdAlgorithms (KdPoint K n) K) (hP : 0 < P) (far : K) (points normals : List (Fin n → K))
    (colors : List (Fin 4 → K)) :
    ((normals = [] ∨ normals.length = points.length) ∧ (colors = [] ∨ colors.length = points.length) →
      ∃ t, kdInit P lib far points normals colors = .ok t ∧ t.numPoints = points.length ∧ t.depth ≤ 20) ∧
    (¬ ((normals = [] ∨ normals.length = points.length) ∧ (colors = [] ∨ colors.length = points.length)) →
      kdInit P lib far points normals colors = .throws) := by
  refine ⟨fun h => ?_, fun h => ?_⟩
  · obtain ⟨t, e, h1, h2, -⟩ := kdInit_spec lib hP far points normals colors h.1 h.2
    exact ⟨t, e, h1, h2⟩
  · unfold kdInit
    rw [not_and_or] at h
    by_cases h1 : normals = [] ∨ normals.length = points.length
    · rw [if_neg (not_not.2 h1), if_pos (h.resolve_left (not_not.2 h1))]
    · rw [if_pos h1]

theorem kdInit_sizes {lib : StdAlgorithms (KdPoint K n) K} {far : K} {points normals : List (Fin n → K)}
    {colors : List (Fin 4 → K)} {t : KdTree K n P} (h : kdInit P lib far points normals colors = .ok t) :
    (normals = [] ∨ normals.length = points.length) ∧ (colors = [] ∨ colors.length = points.length) := by
  unfold kdInit at h
  split_ifs at h with h1 h2
  all_goals exact ⟨h1, h2⟩

theorem closest_general {lib : StdAlgorithms (KdPoint K n) K} (hP : 0 < P) {far : K} {points normals : List (Fin n → K)}
    {colors : List (Fin 4 → K)} {t : KdTree K n P} (ht : kdInit P lib far points normals colors = .ok t) (q : Fin n → K)
    (maxSqrDist : K) (mask : KdLane K n → Bool) (skip : Bool) (ok : Nat → Prop)
    (hok : ∀ i p, points[i]? = some p → (ok i ↔ mask (kdPointLane normals colors (i, p)) = true))
    (hpad : mask (kdPad far) = false ∨ maxSqrDist ≤ kdSqDist (fun _ => far) q ∨
      ((∀ i p, points[i]? = some p → ok i → kdSqDist p q < kdSqDist (fun _ => far) q) ∧
        (skip = true ∨ ∀ i < points.length, ok i))) :
    ∃ r, kdClosest t q maxSqrDist mask skip = some (.ok r) ∧ IsClosestPoint points ok q maxSqrDist r := by
  obtain ⟨hn, hc⟩ := kdInit_sizes ht
  obtain ⟨t', e, h1, -, -, -, h2⟩ := kdInit_spec lib hP far points normals colors hn hc
  rw [ht] at e
  obtain rfl : t = t' := by injection e
  unfold kdClosest
  by_cases h0 : points = []
  · rw [if_pos (by rw [h1, h0]; rfl)]
    refine ⟨_, rfl, Or.inl ⟨rfl, rfl, ?_⟩⟩
    intro i p hi; simp [h0] at hi
  · obtain ⟨sh, g1, g2, g3, g4⟩ := h2 h0
    have hmem : ∀ x, x ∈ sh.points ↔ points[x.1]? = some x.2 := fun x => by
      rw [g4.mem_iff, ← mem_indexed]
    rw [if_neg (by rw [h1]; simpa using h0)]
    obtain ⟨s', e', i1, i2, i3⟩ := tree_closest hP far normals colors q mask skip maxSqrDist t 0 sh t.root []
      (none, maxSqrDist) g1 g2 (by simp [kdStackSize]; omega) (by
        rcases hpad with h | h | ⟨h, h'⟩
        · exact Or.inl h
        · exact Or.inr (Or.inl h)
        · refine Or.inr (Or.inr ⟨?_, h'.imp id ?_⟩)
          · intro x hx hm
            exact h x.1 x.2 ((hmem x).1 hx) ((hok _ _ ((hmem x).1 hx)).2 hm)
          · intro hall x hx
            have := (hmem x).1 hx
            exact (hok _ _ this).1 (hall x.1 (List.getElem?_eq_some_iff.1 this).1)) le_rfl
    rw [e', kdLoop]
    rcases i3 with rfl | ⟨x, hx, hm, rfl, hlt⟩
    · refine ⟨_, rfl, Or.inl ⟨rfl, rfl, fun i p hi hk => ?_⟩⟩
      exact i2 (i, p) ((hmem _).2 hi) ((hok i p hi).1 hk)
    · have hxp := (hmem x).1 hx
      have hlt' : x.1 < t.numPoints := by rw [h1]; exact (List.getElem?_eq_some_iff.1 hxp).1
      refine ⟨(some x.1, kdSqDist x.2 q), ?_, Or.inr ⟨x.1, x.2, rfl, hxp, (hok _ _ hxp).2 hm, rfl, hlt, ?_⟩⟩
      · simp only [Option.map_some, Outcome.bind, if_pos hlt']
      · intro j p' hj hk
        exact i2 (j, p') ((hmem _).2 hj) ((hok j p' hj).1 hk)

/-- **C45** `closestPoint` on any tree the constructor makes, for any query and radius: it ends normally, without overrunning
its stack or failing a check, with a point of minimal distance among all points, or "not found" exactly if no point is
strictly within the radius.  The points `far` that fill up the last packet of a leaf must be beyond the radius or farther
away than the real points; `C45_far_counterexample` is what happens otherwise. -/
theorem C45_closest {lib : StdAlgorithms (KdPoint K n) K} (hP : 0 < P) {far : K} {points normals : List (Fin n → K)}
    {colors : List (Fin 4 → K)} {t : KdTree K n P} (ht : kdInit P lib far points normals colors = .ok t) (q : Fin n → K)
    (maxSqrDist : K) (hfar : maxSqrDist ≤ kdSqDist (fun _ => far) q ∨ ∀ p ∈ points, kdSqDist p q < kdSqDist (fun _ => far) q) :
    ∃ r, kdClosestPoint t q maxSqrDist = some (.ok r) ∧ IsClosestPoint points (fun _ => True) q maxSqrDist r := by
  refine closest_general hP ht q maxSqrDist _ false (fun _ => True) (by simp) (Or.inr (hfar.imp id fun h => ⟨?_, ?_⟩))
  · intro i p hi _; exact h p (List.mem_of_getElem? hi)
  · exact Or.inr fun _ _ => trivial

/-- **C45** `closestPointWithAcceptance`, for every acceptance function that rejects the out-of-range index (or with a
radius that does not reach the filling points): the closest among the accepted points. -/
theorem C45_accept {lib : StdAlgorithms (KdPoint K n) K} (hP : 0 < P) {far : K} {points normals : List (Fin n → K)}
    {colors : List (Fin 4 → K)} {t : KdTree K n P} (ht : kdInit P lib far points normals colors = .ok t) (q : Fin n → K)
    (maxSqrDist : K) (accept : Option Nat → Bool)
    (hfar : accept none = false ∨ maxSqrDist ≤ kdSqDist (fun _ => far) q) :
    ∃ r, kdClosestAccept t q maxSqrDist accept = some (.ok r) ∧
      IsClosestPoint points (fun i => accept (some i) = true) q maxSqrDist r :=
  closest_general hP ht q maxSqrDist _ false (fun i => accept (some i) = true) (by simp [kdPointLane])
    (hfar.imp id fun h => Or.inl h)

/-- **C45** `closestPoint` with a normal: the closest among the points whose normal has at least the given dot product with
the query's.  The filling points must be beyond the radius, excluded by a positive bound on the dot product, or farther away
than the real points. -/
theorem C45_normal {lib : StdAlgorithms (KdPoint K n) K} (hP : 0 < P) {far : K} {points normals : List (Fin n → K)}
    {colors : List (Fin 4 → K)} {t : KdTree K n P} (ht : kdInit P lib far points normals colors = .ok t) (q normal : Fin n → K)
    (maxSqrDist maxNormalDot : K) (hnorm : normals.length = points.length)
    (hfar : 0 < maxNormalDot ∨ maxSqrDist ≤ kdSqDist (fun _ => far) q ∨ ∀ p ∈ points, kdSqDist p q < kdSqDist (fun _ => far) q) :
    ∃ r, kdClosestNormal t q normal maxSqrDist maxNormalDot = some (.ok r) ∧
      IsClosestPoint points (fun i => ∃ m, normals[i]? = some m ∧ ∑ d, normal d * m d ≥ maxNormalDot) q maxSqrDist r := by
  obtain ⟨hn, hc⟩ := kdInit_sizes ht
  obtain ⟨t', e, -, -, h3, -⟩ := kdInit_spec lib hP far points normals colors hn hc
  rw [ht] at e
  obtain rfl : t = t' := by injection e
  unfold kdClosestNormal
  rw [if_neg (by rw [h3]; simp [hnorm])]
  refine closest_general hP ht q maxSqrDist _ true _ ?_ ?_
  · intro i p hi
    have hl : i < normals.length := hnorm ▸ (List.getElem?_eq_some_iff.1 hi).1
    simp [kdPointLane, List.getElem?_eq_getElem hl]
  · refine hfar.imp (fun h => ?_) (fun h => h.imp id fun h => ⟨fun i p hi _ => h p (List.mem_of_getElem? hi), Or.inl rfl⟩)
    simp [kdPad, h]

/-- **C45** `closestPoint` with a normal and a colour, on a tree with both: the closest among the points whose normal and
colour are acceptable. -/
theorem C45_color {lib : StdAlgorithms (KdPoint K n) K} (hP : 0 < P) {far : K} {points normals : List (Fin n → K)}
    {colors : List (Fin 4 → K)} {t : KdTree K n P} (ht : kdInit P lib far points normals colors = .ok t) (q normal : Fin n → K)
    (color : Fin 4 → K) (maxSqrDist maxNormalDot maxColorSqrDist : K) (hnorm : normals.length = points.length)
    (hcol : colors.length = points.length)
    (hfar : 0 < maxNormalDot ∨ maxColorSqrDist < 0 ∨ maxSqrDist ≤ kdSqDist (fun _ => far) q ∨
      ∀ p ∈ points, kdSqDist p q < kdSqDist (fun _ => far) q) :
    ∃ r, kdClosestColor t q normal color maxSqrDist maxNormalDot maxColorSqrDist = some (.ok r) ∧
      IsClosestPoint points (fun i => ∃ m c, normals[i]? = some m ∧ colors[i]? = some c ∧
        ∑ d, normal d * m d ≥ maxNormalDot ∧
        ((color 0 - c 0) ^ 2 + (color 1 - c 1) ^ 2 + (color 2 - c 2) ^ 2) * c 3 * color 3 ≤ maxColorSqrDist) q maxSqrDist r := by
  obtain ⟨hn, hc⟩ := kdInit_sizes ht
  obtain ⟨t', e, h1, -, h3, h4, -⟩ := kdInit_spec lib hP far points normals colors hn hc
  rw [ht] at e
  obtain rfl : t = t' := by injection e
  unfold kdClosestColor
  rw [if_neg (by rw [h3]; simp [hnorm]), if_neg]
  · refine closest_general hP ht q maxSqrDist _ true _ ?_ ?_
    · intro i p hi
      have hl : i < normals.length := hnorm ▸ (List.getElem?_eq_some_iff.1 hi).1
      have hl' : i < colors.length := hcol ▸ (List.getElem?_eq_some_iff.1 hi).1
      simp [kdPointLane, List.getElem?_eq_getElem hl, List.getElem?_eq_getElem hl', kdColorDist, pow_two]
    · rcases hfar with h | h | h | h
      · left; simp [kdPad, h]
      · left; simp [kdPad, kdColorDist, h]
      · exact Or.inr (Or.inl h)
      · exact Or.inr (Or.inr ⟨fun i p hi _ => h p (List.mem_of_getElem? hi), Or.inl rfl⟩)
  · rintro ⟨a, b⟩
    rw [h4] at b
    rw [h1, ← hcol] at a
    simp only [decide_eq_false_iff_not, not_not] at b
    rw [b] at a; simp at a

/-- **C45** `pointsInNSphere` with a radius that does not reach the filling points: exactly the indices of the points within
the radius (boundary included), each once. -/
theorem C45_sphere {lib : StdAlgorithms (KdPoint K n) K} (hP : 0 < P) {far : K} {points normals : List (Fin n → K)}
    {colors : List (Fin 4 → K)} {t : KdTree K n P} (ht : kdInit P lib far points normals colors = .ok t) (center : Fin n → K)
    (radius : K) (hr : 0 ≤ radius) (hfar : radius * radius < kdSqDist (fun _ => far) center) :
    ∃ L, kdPointsInNSphere t center radius = some (.ok L) ∧ L.Nodup ∧
      ∀ i, i ∈ L ↔ ∃ p, points[i]? = some p ∧ kdSqDist p center ≤ radius * radius := by
  obtain ⟨hn, hc⟩ := kdInit_sizes ht
  obtain ⟨t', e, h1, -, -, -, h2⟩ := kdInit_spec lib hP far points normals colors hn hc
  rw [ht] at e
  obtain rfl : t = t' := by injection e
  unfold kdPointsInNSphere
  rw [if_neg (not_lt.2 hr)]
  by_cases h0 : points = []
  · rw [if_pos (by rw [h1, h0]; rfl)]
    exact ⟨[], rfl, List.nodup_nil, by simp [h0]⟩
  · obtain ⟨sh, g1, g2, g3, g4⟩ := h2 h0
    rw [if_neg (by rw [h1]; simpa using h0)]
    obtain ⟨L, e', hL⟩ := tree_sphere hP far normals colors center radius hr hfar t 0 sh t.root [] [] g1 g2
      (by simp [kdStackSize]; omega)
    refine ⟨L, by rw [e', kdLoop]; rfl, ?_, ?_⟩
    · rw [hL.nodup_iff]
      have hnd : (sh.points.map Prod.fst).Nodup := by
        rw [(g4.map Prod.fst).nodup_iff, List.map_map]
        have : (Prod.fst ∘ fun p : (Fin n → K) × Nat => (p.2, p.1)) = Prod.snd := rfl
        rw [this, List.zipIdx_map_snd]
        exact List.nodup_range'
      exact hnd.sublist (List.filter_sublist.map _)
    · intro i
      rw [hL.mem_iff, List.mem_map]
      constructor
      · rintro ⟨x, hx, rfl⟩
        rw [List.mem_filter, g4.mem_iff, decide_eq_true_iff] at hx
        exact ⟨x.2, (mem_indexed points x.1 x.2).1 hx.1, hx.2⟩
      · rintro ⟨p, hp, hd⟩
        refine ⟨(i, p), ?_, rfl⟩
        rw [List.mem_filter, g4.mem_iff, decide_eq_true_iff]
        exact ⟨(mem_indexed points i p).2 hp, hd⟩

/-- **C45** A negative radius is rejected. -/
theorem C45_sphere_negative (t : KdTree K n P) (center : Fin n → K) (radius : K) (h : radius < 0) :
    kdPointsInNSphere t center radius = some .throws := if_pos h

/-- **C45** (violated) Asking for the closest point by normal and colour on a tree that has normals but no colours reads
colours that are not there: the code checks for normals only. -/
theorem C45_color_counterexample {lib : StdAlgorithms (KdPoint K n) K} (hP : 0 < P) {far : K}
    {points normals : List (Fin n → K)} {t : KdTree K n P} (ht : kdInit P lib far points normals [] = .ok t)
    (h0 : points ≠ []) (hnorm : normals.length = points.length) (q normal : Fin n → K) (color : Fin 4 → K) (a b c : K) :
    kdClosestColor t q normal color a b c = some .ub := by
  obtain ⟨hn, hc⟩ := kdInit_sizes ht
  obtain ⟨t', e, h1, -, h3, h4, -⟩ := kdInit_spec lib hP far points normals [] hn hc
  rw [ht] at e
  obtain rfl : t = t' := by injection e
  unfold kdClosestColor
  rw [if_neg (by rw [h3]; simp [hnorm]), if_pos]
  exact ⟨by rw [h1]; simpa using h0, by rw [h4]; simp⟩

end

/-! ### A standard library, and examples -/

/-- `std::partition` and `std::nth_element` by stable partition and sorting. -/
def sortLib (α K : Type) [LinearOrder K] : StdAlgorithms α K where
  partition p l := l.partition p
  partition_perm p l := by
    rw [List.partition_eq_filter_filter]
    exact List.filter_append_perm p l
  partition_true p l x hx := by
    rw [List.partition_eq_filter_filter] at hx
    exact (List.mem_filter.1 hx).2
  partition_false p l x hx := by
    rw [List.partition_eq_filter_filter] at hx
    simpa using (List.mem_filter.1 hx).2
  nthElement key mid l := l.insertionSort fun a b => key a ≤ key b
  nth_perm key mid l := List.perm_insertionSort _ l
  nth_left key mid l m hm x hx := by
    haveI : Std.Total (fun a b : α => key a ≤ key b) := ⟨fun a b => le_total _ _⟩
    haveI : IsTrans α (fun a b : α => key a ≤ key b) := ⟨fun a b c h h' => le_trans h h'⟩
    have hs := List.pairwise_insertionSort (fun a b : α => key a ≤ key b) l
    obtain ⟨i, hi, rfl⟩ := List.mem_iff_getElem.1 hx
    obtain ⟨hl, rfl⟩ := List.getElem?_eq_some_iff.1 hm
    rw [List.getElem_take]
    rw [List.length_take] at hi
    exact List.pairwise_iff_getElem.1 hs _ _ _ _ (by omega)
  nth_right key mid l m hm x hx := by
    haveI : Std.Total (fun a b : α => key a ≤ key b) := ⟨fun a b => le_total _ _⟩
    haveI : IsTrans α (fun a b : α => key a ≤ key b) := ⟨fun a b c h h' => le_trans h h'⟩
    have hs := List.pairwise_insertionSort (fun a b : α => key a ≤ key b) l
    obtain ⟨i, hi, rfl⟩ := List.mem_iff_getElem.1 hx
    obtain ⟨hl, rfl⟩ := List.getElem?_eq_some_iff.1 hm
    rw [List.getElem_drop]
    rcases Nat.eq_zero_or_pos i with rfl | h
    · simp
    · exact List.pairwise_iff_getElem.1 hs _ _ _ _ (by omega)

/-- Twenty points on a parabola; with packets of two lanes they do not fit in one leaf. -/
def exKdPoints : List (Fin 2 → ℚ) := (List.range 20).map fun i : Nat => ![((i : Nat) : ℚ), ((i : Nat) * (i : Nat) : ℚ) / 4]

/-- The tree of the twenty points exists, and has inner nodes. -/
example : ∃ t, kdInit 2 (sortLib _ ℚ) 1000 exKdPoints [] [] = .ok t ∧ t.nodes.length = 3 := by
  obtain ⟨t, e, -⟩ := (C45_build (P := 2) (sortLib (KdPoint ℚ 2) ℚ) (by norm_num) 1000 exKdPoints [] []).1 (by simp)
  refine ⟨t, e, ?_⟩
  have : (match kdInit 2 (sortLib (KdPoint ℚ 2) ℚ) 1000 exKdPoints [] [] with
    | .ok t => decide (t.nodes.length = 3) | _ => false) = true := by decide +kernel
  rw [e] at this
  exact of_decide_eq_true this

/-- The hypothesis of `C45_closest` for a query near the points, without a limit on the distance. -/
example (m : ℚ) : m ≤ kdSqDist (fun _ => (1000 : ℚ)) ![5, 6] ∨
    ∀ p ∈ exKdPoints, kdSqDist p ![5, 6] < kdSqDist (fun _ => (1000 : ℚ)) ![5, 6] := by
  right; decide +kernel

/-- Whether the loop's first step fails a check. -/
def failsFirst {σ : Type} (t : Outcome (KdTree ℚ 2 2)) (step : KdTree ℚ 2 2 → Outcome σ) : Bool :=
  match t with
  | .ok t => decide (t.numPoints ≠ 0) && (match step t with | .throws => true | _ => false)
  | _ => false

theorem failsFirst_loop {σ : Type} {t : KdTree ℚ 2 2} {step : KdTree ℚ 2 2 → Nat → List Nat → σ → Outcome (List Nat × σ)} {s : σ}
    (h : failsFirst (.ok t) (fun t => step t t.root [] s) = true) :
    t.numPoints ≠ 0 ∧ kdLoop (step t) [t.root] s = some .throws := by
  simp only [failsFirst, Bool.and_eq_true, decide_eq_true_eq] at h
  refine ⟨h.1, ?_⟩
  rw [kdLoop]
  cases hs : step t t.root [] s with
  | throws => rfl
  | ok r => rw [hs] at h; simp at h
  | ub => rw [hs] at h; simp at h

/-- **C45** (violated) One point at the origin, filling value 10, and a query at `(9, 9)`: the filling point is closer than
the real one, and the query fails an internal check instead of returning the point (the code's filling value is `1e10`). -/
theorem C45_far_counterexample : ∃ t, kdInit 2 (sortLib (KdPoint ℚ 2) ℚ) 10 [![0, 0]] [] [] = .ok t ∧
    kdClosestPoint t ![9, 9] 1000 = some .throws := by
  obtain ⟨t, e, -⟩ := (C45_build (P := 2) (sortLib (KdPoint ℚ 2) ℚ) (by norm_num) 10 [![0, 0]] [] []).1 (by simp)
  refine ⟨t, e, ?_⟩
  have h : failsFirst (kdInit 2 (sortLib (KdPoint ℚ 2) ℚ) 10 [![0, 0]] [] [])
      (fun t => kdClosestStep t ![9, 9] (fun _ => true) false t.root [] (none, 1000)) = true := by decide +kernel
  rw [e] at h
  obtain ⟨h1, h2⟩ := failsFirst_loop (step := fun t => kdClosestStep t ![9, 9] (fun _ => true) false) h
  simp [kdClosestPoint, kdClosest, h1, h2, Outcome.bind]

/-- **C45** (violated) An acceptance function that rejects the only point but is not false for the out-of-range index of the
filling points, with an unlimited radius: instead of "not found", the query fails an internal check. -/
theorem C45_accept_counterexample : ∃ t, kdInit 2 (sortLib (KdPoint ℚ 2) ℚ) 10 [![0, 0]] [] [] = .ok t ∧
    kdClosestAccept t ![1, 1] 1000 (fun i => i != some 0) = some .throws := by
  obtain ⟨t, e, -⟩ := (C45_build (P := 2) (sortLib (KdPoint ℚ 2) ℚ) (by norm_num) 10 [![0, 0]] [] []).1 (by simp)
  refine ⟨t, e, ?_⟩
  have h : failsFirst (kdInit 2 (sortLib (KdPoint ℚ 2) ℚ) 10 [![0, 0]] [] [])
      (fun t => kdClosestStep t ![1, 1] (fun l => l.index != some 0) false t.root [] (none, 1000)) = true := by decide +kernel
  rw [e] at h
  obtain ⟨h1, h2⟩ := failsFirst_loop (step := fun t => kdClosestStep t ![1, 1] (fun l => l.index != some 0) false) h
  simp [kdClosestAccept, kdClosest, h1, h2, Outcome.bind]

/-- **C45** (violated) A sphere that reaches the filling points fails an internal check instead of returning the points. -/
theorem C45_sphere_counterexample : ∃ t, kdInit 2 (sortLib (KdPoint ℚ 2) ℚ) 10 [![0, 0]] [] [] = .ok t ∧
    kdPointsInNSphere t ![0, 0] 20 = some .throws := by
  obtain ⟨t, e, -⟩ := (C45_build (P := 2) (sortLib (KdPoint ℚ 2) ℚ) (by norm_num) 10 [![0, 0]] [] []).1 (by simp)
  refine ⟨t, e, ?_⟩
  have h : failsFirst (kdInit 2 (sortLib (KdPoint ℚ 2) ℚ) 10 [![0, 0]] [] [])
      (fun t => kdSphereStep t ![0, 0] 20 t.root [] []) = true := by decide +kernel
  rw [e] at h
  obtain ⟨h1, h2⟩ := failsFirst_loop (step := fun t => kdSphereStep t ![0, 0] 20) h
  simp [kdPointsInNSphere, h1, h2]

end Momentum
