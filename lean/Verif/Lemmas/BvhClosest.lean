import Verif.Lemmas.BvhQuery
import Verif.Lemmas.BvhBuild
import Mathlib.Tactic.Linarith

/-! # Closest-point search (C38) -/

namespace Momentum
section
variable {K : Type} [Field K] [LinearOrder K] [IsStrictOrderedRing K]

omit [IsStrictOrderedRing K] in
theorem nodePrims?_leaf {b : Bvh K} {bb : Box K} {s e : Nat} (hse : s < e) (he : e ≤ b.prims.length) :
    nodePrims? b ⟨bb, s, e - s, 0⟩ = some (slice b.prims s e) := by
  unfold nodePrims?
  rw [nodePrims_leaf hse he]

theorem exteriorSq_mono {lo hi lo' hi' p : K} (h1 : lo ≤ lo') (h2 : hi' ≤ hi) (h3 : lo' ≤ hi') :
    Box.exteriorSq lo hi p ≤ Box.exteriorSq lo' hi' p := by
  unfold Box.exteriorSq
  by_cases a : lo > p
  · rw [if_pos a, if_pos (lt_of_lt_of_le a h1)]
    nlinarith
  · rw [if_neg a]
    by_cases c : p > hi
    · rw [if_pos c, if_neg (by intro a'; linarith), if_pos (lt_of_le_of_lt h2 c)]
      nlinarith
    · rw [if_neg c]
      split_ifs <;> nlinarith

theorem exteriorDistance_mono {a p : Box K} (h : a.Includes p) (hp : ∀ d : Fin 3, p.min.get d ≤ p.max.get d) (q : Vec3 K) :
    a.squaredExteriorDistance q ≤ p.squaredExteriorDistance q := by
  unfold Box.squaredExteriorDistance
  have h0 := h 0; have h1 := h 1; have h2 := h 2
  have p0 := hp 0; have p1 := hp 1; have p2 := hp 2
  simp [Vec3.get] at h0 h1 h2 p0 p1 p2
  have e0 := exteriorSq_mono (p := q.x) h0.1 h0.2 p0
  have e1 := exteriorSq_mono (p := q.y) h1.1 h1.2 p1
  have e2 := exteriorSq_mono (p := q.z) h2.1 h2.2 p2
  linarith

theorem exteriorSq_le_sq {lo hi p x : K} (h1 : lo ≤ x) (h2 : x ≤ hi) : Box.exteriorSq lo hi p ≤ (x - p) * (x - p) := by
  unfold Box.exteriorSq
  split_ifs with a c
  · nlinarith
  · nlinarith
  · nlinarith [mul_self_nonneg (x - p)]

/-- The distance to a point of the box is at least the exterior distance. -/
theorem exteriorDistance_le {a : Box K} {x : Vec3 K} (h : a.HasPoint x) (q : Vec3 K) : a.squaredExteriorDistance q ≤ (x - q).sqNorm := by
  unfold Box.squaredExteriorDistance
  have h0 := h 0; have h1 := h 1; have h2 := h 2
  simp [Vec3.get] at h0 h1 h2
  have e0 := exteriorSq_le_sq (p := q.x) h0.1 h0.2
  have e1 := exteriorSq_le_sq (p := q.y) h1.1 h1.2
  have e2 := exteriorSq_le_sq (p := q.z) h2.1 h2.2
  unfold Vec3.sqNorm Vec3.dot
  simp only [Vec3.sub_x, Vec3.sub_y, Vec3.sub_z]
  linarith

/-- What a search started with `acc` over the primitives `ps` has to return. -/
def ClosestSpec (query : Vec3 K) (proj : Nat → Vec3 K) (ps : List (Box K)) (acc r : K × ClosestResult K) : Prop :=
  (r = acc ∨ ∃ p ∈ ps, (proj p.id - query).sqNorm < acc.1 ∧ r = ((proj p.id - query).sqNorm, some (proj p.id, p.id))) ∧
  r.1 ≤ acc.1 ∧ ∀ p ∈ ps, r.1 ≤ (proj p.id - query).sqNorm

omit [IsStrictOrderedRing K] in
theorem closestSpec_nil (query : Vec3 K) (proj : Nat → Vec3 K) (acc : K × ClosestResult K) : ClosestSpec query proj [] acc acc :=
  ⟨Or.inl rfl, le_rfl, by simp⟩

omit [IsStrictOrderedRing K] in
theorem closestSpec_skip (query : Vec3 K) (proj : Nat → Vec3 K) (acc : K × ClosestResult K) {ps : List (Box K)}
    (h : ∀ p ∈ ps, acc.1 ≤ (proj p.id - query).sqNorm) : ClosestSpec query proj ps acc acc :=
  ⟨Or.inl rfl, le_rfl, h⟩

omit [IsStrictOrderedRing K] in
theorem ClosestSpec.append {query : Vec3 K} {proj : Nat → Vec3 K} {ps qs : List (Box K)} {a r s : K × ClosestResult K}
    (h1 : ClosestSpec query proj ps a r) (h2 : ClosestSpec query proj qs r s) : ClosestSpec query proj (ps ++ qs) a s := by
  obtain ⟨e1, l1, m1⟩ := h1
  obtain ⟨e2, l2, m2⟩ := h2
  refine ⟨?_, l2.trans l1, ?_⟩
  · rcases e2 with rfl | ⟨p, hp, hlt, rfl⟩
    · rcases e1 with h | ⟨p, hp, h⟩
      · exact Or.inl h
      · exact Or.inr ⟨p, by simp [hp], h⟩
    · exact Or.inr ⟨p, by simp [hp], hlt.trans_le l1, rfl⟩
  · intro p hp
    rcases List.mem_append.mp hp with h | h
    · exact l2.trans (m1 p h)
    · exact m2 p h

omit [IsStrictOrderedRing K] in
theorem ClosestSpec.perm {query : Vec3 K} {proj : Nat → Vec3 K} {ps qs : List (Box K)} {a r : K × ClosestResult K}
    (h : ClosestSpec query proj ps a r) (hp : ∀ x, x ∈ ps ↔ x ∈ qs) : ClosestSpec query proj qs a r := by
  obtain ⟨e1, l1, m1⟩ := h
  refine ⟨?_, l1, fun p h => m1 p ((hp p).mpr h)⟩
  rcases e1 with h | ⟨p, h, h'⟩
  · exact Or.inl h
  · exact Or.inr ⟨p, (hp p).mp h, h'⟩

omit [IsStrictOrderedRing K] in
theorem closestLeaf_spec (query : Vec3 K) (proj : Nat → Vec3 K) (ps : List (Box K)) (acc : K × ClosestResult K) :
    ClosestSpec query proj ps acc (ps.foldl (closestLeafStep query proj) acc) := by
  induction ps generalizing acc with
  | nil => exact closestSpec_nil _ _ _
  | cons p ps ih =>
    rw [List.foldl_cons]
    refine ClosestSpec.append (ps := [p]) ?_ (ih _)
    unfold closestLeafStep
    simp only
    split_ifs with h
    · exact ⟨Or.inr ⟨p, by simp, h, rfl⟩, h.le, by simp⟩
    · exact ⟨Or.inl rfl, le_rfl, by simpa using h⟩

omit [IsStrictOrderedRing K] in
/-- `checkSubtree`. -/
theorem ClosestSpec.sub {query : Vec3 K} {proj : Nat → Vec3 K} {ps : List (Box K)} {acc s : K × ClosestResult K}
    (h : ClosestSpec query proj ps (acc.1, none) s) : ClosestSpec query proj ps acc (takeCloser acc s) := by
  obtain ⟨e, l, m⟩ := h
  unfold takeCloser
  split_ifs with hlt
  · refine ⟨?_, hlt.le, m⟩
    rcases e with rfl | e
    · exact absurd hlt (lt_irrefl _)
    · exact Or.inr e
  · have : s.1 = acc.1 := le_antisymm l (not_lt.mp hlt)
    exact ⟨Or.inl rfl, le_rfl, fun p hp => this ▸ m p hp⟩

theorem mem_split1 {α : Type} (c1 c2 : Prop) [Decidable c1] [Decidable c2] (l r : List α) (x : α) :
    x ∈ (if c1 then l else []) ++ ((if c2 then r else []) ++ ((if c1 then [] else l) ++ (if c2 then [] else r))) ↔ x ∈ l ++ r := by
  by_cases h1 : c1 <;> by_cases h2 : c2 <;> simp [h1, h2, or_comm]

theorem mem_split2 {α : Type} (c1 c2 : Prop) [Decidable c1] [Decidable c2] (l r : List α) (x : α) :
    x ∈ (if c1 then l else []) ++ ((if c2 then r else []) ++ ((if c2 then [] else r) ++ (if c1 then [] else l))) ↔ x ∈ l ++ r := by
  by_cases h1 : c1 <;> by_cases h2 : c2 <;> simp [h1, h2, or_comm]

theorem closestHelper_spec (b : Bvh K) (query : Vec3 K) (proj : Nat → Vec3 K) (t : BvhTree K) : ∀ (i s e : Nat) (acc : K × ClosestResult K),
    Holds b t i s e → t.Bounds →
    (∀ p ∈ t.prims, (∀ d : Fin 3, p.min.get d ≤ p.max.get d) ∧ p.squaredExteriorDistance query ≤ (proj p.id - query).sqNorm) →
    ∃ r, closestHelper b query proj i acc = some r ∧ ClosestSpec query proj t.prims acc r := by
  induction t with
  | leaf bb ps =>
    intro i s e acc h _ _
    obtain ⟨h1, h2, h3, h4⟩ := h
    refine ⟨_, ?_, closestLeaf_spec query proj ps acc⟩
    rw [closestHelper]
    simp only [h4, Option.bind_eq_bind, Option.bind_some, BvhNode.isLeaf, decide_true, if_true, nodePrims?_leaf h1 h2, h3]
  | node bb l r ihl ihr =>
    intro i s e acc h hb hp
    obtain ⟨m, ro, h1, h2, h3, h4, h5, h6⟩ := h
    have rootAt : ∀ (t : BvhTree K) i s e, Holds b t i s e → ∃ nd, b.flat[i]? = some nd ∧ nd.bbox = t.bbox := by
      intro t i s e h
      cases t with
      | leaf => exact ⟨_, h.2.2.2, rfl⟩
      | node => obtain ⟨_, _, _, _, _, h, _⟩ := h; exact ⟨_, h, rfl⟩
    obtain ⟨nl, hl1, hl2⟩ := rootAt l _ _ _ h5
    obtain ⟨nr, hr1, hr2⟩ := rootAt r _ _ _ h6
    have hpl : ∀ p ∈ l.prims, _ := fun p h => hp p (by simp [BvhTree.prims, h])
    have hpr : ∀ p ∈ r.prims, _ := fun p h => hp p (by simp [BvhTree.prims, h])
    -- a subtree that is searched when the condition holds
    have doL : ∀ (c : Prop) [Decidable c] (acc : K × ClosestResult K),
        ∃ a', (if c then closestHelper b query proj (i + 1) (acc.1, none) >>= fun s => some (takeCloser acc s) else some acc) = some a' ∧
          (c → ClosestSpec query proj l.prims acc a') ∧ (¬ c → a' = acc) := by
      intro c _ acc
      by_cases hc : c
      · obtain ⟨x, hx1, hx2⟩ := ihl (i + 1) s m (acc.1, none) h5 hb.2.1 hpl
        refine ⟨takeCloser acc x, ?_, fun _ => hx2.sub, fun h => absurd hc h⟩
        rw [if_pos hc, hx1]; rfl
      · exact ⟨acc, by rw [if_neg hc], fun h => absurd h hc, fun _ => rfl⟩
    have doR : ∀ (c : Prop) [Decidable c] (acc : K × ClosestResult K),
        ∃ a', (if c then closestHelper b query proj (i + ro) (acc.1, none) >>= fun s => some (takeCloser acc s) else some acc) = some a' ∧
          (c → ClosestSpec query proj r.prims acc a') ∧ (¬ c → a' = acc) := by
      intro c _ acc
      by_cases hc : c
      · obtain ⟨x, hx1, hx2⟩ := ihr (i + ro) m e (acc.1, none) h6 hb.2.2 hpr
        refine ⟨takeCloser acc x, ?_, fun _ => hx2.sub, fun h => absurd hc h⟩
        rw [if_pos hc, hx1]; rfl
      · exact ⟨acc, by rw [if_neg hc], fun h => absurd h hc, fun _ => rfl⟩
    have farL : ∀ x : K, x ≤ l.bbox.squaredExteriorDistance query → ∀ p ∈ l.prims, x ≤ (proj p.id - query).sqNorm := by
      intro x hx p hpm
      exact hx.trans ((exteriorDistance_mono (hb.2.1.root hpm) (hpl p hpm).1 query).trans (hpl p hpm).2)
    have farR : ∀ x : K, x ≤ r.bbox.squaredExteriorDistance query → ∀ p ∈ r.prims, x ≤ (proj p.id - query).sqNorm := by
      intro x hx p hpm
      exact hx.trans ((exteriorDistance_mono (hb.2.2.root hpm) (hpr p hpm).1 query).trans (hpr p hpm).2)
    obtain ⟨a1, ea1, s1, n1⟩ := doL (l.bbox.containsPoint query = true) acc
    obtain ⟨a2, ea2, s2, n2⟩ := doR (r.bbox.containsPoint query = true) a1
    rw [closestHelper]
    simp only [h4, Option.bind_eq_bind, Option.bind_some, BvhNode.isLeaf, h3, decide_false, hl1, hr1, hl2, hr2] at ea1 ea2 ⊢
    simp only [Bool.false_eq_true, if_false, ea1, ea2, Option.bind_some]
    by_cases hd : l.bbox.squaredExteriorDistance query < r.bbox.squaredExteriorDistance query
    · simp only [hd, if_true]
      obtain ⟨a3, ea3, s3, n3⟩ := doL (l.bbox.containsPoint query = false ∧ l.bbox.squaredExteriorDistance query < a2.1) a2
      obtain ⟨a4, ea4, s4, n4⟩ := doR (r.bbox.containsPoint query = false ∧ r.bbox.squaredExteriorDistance query < a3.1) a3
      simp only [Option.bind_eq_bind] at ea3 ea4
      refine ⟨a4, ?_, ?_⟩
      · rw [ea3]; exact ea4
      · have x1 : ClosestSpec query proj (if l.bbox.containsPoint query = true then l.prims else []) acc a1 := by
          split_ifs with hc
          · exact s1 hc
          · rw [n1 hc]; exact closestSpec_nil _ _ _
        have x2 : ClosestSpec query proj (if r.bbox.containsPoint query = true then r.prims else []) a1 a2 := by
          split_ifs with hc
          · exact s2 hc
          · rw [n2 hc]; exact closestSpec_nil _ _ _
        have x3 : ClosestSpec query proj (if l.bbox.containsPoint query = true then [] else l.prims) a2 a3 := by
          split_ifs with hc
          · rw [n3 (by simp [hc])]; exact closestSpec_nil _ _ _
          · by_cases hh : l.bbox.squaredExteriorDistance query < a2.1
            · exact s3 ⟨by simpa using hc, hh⟩
            · rw [n3 (by simp [hh])]; exact closestSpec_skip _ _ _ (farL _ (not_lt.mp hh))
        have x4 : ClosestSpec query proj (if r.bbox.containsPoint query = true then [] else r.prims) a3 a4 := by
          split_ifs with hc
          · rw [n4 (by simp [hc])]; exact closestSpec_nil _ _ _
          · by_cases hh : r.bbox.squaredExteriorDistance query < a3.1
            · exact s4 ⟨by simpa using hc, hh⟩
            · rw [n4 (by simp [hh])]; exact closestSpec_skip _ _ _ (farR _ (not_lt.mp hh))
        exact (x1.append (x2.append (x3.append x4))).perm (fun x => mem_split1 _ _ _ _ x)
    · simp only [hd, if_false]
      obtain ⟨a3, ea3, s3, n3⟩ := doR (r.bbox.containsPoint query = false ∧ r.bbox.squaredExteriorDistance query < a2.1) a2
      obtain ⟨a4, ea4, s4, n4⟩ := doL (l.bbox.containsPoint query = false ∧ l.bbox.squaredExteriorDistance query < a3.1) a3
      simp only [Option.bind_eq_bind] at ea3 ea4
      refine ⟨a4, ?_, ?_⟩
      · rw [ea3]; exact ea4
      · have x1 : ClosestSpec query proj (if l.bbox.containsPoint query = true then l.prims else []) acc a1 := by
          split_ifs with hc
          · exact s1 hc
          · rw [n1 hc]; exact closestSpec_nil _ _ _
        have x2 : ClosestSpec query proj (if r.bbox.containsPoint query = true then r.prims else []) a1 a2 := by
          split_ifs with hc
          · exact s2 hc
          · rw [n2 hc]; exact closestSpec_nil _ _ _
        have x3 : ClosestSpec query proj (if r.bbox.containsPoint query = true then [] else r.prims) a2 a3 := by
          split_ifs with hc
          · rw [n3 (by simp [hc])]; exact closestSpec_nil _ _ _
          · by_cases hh : r.bbox.squaredExteriorDistance query < a2.1
            · exact s3 ⟨by simpa using hc, hh⟩
            · rw [n3 (by simp [hh])]; exact closestSpec_skip _ _ _ (farR _ (not_lt.mp hh))
        have x4 : ClosestSpec query proj (if l.bbox.containsPoint query = true then [] else l.prims) a3 a4 := by
          split_ifs with hc
          · rw [n4 (by simp [hc])]; exact closestSpec_nil _ _ _
          · by_cases hh : l.bbox.squaredExteriorDistance query < a3.1
            · exact s4 ⟨by simpa using hc, hh⟩
            · rw [n4 (by simp [hh])]; exact closestSpec_skip _ _ _ (farL _ (not_lt.mp hh))
        exact (x1.append (x2.append (x3.append x4))).perm (fun x => mem_split2 _ _ _ _ x)

end
end Momentum
