import Verif.Lemmas.BvhClosest
import Mathlib.Data.List.ProdSigma

/-! # Pair traversals (C37) -/

namespace Momentum

theorem product_append_left {α β : Type} (a b : List α) (l : List β) : (a ++ b) ×ˢ l = a ×ˢ l ++ b ×ˢ l := by
  simp [SProd.sprod, List.product]

theorem product_append_right {α β : Type} (l : List α) (a b : List β) : List.Perm (l ×ˢ (a ++ b)) (l ×ˢ a ++ l ×ˢ b) := by
  induction l with
  | nil => simp
  | cons x l ih =>
    simp only [List.product_cons, List.map_append]
    refine (List.Perm.append_left _ ih).trans ?_
    simp only [List.append_assoc]
    refine List.Perm.append_left _ ?_
    simp only [← List.append_assoc]
    exact List.Perm.append_right _ List.perm_append_comm

section
variable {K : Type} [Field K] [LinearOrder K]

theorem intersects_mono {a b x y : Box K} (ha : a.Includes x) (hb : b.Includes y) (h : x.intersects y = true) : a.intersects b = true := by
  unfold Box.intersects at *
  have a0 := ha 0; have a1 := ha 1; have a2 := ha 2
  have b0 := hb 0; have b1 := hb 1; have b2 := hb 2
  simp [Vec3.get] at a0 a1 a2 b0 b1 b2
  simp only [decide_eq_true_iff] at h ⊢
  obtain ⟨⟨h1, h2, h3⟩, h4, h5, h6⟩ := h
  exact ⟨⟨a0.1.trans (h1.trans b0.2), a1.1.trans (h2.trans b1.2), a2.1.trans (h3.trans b2.2)⟩,
    b0.1.trans (h4.trans a0.2), b1.1.trans (h5.trans a1.2), b2.1.trans (h6.trans a2.2)⟩

omit [Field K] [LinearOrder K] in
theorem eachPrim_true {σ : Type} (f : σ → Box K → σ × Bool) (hf : ∀ s p, (f s p).2 = true) (ps : List (Box K)) (s : σ) :
    eachPrim f ps s = (ps.foldl (fun s p => (f s p).1) s, true) := by
  induction ps generalizing s with
  | nil => rfl
  | cons p ps ih => simp [eachPrim, hf, ih]

theorem Reports.append {L L' P P' : List (Box K × Box K)} (h : Reports L P) (h' : Reports L' P') : Reports (L ++ L') (P ++ P') := by
  refine ⟨?_, h.2.append h'.2⟩
  simp only [List.filter_append]
  exact h.1.append h'.1

theorem Reports.perm {L P P' : List (Box K × Box K)} (h : Reports L P) (h' : P.Perm P') : Reports L P' :=
  ⟨h.1.trans (h'.filter _), h.2.trans h'.subperm⟩

theorem reports_refl (L : List (Box K × Box K)) : Reports L L := ⟨List.Perm.refl _, List.Subperm.refl _⟩

theorem reports_nil {P : List (Box K × Box K)} (h : ∀ q ∈ P, pairTest q = false) : Reports [] P := by
  refine ⟨?_, List.nil_subperm⟩
  have : P.filter pairTest = [] := List.filter_eq_nil_iff.mpr (fun q hq => by simp [h q hq])
  rw [this]
  exact List.Perm.refl _

/-- Leaves hold one primitive each, or the callback always wants to go on. -/
def Unstopped {σ : Type} (func : σ → Nat → Nat → σ × Bool) (c : Nat) : Prop := c = 1 ∨ ∀ s i j, (func s i j).2 = true

omit [Field K] [LinearOrder K] in
theorem leafLeaf {σ : Type} (func : σ → Nat → Nat → σ × Bool) (c : Nat) (hu : Unstopped func c) (pa pb : List (Box K))
    (ha : 1 ≤ pa.length ∧ pa.length ≤ c) (hb : 1 ≤ pb.length ∧ pb.length ≤ c) (s : σ) :
    (eachPrim (fun s x => eachPrim (fun s y => func s x.id y.id) pb s) pa s).1 = callAll func (pa ×ˢ pb) s := by
  rcases hu with rfl | hu
  · obtain ⟨x, rfl⟩ := List.length_eq_one_iff.mp (le_antisymm ha.2 ha.1)
    obtain ⟨y, rfl⟩ := List.length_eq_one_iff.mp (le_antisymm hb.2 hb.1)
    simp only [eachPrim]
    simp only [callAll, List.product_cons, List.nil_product, List.map_cons, List.map_nil, List.append_nil, List.foldl_cons, List.foldl_nil]
    split_ifs <;> simp_all
  · rw [eachPrim_true _ (fun s p => by rw [eachPrim_true _ (fun s p => hu _ _ _)])]
    simp only
    induction pa generalizing s with
    | nil => simp [callAll]
    | cons x pa ih =>
      rw [List.foldl_cons, List.product_cons]
      unfold callAll at ih ⊢
      rw [List.foldl_append, eachPrim_true _ (fun s p => hu _ _ _), List.foldl_map]
      cases pa with
      | nil => simp
      | cons z pa => exact ih ⟨by simp, by have := ha.2; simp at this ⊢; omega⟩ _

omit [Field K] [LinearOrder K] in
theorem holds_root {b : Bvh K} {t : BvhTree K} {i s e : Nat} (h : Holds b t i s e) :
    ∃ nd, b.flat[i]? = some nd ∧ nd.bbox = t.bbox ∧ (nd.isLeaf = true ↔ ∃ bb ps, t = .leaf bb ps) := by
  cases t with
  | leaf bb ps => exact ⟨_, h.2.2.2, rfl, by simp [BvhNode.isLeaf]⟩
  | node bb l r =>
    obtain ⟨m, ro, _, _, h3, h4, _⟩ := h
    exact ⟨_, h4, rfl, by simp [BvhNode.isLeaf, h3]⟩

theorem traverseCollision_spec {σ : Type} (a b : Bvh K) (func : σ → Nat → Nat → σ × Bool) (c : Nat) (hu : Unstopped func c) :
    ∀ (n : Nat) (ta tb : BvhTree K) (ia sa ea ib sb eb : Nat), ta.size + tb.size ≤ n → Holds a ta ia sa ea → Holds b tb ib sb eb →
    ta.Bounds → tb.Bounds → ta.LeavesWithin c → tb.LeavesWithin c →
    ∃ L, (∀ s, traverseCollision a b func ia ib s = some (callAll func L s, false)) ∧ Reports L (ta.prims ×ˢ tb.prims) := by
  intro n
  induction n with
  | zero => intro ta tb _ _ _ _ _ _ h; cases ta <;> simp [BvhTree.size] at h
  | succ n ih =>
    intro ta tb ia sa ea ib sb eb hn ha hb hba hbb hwa hwb
    obtain ⟨na, ga, gab, gal⟩ := holds_root ha
    obtain ⟨nb, gb, gbb, gbl⟩ := holds_root hb
    by_cases hi : ta.bbox.intersects tb.bbox = true
    swap
    · refine ⟨[], ?_, reports_nil ?_⟩
      · intro s
        rw [traverseCollision]
        simp only [ga, gb, Option.bind_eq_bind, Option.bind_some, gab, gbb]
        rw [if_pos (by simpa using hi)]
        rfl
      · intro q hq
        obtain ⟨q1, q2⟩ := List.mem_product.mp hq
        by_contra h
        exact hi (intersects_mono (hba.root q1) (hbb.root q2) (by simpa [pairTest] using h))
    · have hi' : ¬ ta.bbox.intersects tb.bbox = false := by simp [hi]
      have combine : ∀ (L1 L2 : List (Box K × Box K)) (f1 f2 : σ → Option (σ × Bool)),
          (∀ s, f1 s = some (callAll func L1 s, false)) → (∀ s, f2 s = some (callAll func L2 s, false)) →
          ∀ s, ((f1 s).bind fun r => if r.2 = true then some (r.1, true) else f2 r.1) = some (callAll func (L1 ++ L2) s, false) := by
        intro L1 L2 f1 f2 h1 h2 s
        rw [h1]
        simp only [Option.bind_some, Bool.false_eq_true, if_false, h2]
        unfold callAll
        rw [List.foldl_append]
      cases ta with
      | leaf bba psa =>
        have la : na.isLeaf = true := gal.mpr ⟨_, _, rfl⟩
        obtain ⟨a1, a2, a3, a4⟩ := ha
        cases tb with
        | leaf bbb psb =>
          have lb : nb.isLeaf = true := gbl.mpr ⟨_, _, rfl⟩
          obtain ⟨b1, b2, b3, b4⟩ := hb
          refine ⟨psa ×ˢ psb, ?_, reports_refl _⟩
          intro s
          rw [traverseCollision]
          simp only [ga, gb, Option.bind_eq_bind, Option.bind_some, gab, gbb, la, lb, and_self, if_true]
          rw [if_neg hi']
          rw [ga, Option.some.injEq] at a4
          rw [gb, Option.some.injEq] at b4
          rw [a4, b4, nodePrims?_leaf a1 a2, nodePrims?_leaf b1 b2, a3, b3]
          simp only [Option.bind_some]
          rw [leafLeaf func c hu psa psb hwa hwb]
        | node bbb lb' rb' =>
          have lb : nb.isLeaf = false := by
            cases h : nb.isLeaf with
            | false => rfl
            | true => obtain ⟨_, _, h⟩ := gbl.mp h; simp at h
          obtain ⟨m, ro, b1, b2, b3, b4, b5, b6⟩ := hb
          rw [gb, Option.some.injEq] at b4
          simp only [BvhTree.size] at hn
          obtain ⟨L1, h1, r1⟩ := ih (.leaf bba psa) lb' ia sa ea (ib + 1) sb m (by simp only [BvhTree.size]; omega) ⟨a1, a2, a3, a4⟩ b5 hba hbb.2.1 hwa hwb.1
          obtain ⟨L2, h2, r2⟩ := ih (.leaf bba psa) rb' ia sa ea (ib + ro) m eb (by simp only [BvhTree.size]; omega) ⟨a1, a2, a3, a4⟩ b6 hba hbb.2.2 hwa hwb.2
          refine ⟨L1 ++ L2, ?_, (r1.append r2).perm (product_append_right _ _ _).symm⟩
          intro s
          rw [traverseCollision]
          simp only [ga, gb, Option.bind_eq_bind, Option.bind_some, gab, gbb, la, lb]
          rw [if_neg hi']
          simp only [Bool.false_eq_true, and_false, if_false, Bool.true_eq_false, false_and, or_self]
          rw [b4]
          exact combine L1 L2 _ _ h1 h2 s
      | node bba la' ra' =>
        have la : na.isLeaf = false := by
          cases h : na.isLeaf with
          | false => rfl
          | true => obtain ⟨_, _, h⟩ := gal.mp h; simp at h
        have ha0 := ha
        obtain ⟨m, ro, a1, a2, a3, a4, a5, a6⟩ := ha
        rw [ga, Option.some.injEq] at a4
        simp only [BvhTree.size] at hn
        have descendA : ∀ (hd : nb.isLeaf = true ∨ (na.isLeaf = false ∧ na.bbox.squaredVolume > nb.bbox.squaredVolume)),
            ∃ L, (∀ s, traverseCollision a b func ia ib s = some (callAll func L s, false)) ∧
              Reports L ((BvhTree.node bba la' ra').prims ×ˢ tb.prims) := by
          intro hd
          obtain ⟨L1, h1, r1⟩ := ih la' tb (ia + 1) sa m ib sb eb (by omega) a5 hb hba.2.1 hbb hwa.1 hwb
          obtain ⟨L2, h2, r2⟩ := ih ra' tb (ia + ro) m ea ib sb eb (by omega) a6 hb hba.2.2 hbb hwa.2 hwb
          refine ⟨L1 ++ L2, ?_, ?_⟩
          · intro s
            rw [traverseCollision]
            simp only [ga, gb, Option.bind_eq_bind, Option.bind_some]
            rw [if_neg (by rw [gab, gbb]; exact hi'), if_neg (by simp [la]), if_pos hd, a4]
            exact combine L1 L2 _ _ h1 h2 s
          · simp only [BvhTree.prims]
            rw [product_append_left]
            exact r1.append r2
        by_cases hd : nb.isLeaf = true ∨ (na.isLeaf = false ∧ na.bbox.squaredVolume > nb.bbox.squaredVolume)
        · exact descendA hd
        · cases tb with
          | leaf bbb psb => exact absurd (Or.inl (gbl.mpr ⟨_, _, rfl⟩)) hd
          | node bbb lb' rb' =>
            obtain ⟨m', ro', b1, b2, b3, b4, b5, b6⟩ := hb
            rw [gb, Option.some.injEq] at b4
            simp only [BvhTree.size] at hn
            obtain ⟨L1, h1, r1⟩ := ih (.node bba la' ra') lb' ia sa ea (ib + 1) sb m' (by simp only [BvhTree.size]; omega) ha0 b5 hba hbb.2.1 hwa hwb.1
            obtain ⟨L2, h2, r2⟩ := ih (.node bba la' ra') rb' ia sa ea (ib + ro') m' eb (by simp only [BvhTree.size]; omega) ha0 b6 hba hbb.2.2 hwa hwb.2
            refine ⟨L1 ++ L2, ?_, (r1.append r2).perm (product_append_right _ _ _).symm⟩
            intro s
            rw [traverseCollision]
            simp only [ga, gb, Option.bind_eq_bind, Option.bind_some]
            rw [if_neg (by rw [gab, gbb]; exact hi'), if_neg (by simp [la]), if_neg hd, b4]
            exact combine L1 L2 _ _ h1 h2 s

theorem traverseSelf_spec {σ : Type} (b : Bvh K) (func : σ → Nat → Nat → σ × Bool) (c : Nat) (hu : Unstopped func c) (t : BvhTree K) :
    ∀ (i s e : Nat), Holds b t i s e → t.Bounds → t.LeavesWithin c →
    ∃ L, (∀ x, traverseSelfCollision b func i x = some (callAll func L x, false)) ∧ Reports L (crossPairs t) := by
  induction t with
  | leaf bb ps =>
    intro i s e h _ _
    refine ⟨[], ?_, reports_refl _⟩
    intro x
    rw [traverseSelfCollision]
    simp [h.2.2.2, BvhNode.isLeaf, callAll]
  | node bb l r ihl ihr =>
    intro i s e h hb hw
    obtain ⟨m, ro, h1, h2, h3, h4, h5, h6⟩ := h
    obtain ⟨L1, e1, r1⟩ := ihl (i + 1) s m h5 hb.2.1 hw.1
    obtain ⟨L2, e2, r2⟩ := ihr (i + ro) m e h6 hb.2.2 hw.2
    obtain ⟨L3, e3, r3⟩ := traverseCollision_spec b b func c hu _ l r (i + 1) s m (i + ro) m e le_rfl h5 h6 hb.2.1 hb.2.2 hw.1 hw.2
    refine ⟨L1 ++ L2 ++ L3, ?_, (r1.append r2).append r3⟩
    intro x
    rw [traverseSelfCollision]
    simp only [h4, Option.bind_eq_bind, Option.bind_some, BvhNode.isLeaf, h3, decide_false, Bool.false_eq_true, if_false, e1, e2, e3]
    simp only [callAll, List.foldl_append]

theorem distinctPairs_append {α : Type} (a b : List α) :
    List.Perm (distinctPairs (a ++ b)) (distinctPairs a ++ distinctPairs b ++ a ×ˢ b) := by
  induction a with
  | nil => simp [distinctPairs]
  | cons x a ih =>
    simp only [List.cons_append, distinctPairs, List.map_append, List.product_cons, List.append_assoc]
    refine List.Perm.append_left _ ?_
    refine (List.Perm.append_left _ ih).trans ?_
    simp only [← List.append_assoc]
    refine List.Perm.append_right _ ?_
    rw [List.append_assoc]
    exact List.perm_append_comm

omit [Field K] [LinearOrder K] in
theorem crossPairs_one (t : BvhTree K) (h : t.LeavesWithin 1) : List.Perm (crossPairs t) (distinctPairs t.prims) := by
  induction t with
  | leaf bb ps =>
    obtain ⟨x, rfl⟩ := List.length_eq_one_iff.mp (le_antisymm h.2 h.1)
    simp [crossPairs, BvhTree.prims, distinctPairs]
  | node bb l r ihl ihr =>
    simp only [crossPairs, BvhTree.prims]
    exact (((ihl h.1).append (ihr h.2)).append_right _).trans (distinctPairs_append _ _).symm

end
end Momentum
