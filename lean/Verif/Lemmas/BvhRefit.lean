import Verif.Lemmas.BvhQuery

/-! # Refit (helper lemmas for C39) -/

namespace Momentum
section
variable {K : Type} [Field K] [LinearOrder K]

omit [Field K] [LinearOrder K] in
theorem BvhTree.size_pos (t : BvhTree K) : 1 ≤ t.size := by cases t <;> simp [BvhTree.size] <;> omega

omit [Field K] [LinearOrder K] in
/-- Overwriting the primitives keeps the shape of the tree. -/
theorem Packed.moved {nodes : List (BvhNode K)} {old new : List (Box K)} {t : BvhTree K} {i s e c : Nat}
    (h : Packed ⟨nodes, old⟩ t i s e) (hl : new.length = old.length) (hw : t.LeavesWithin c) :
    ∃ t', Packed ⟨nodes, new⟩ t' i s e ∧ t'.size = t.size ∧ t'.height = t.height ∧ t'.LeavesWithin c := by
  induction t generalizing i s e with
  | leaf bb ps =>
    obtain ⟨h1, h2, h3, h4⟩ := h
    simp only at h2 h3 h4
    refine ⟨.leaf bb (slice new s e), ⟨h1, by simp only; omega, rfl, h4⟩, rfl, rfl, ?_⟩
    have l1 := slice_length old s e h2
    have l2 := slice_length new s e (by omega)
    rw [h3] at l1
    simp only [BvhTree.LeavesWithin] at hw ⊢
    omega
  | node bb l r ihl ihr =>
    obtain ⟨m, h1, h2, h3, h4, h5⟩ := h
    obtain ⟨l', a1, a2, a3, a4⟩ := ihl h4 hw.1
    obtain ⟨r', b1, b2, b3, b4⟩ := ihr h5 hw.2
    refine ⟨.node bb l' r', ⟨m, h1, h2, by rw [a2]; exact h3, a1, by rw [a2]; exact b1⟩, ?_, ?_, ⟨a4, b4⟩⟩
    · simp [BvhTree.size, a2, b2]
    · simp [BvhTree.height, a3, b3]

theorem foldl_extend_includes (ps : List (Box K)) (a : Box K) :
    (ps.foldl Box.extend a).Includes a ∧ ∀ p ∈ ps, (ps.foldl Box.extend a).Includes p := by
  induction ps generalizing a with
  | nil => exact ⟨a.includes_refl, by simp⟩
  | cons q ps ih =>
    obtain ⟨h1, h2⟩ := ih (a.extend q)
    rw [List.foldl_cons]
    refine ⟨h1.trans (a.extend_left q), fun p hp => ?_⟩
    rcases List.mem_cons.mp hp with rfl | hp
    · exact h1.trans (a.extend_right p)
    · exact h2 p hp

theorem refitRecurse_ok (prims : List (Box K)) (c : Nat) (t : BvhTree K) : ∀ (nodes : List (BvhNode K)) (i s e : Nat),
    Packed ⟨nodes, prims⟩ t i s e → t.LeavesWithin c →
    ∃ nodes' t', refitRecurse prims nodes i = some nodes' ∧ nodes'.length = nodes.length ∧
      (∀ j, j < i ∨ i + t.size ≤ j → nodes'[j]? = nodes[j]?) ∧ Packed ⟨nodes', prims⟩ t' i s e ∧
      t'.size = t.size ∧ t'.height = t.height ∧ t'.LeavesWithin c ∧ t'.Bounds ∧ t'.prims = t.prims := by
  induction t with
  | leaf bb ps =>
    intro nodes i s e h hw
    obtain ⟨h1, h2, h3, h4⟩ := h
    simp only at h2 h3 h4
    obtain ⟨hi, hnd⟩ := List.getElem?_eq_some_iff.mp h4
    rw [refitRecurse, h4]
    simp only [Option.bind_eq_bind, Option.bind_some, BvhNode.isLeaf, decide_true, if_true]
    have hnp : nodePrims? ⟨nodes, prims⟩ (⟨bb, s, e - s, 0⟩ : BvhNode K) = some ps := by
      unfold nodePrims?
      rw [nodePrims_leaf (b := ⟨nodes, prims⟩) h1 h2]
      simp only [h3]
    rw [hnp]
    cases ps with
    | nil => exact absurd hw.1 (by simp)
    | cons p0 ps =>
      simp only [Option.bind_some, List.head?_cons, List.tail_cons]
      have hb := foldl_extend_includes ps p0
      refine ⟨_, .leaf (ps.foldl Box.extend p0) (p0 :: ps), rfl, by simp, fun j hj => ?_, ?_, rfl, rfl, hw, ?_, rfl⟩
      · simp only [BvhTree.size] at hj
        rw [List.getElem?_set_ne (by omega)]
      · refine ⟨h1, h2, h3, ?_⟩
        simp only
        rw [List.getElem?_set_self hi]
      · intro p hp
        rcases List.mem_cons.mp hp with rfl | hp
        · exact hb.1
        · exact hb.2 p hp
  | node bb l r ihl ihr =>
    intro nodes i s e h hw
    obtain ⟨m, h1, h2, h3, h4, h5⟩ := h
    simp only at h3
    obtain ⟨n1, l', a1, a2, a3, a4, a5, a6, a7, a8, a9⟩ := ihl nodes (i + 1) s m h4 hw.1
    have h5' : Packed ⟨n1, prims⟩ r (i + 1 + l.size) m e :=
      h5.congr (fun j hj _ => a3 j (by omega)) (fun _ _ _ => rfl) rfl
    obtain ⟨n2, r', b1, b2, b3, b4, b5, b6, b7, b8, b9⟩ := ihr n1 (i + 1 + l.size) m e h5' hw.2
    have a4' : Packed ⟨n2, prims⟩ l' (i + 1) s m :=
      a4.congr (fun j _ hj => b3 j (by omega)) (fun _ _ _ => rfl) rfl
    have rootAt : ∀ (b : Bvh K) (t : BvhTree K) i s e, Packed b t i s e → ∃ nd, b.flat[i]? = some nd ∧ nd.bbox = t.bbox := by
      intro b t i s e h
      cases t with
      | leaf => exact ⟨_, h.2.2.2, rfl⟩
      | node => obtain ⟨_, _, _, h, _⟩ := h; exact ⟨_, h, rfl⟩
    obtain ⟨ndl, g1, g2⟩ := rootAt _ _ _ _ _ a4'
    obtain ⟨ndr, g3, g4⟩ := rootAt _ _ _ _ _ b4
    simp only at g1 g3
    have hself : n2[i]? = some ⟨bb, s, e - s, 1 + l.size⟩ := by
      rw [b3 i (by omega), a3 i (by omega), h3]
    obtain ⟨hi, _⟩ := List.getElem?_eq_some_iff.mp hself
    have hz : (1 + l.size = 0) = False := by simp
    rw [refitRecurse, h3]
    simp only [Option.bind_eq_bind, Option.bind_some, BvhNode.isLeaf, hz, decide_false, Bool.false_eq_true, if_false, a1]
    rw [show i + (1 + l.size) = i + 1 + l.size by omega, b1]
    simp only [Option.bind_some, hself, g1, g3]
    have hbl : l'.bbox = ndl.bbox := g2.symm
    have hbr : r'.bbox = ndr.bbox := g4.symm
    refine ⟨_, .node ((bb.extend ndl.bbox).extend ndr.bbox) l' r', rfl, by simp; omega, fun j hj => ?_, ?_, ?_, ?_, ⟨a7, b7⟩, ?_, ?_⟩
    · simp only [BvhTree.size] at hj
      rw [List.getElem?_set_ne (by omega), b3 j (by omega), a3 j (by omega)]
    · refine ⟨m, h1, h2, ?_, ?_, ?_⟩
      · simp only
        rw [List.getElem?_set_self hi, a5]
      · refine a4'.congr (fun j hj _ => ?_) (fun _ _ _ => rfl) rfl
        simp only
        rw [List.getElem?_set_ne (by omega)]
      · rw [a5]
        refine b4.congr (fun j hj _ => ?_) (fun _ _ _ => rfl) rfl
        simp only
        rw [List.getElem?_set_ne (by omega)]
    · simp [BvhTree.size, a5, b5]
    · simp [BvhTree.height, a6, b6]
    · refine ⟨fun p hp => ?_, a8, b8⟩
      rcases List.mem_append.mp hp with hp | hp
      · exact (Box.extend_left _ _).trans ((Box.extend_right _ _).trans (hbl ▸ a8.root hp))
      · exact (Box.extend_right _ _).trans (hbr ▸ b8.root hp)
    · simp [BvhTree.prims, a9, b9]

end
end Momentum
