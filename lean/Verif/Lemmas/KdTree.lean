import Verif.Model.KdTree
import Verif.Spec.KdTree
import Mathlib.Algebra.Order.BigOperators.Group.Finset
import Mathlib.Tactic.Linarith

/-!
# The tree behind the node vector
-/

namespace Momentum

section
variable {K : Type} [Field K] [LinearOrder K] {n P : Nat}

/-- The lane of a point. -/
def kdPointLane (normals : List (Fin n → K)) (colors : List (Fin 4 → K)) (p : KdPoint K n) : KdLane K n :=
  ⟨p.2, some p.1, normals.getD p.1 fun _ => 0, colors.getD p.1 fun _ => 0⟩

/-- A padding lane. -/
def kdPad (far : K) : KdLane K n := ⟨fun _ => far, none, fun _ => 0, fun _ => 0⟩

theorem kdNumBlocks_ge (hP : 0 < P) (k : Nat) : k ≤ kdNumBlocks P k * P := by
  unfold kdNumBlocks
  have h := Nat.div_add_mod k P
  have hm := Nat.mod_lt k hP
  split_ifs with h0
  · rw [h0] at h; rw [Nat.add_zero, Nat.mul_comm]; omega
  · rw [Nat.add_mul, Nat.one_mul, Nat.mul_comm]; omega

theorem kdNumBlocks_lt (hP : 0 < P) (k b : Nat) (hb : b < kdNumBlocks P k) : b * P < k := by
  unfold kdNumBlocks at hb
  have h := Nat.div_add_mod k P
  have hm := Nat.mod_lt k hP
  split_ifs at hb with h0
  · have : (b + 1) * P ≤ k / P * P := Nat.mul_le_mul_right _ hb
    rw [Nat.add_mul, Nat.one_mul] at this
    rw [Nat.mul_comm] at h; omega
  · have : b * P ≤ k / P * P := Nat.mul_le_mul_right _ (by omega)
    rw [Nat.mul_comm] at h; omega

theorem flat_range (f : Nat → α) (P nb : Nat) :
    (List.range nb).flatMap (fun b => (List.finRange P).map fun k : Fin P => f (b * P + k)) = (List.range (nb * P)).map f := by
  induction nb with
  | zero => simp
  | succ nb ih =>
    rw [List.range_succ, List.flatMap_append, ih, Nat.add_mul, Nat.one_mul, List.range_add, List.map_append]
    congr 1
    simp only [List.flatMap_cons, List.flatMap_nil, List.append_nil, List.map_map]
    apply List.ext_getElem
    · simp
    · intro i h1 h2; simp

/-- The lanes of a leaf, in order: the points, then padding. -/
theorem kdBlocks_flat (hP : 0 < P) (far : K) (normals : List (Fin n → K)) (colors : List (Fin 4 → K))
    (pts : List (KdPoint K n)) :
    ∃ m, (kdBlocks P far normals colors pts).flatMap (fun b => (List.finRange P).map b) =
      pts.map (kdPointLane normals colors) ++ List.replicate m (kdPad far) := by
  refine ⟨kdNumBlocks P pts.length * P - pts.length, ?_⟩
  unfold kdBlocks
  rw [List.flatMap_map]
  rw [flat_range (fun i => kdLane far normals colors pts i)]
  have hge := kdNumBlocks_ge hP pts.length
  apply List.ext_getElem
  · simp; omega
  · intro i h1 h2
    rw [List.getElem_map, List.getElem_range, List.getElem_append]
    unfold kdLane
    split_ifs with h
    · rw [List.length_map] at h
      rw [List.getElem?_eq_getElem h]
      simp [kdPointLane]
    · rw [List.length_map] at h
      rw [List.getElem?_eq_none (not_lt.1 h)]
      simp [kdPad]

/-- The tree that the node vector describes. -/
inductive KdShape (K : Type) (n : Nat) where
  | leaf (box : KdBox K n) (pts : List (KdPoint K n))
  | node (box : KdBox K n) (dim : Fin n) (val : K) (l r : KdShape K n)

namespace KdShape

def points : KdShape K n → List (KdPoint K n)
  | leaf _ pts => pts
  | node _ _ _ l r => l.points ++ r.points

def height : KdShape K n → Nat
  | leaf _ _ => 0
  | node _ _ _ l r => 1 + max l.height r.height

/-- The boxes contain the points, and the split separates them. -/
def Good : KdShape K n → Prop
  | leaf box pts => pts ≠ [] ∧ ∀ p ∈ pts, ∀ d, box.min d ≤ p.2 d ∧ p.2 d ≤ box.max d
  | node box dim val l r => (∀ p ∈ l.points ++ r.points, ∀ d, box.min d ≤ p.2 d ∧ p.2 d ≤ box.max d) ∧
      (∀ p ∈ l.points, p.2 dim ≤ val) ∧ (∀ p ∈ r.points, val ≤ p.2 dim) ∧ l.Good ∧ r.Good

/-- The node vector holds the tree, at positions not below `lo`. -/
def Held (far : K) (normals : List (Fin n → K)) (colors : List (Fin 4 → K)) (nodes : List (KdNode K n))
    (blocks : List (KdBlock K n P)) (lo : Nat) : KdShape K n → Nat → Prop
  | leaf box pts, id => lo ≤ id ∧ ∃ v s, nodes[id]? = some ⟨v, none, s, s + (kdBlocks P far normals colors pts).length, box⟩ ∧
      ∀ k b, (kdBlocks P far normals colors pts)[k]? = some b → blocks[s + k]? = some b
  | node box dim val l r, id => lo ≤ id ∧ ∃ a b, nodes[id]? = some ⟨val, some dim, a, b, box⟩ ∧
      l.Held far normals colors nodes blocks lo a ∧ r.Held far normals colors nodes blocks lo b

theorem Held.mono {far : K} {normals : List (Fin n → K)} {colors : List (Fin 4 → K)} {nodes nodes' : List (KdNode K n)}
    {blocks blocks' : List (KdBlock K n P)} {lo lo' : Nat} (hlo : lo' ≤ lo)
    (h1 : ∀ (i : Nat) x, lo ≤ i → nodes[i]? = some x → nodes'[i]? = some x)
    (h2 : ∀ (i : Nat) x, blocks[i]? = some x → blocks'[i]? = some x) :
    ∀ (t : KdShape K n) (id : Nat), t.Held far normals colors nodes blocks lo id →
      t.Held far normals colors nodes' blocks' lo' id
  | leaf _ _, _, ⟨a, v, s, e1, e2⟩ => ⟨hlo.trans a, v, s, h1 _ _ a e1, fun k b h => h2 _ _ (e2 k b h)⟩
  | node _ _ _ l r, _, ⟨a, x, y, e1, e2, e3⟩ =>
    ⟨hlo.trans a, x, y, h1 _ _ a e1, Held.mono hlo h1 h2 l _ e2, Held.mono hlo h1 h2 r _ e3⟩

end KdShape

theorem kdHull_bounds : ∀ (pts : List (KdPoint K n)) (box : KdBox K n), kdHull pts = some box →
    ∀ p ∈ pts, ∀ d, box.min d ≤ p.2 d ∧ p.2 d ≤ box.max d
  | [], _, h => by simp [kdHull] at h
  | p :: ps, box, h => by
    obtain rfl := Option.some.inj h
    have key : ∀ (l : List (KdPoint K n)) (b : KdBox K n),
        (∀ d, (l.foldl (fun b q => b.extend q.2) b).min d ≤ b.min d ∧ b.max d ≤ (l.foldl (fun b q => b.extend q.2) b).max d) ∧
        ∀ q ∈ l, ∀ d, (l.foldl (fun b q => b.extend q.2) b).min d ≤ q.2 d ∧ q.2 d ≤ (l.foldl (fun b q => b.extend q.2) b).max d := by
      intro l
      induction l with
      | nil => intro b; simp
      | cons a l ih =>
        intro b
        obtain ⟨i1, i2⟩ := ih (b.extend a.2)
        refine ⟨fun d => ⟨(i1 d).1.trans inf_le_left, le_sup_left.trans (i1 d).2⟩, fun q hq d => ?_⟩
        rcases List.mem_cons.1 hq with rfl | hq
        · exact ⟨(i1 d).1.trans inf_le_right, le_sup_right.trans (i1 d).2⟩
        · exact i2 q hq d
    intro q hq d
    rcases List.mem_cons.1 hq with rfl | hq
    · exact (key ps ⟨q.2, q.2⟩).1 d
    · exact (key ps ⟨p.2, p.2⟩).2 q hq d

theorem kdPartition_spec (lib : StdAlgorithms (KdPoint K n) K) (hP : 0 < P) (pts : List (KdPoint K n)) (dim : Fin n)
    (c : K) (h2 : 2 ≤ pts.length) :
    ∃ a b v, kdPartition lib P pts dim c = .ok (a, b, v) ∧ a ≠ [] ∧ b ≠ [] ∧ (a ++ b).Perm pts ∧
      (∀ p ∈ a, p.2 dim ≤ v) ∧ ∀ p ∈ b, v ≤ p.2 dim := by
  unfold kdPartition
  dsimp only
  have hp := lib.partition_perm (fun e => decide (e.2 dim < c)) pts
  have ht := lib.partition_true (fun e => decide (e.2 dim < c)) pts
  have hf := lib.partition_false (fun e => decide (e.2 dim < c)) pts
  generalize lib.partition (fun e => decide (e.2 dim < c)) pts = ab at hp ht hf
  split_ifs with h
  · have hq := lib.nth_perm (fun e => e.2 dim) (pts.length / 2) (ab.1 ++ ab.2)
    have hl := lib.nth_left (fun e => e.2 dim) (pts.length / 2) (ab.1 ++ ab.2)
    have hr := lib.nth_right (fun e => e.2 dim) (pts.length / 2) (ab.1 ++ ab.2)
    generalize lib.nthElement (fun e => e.2 dim) (pts.length / 2) (ab.1 ++ ab.2) = l at hq hl hr
    have hlen : l.length = pts.length := (hq.trans hp).length_eq
    have hlt : pts.length / 2 < l.length := by omega
    rw [List.getElem?_eq_getElem hlt] at hl hr ⊢
    refine ⟨_, _, _, rfl, ?_, ?_, ?_, hl _ rfl, hr _ rfl⟩
    · intro h0
      have := congrArg List.length h0
      rw [List.length_take, List.length_nil] at this
      omega
    · intro h0
      have := congrArg List.length h0
      rw [List.length_drop, List.length_nil] at this
      omega
    · rw [List.take_append_drop]; exact hq.trans hp
  · push Not at h
    refine ⟨_, _, _, rfl, ?_, ?_, hp, fun p hp' => ?_, fun p hp' => ?_⟩
    · intro h0; rw [h0] at h; simp at h; omega
    · intro h0; rw [h0] at h; simp at h; omega
    · have := ht p hp'; simp only [decide_eq_true_eq] at this; exact this.le
    · have := hf p hp'; simp only [decide_eq_false_iff_not, not_lt] at this; exact this

/-- What `split` establishes. -/
structure SplitGood (far : K) (normals : List (Fin n → K)) (colors : List (Fin 4 → K)) (fuel : Nat)
    (pts : List (KdPoint K n)) (st st' : KdBuild K n P) (id : Nat) (t : KdShape K n) : Prop where
  perm : t.points.Perm pts
  good : t.Good
  height : t.height ≤ fuel
  held : t.Held far normals colors st'.nodes st'.blocks st.nodes.length id
  nodes : ∀ (i : Nat) x, st.nodes[i]? = some x → st'.nodes[i]? = some x
  blocks : ∀ (i : Nat) x, st.blocks[i]? = some x → st'.blocks[i]? = some x
  depth : st.depth ≤ kdMaxDepth → st'.depth ≤ kdMaxDepth
  longer : st.nodes.length < st'.nodes.length

theorem append_some {α : Type} {l : List α} {i : Nat} {x : α} (l' : List α) (h : l[i]? = some x) :
    (l ++ l')[i]? = some x := by
  have hi : i < l.length := by
    by_contra hh
    rw [List.getElem?_eq_none (not_lt.1 hh)] at h
    simp at h
  rw [List.getElem?_append_left hi]; exact h

theorem kdBlocks_length (far : K) (normals : List (Fin n → K)) (colors : List (Fin 4 → K)) (pts : List (KdPoint K n)) :
    (kdBlocks P far normals colors pts).length = kdNumBlocks P pts.length := by
  simp [kdBlocks]

theorem kdNumBlocks_pos (hP : 0 < P) {k : Nat} (hk : 0 < k) : 0 < kdNumBlocks P k := by
  by_contra h
  have h0 : kdNumBlocks P k = 0 := by omega
  have := kdNumBlocks_ge hP k
  rw [h0] at this; omega

theorem kdLeaf_spec (hP : 0 < P) (far : K) (normals : List (Fin n → K)) (colors : List (Fin 4 → K)) (fuel : Nat)
    (pts : List (KdPoint K n)) (h0 : pts ≠ []) (box : KdBox K n)
    (hb : ∀ p ∈ pts, ∀ d, box.min d ≤ p.2 d ∧ p.2 d ≤ box.max d) (st : KdBuild K n P) :
    ∃ st' id, kdLeaf far normals colors pts box st = .ok (st', id) ∧
      SplitGood far normals colors fuel pts st st' id (.leaf box pts) := by
  have hl : 0 < (kdBlocks P far normals colors pts).length := by
    rw [kdBlocks_length]
    exact kdNumBlocks_pos hP (List.length_pos_iff.2 h0)
  unfold kdLeaf
  dsimp only
  rw [if_pos (by rw [List.length_append]; omega)]
  refine ⟨_, _, rfl, List.Perm.refl _, ⟨h0, hb⟩, Nat.zero_le _, ⟨le_rfl, 0, st.blocks.length, ?_, ?_⟩,
    fun i x h => append_some _ h, fun i x h => append_some _ h, id, ?_⟩
  · rw [List.getElem?_append_right le_rfl]; simp
  · intro k b h
    rw [List.getElem?_append_right (by omega), Nat.add_sub_cancel_left]; exact h
  · simp

theorem kdSplit_spec [NeZero n] (lib : StdAlgorithms (KdPoint K n) K) (hP : 0 < P) (far : K) (normals : List (Fin n → K))
    (colors : List (Fin 4 → K)) : ∀ (fuel : Nat) (pts : List (KdPoint K n)) (st : KdBuild K n P), fuel ≤ kdMaxDepth →
      pts ≠ [] → ∃ st' id t, kdSplit lib far normals colors fuel pts st = .ok (st', id) ∧
        SplitGood far normals colors fuel pts st st' id t := by
  intro fuel
  induction fuel with
  | zero =>
    intro pts st _ h0
    obtain ⟨box, hbox⟩ : ∃ box, kdHull pts = some box := by
      cases pts with
      | nil => exact absurd rfl h0
      | cons p ps => exact ⟨_, rfl⟩
    obtain ⟨st', id, e, g⟩ := kdLeaf_spec hP far normals colors 0 pts h0 box (kdHull_bounds pts box hbox)
      ({ st with depth := max (kdMaxDepth - 0) st.depth } : KdBuild K n P)
    refine ⟨st', id, _, ?_, g.perm, g.good, g.height, g.held, g.nodes, g.blocks, fun h => g.depth (max_le (Nat.sub_le _ _) h), g.longer⟩
    unfold kdSplit
    rw [hbox]
    exact e
  | succ fuel ih =>
    intro pts st hf h0
    obtain ⟨box, hbox⟩ : ∃ box, kdHull pts = some box := by
      cases pts with
      | nil => exact absurd rfl h0
      | cons p ps => exact ⟨_, rfl⟩
    have hb := kdHull_bounds pts box hbox
    unfold kdSplit
    rw [hbox]
    dsimp only
    generalize hst : ({ st with depth := max (kdMaxDepth - (fuel + 1)) st.depth } : KdBuild K n P) = st0
    have hn0 : st0.nodes = st.nodes := by rw [← hst]
    have hb0 : st0.blocks = st.blocks := by rw [← hst]
    have hd0 : st.depth ≤ kdMaxDepth → st0.depth ≤ kdMaxDepth := by
      rw [← hst]; exact fun h => max_le (Nat.sub_le _ _) h
    split_ifs with h8
    · obtain ⟨st', id, e, g⟩ := kdLeaf_spec hP far normals colors (fuel + 1) pts h0 box hb st0
      refine ⟨st', id, _, e, g.perm, g.good, g.height, hn0 ▸ g.held, hn0 ▸ g.nodes, hb0 ▸ g.blocks, fun h => g.depth (hd0 h), hn0 ▸ g.longer⟩
    · have hlen : 2 ≤ pts.length := by
        by_contra hh
        have h1 : pts.length = 1 := by
          have := List.length_pos_iff.2 h0; omega
        apply h8
        rw [h1]
        unfold kdNumBlocks
        have : 1 / P ≤ 1 := Nat.div_le_self _ _
        split_ifs <;> omega
      obtain ⟨a, b, v, e, ha, hbn, hperm, hl, hr⟩ := kdPartition_spec lib hP pts box.longestAxis
        ((box.min box.longestAxis + box.max box.longestAxis) / 2) hlen
      rw [e]
      simp only [Outcome.bind]
      rw [if_neg (by rw [not_or]; exact ⟨ha, hbn⟩)]
      obtain ⟨sl, il, tl, el, gl⟩ := ih a
        ({ st0 with nodes := st0.nodes ++ [⟨v, some box.longestAxis, 0, 0, box⟩] } : KdBuild K n P) (by omega) ha
      obtain ⟨sr, ir, tr, er, gr⟩ := ih b sl (by omega) hbn
      have el' := el
      rw [← hst] at el'
      dsimp only at el'
      rw [el']
      dsimp only
      rw [er]
      dsimp only
      rw [← hn0]
      have llen := gl.longer
      simp only [List.length_append, List.length_singleton] at llen
      have rlen := gr.longer
      have hset : ∀ i x, st0.nodes.length + 1 ≤ i → sr.nodes[i]? = some x →
          (sr.nodes.set st0.nodes.length ⟨v, some box.longestAxis, il, ir, box⟩)[i]? = some x := by
        intro i x hi h
        rw [List.getElem?_set_ne (by omega)]; exact h
      refine ⟨_, _, .node box box.longestAxis v tl tr, rfl, ?_, ⟨?_, ?_, ?_, gl.good, gr.good⟩, ?_, ⟨?_, il, ir, ?_, ?_, ?_⟩, ?_, ?_, ?_, ?_⟩
      · exact (gl.perm.append gr.perm).trans hperm
      · intro p hp
        exact hb p (((gl.perm.append gr.perm).trans hperm).mem_iff.1 hp)
      · exact fun p hp => hl p (gl.perm.mem_iff.1 hp)
      · exact fun p hp => hr p (gr.perm.mem_iff.1 hp)
      · simp only [KdShape.height]
        have := gl.height
        have := gr.height
        omega
      · rw [hn0]
      · rw [List.getElem?_set_self (by omega)]
      · refine gl.held.mono (by simp [hn0]) (fun i x hi h => ?_) gr.blocks
        simp only [List.length_append, List.length_singleton] at hi
        exact hset i x hi (gr.nodes i x h)
      · refine gr.held.mono (by rw [← hn0]; omega) (fun i x hi h => hset i x (by omega) h) (fun _ _ h => h)
      · intro i x h
        rw [← hn0] at h
        have hi : i < st0.nodes.length := by
          by_contra hh
          rw [List.getElem?_eq_none (not_lt.1 hh)] at h
          simp at h
        rw [List.getElem?_set_ne (by omega)]
        exact gr.nodes i x (gl.nodes i x (append_some _ h))
      · intro i x h
        rw [← hb0] at h
        exact gr.blocks i x (gl.blocks i x h)
      · exact fun h => gr.depth (gl.depth (hd0 h))
      · rw [List.length_set, ← hn0]; omega

end
end Momentum
