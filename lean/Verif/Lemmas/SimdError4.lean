import Verif.Lemmas.SimdError3

/-!
# The tasks of `getJacobian`
-/

namespace Momentum
open Skeleton
variable {n m W : Nat} {S : SimdStore ℝ n} {C : Nat → List (Fin (n + 1) → ℝ)}

/-! ## One assignment to the lanes of a packet -/

section
variable {α : Type} [DecidableEq α] {cell : Fin W → α} (hinj : Function.Injective cell) (x : Lanes W) (mem : α → ℝ)

omit [DecidableEq α] in
include hinj in
theorem lanes_nodup (load : Bool) :
    ((⟨load, (List.finRange W).map fun (l : Fin W) => (cell l, x l)⟩ : PacketOp α).cells.map (·.1)).Nodup := by
  simp only [List.map_map]
  exact (List.nodup_finRange W).map hinj

include hinj in
theorem lanes_add (a : α) :
    (⟨true, (List.finRange W).map fun (l : Fin W) => (cell l, x l)⟩ : PacketOp α).exec mem a =
      mem a + ∑ l, if cell l = a then x l else 0 := by
  by_cases h : ∃ l, cell l = a
  · obtain ⟨l, rfl⟩ := h
    rw [exec_of_mem _ mem (lanes_nodup hinj x true) (cell l) (x l) (List.mem_map.2 ⟨l, List.mem_finRange l, rfl⟩),
      if_pos rfl]
    congr 1
    simp [hinj.eq_iff]
  · rw [show PacketOp.exec _ mem a = mem a from write_of_notMem _ _ _ _ (by
      simp only [List.map_map, List.mem_map, not_exists]
      rintro l ⟨-, e⟩
      exact h ⟨l, e⟩)]
    rw [Finset.sum_eq_zero, add_zero]
    intro l _
    rw [if_neg fun e => h ⟨l, e⟩]

include hinj in
theorem lanes_set (l : Fin W) :
    (⟨false, (List.finRange W).map fun (l : Fin W) => (cell l, x l)⟩ : PacketOp α).exec mem (cell l) = x l := by
  rw [exec_of_mem _ mem (lanes_nodup hinj x false) (cell l) (x l) (List.mem_map.2 ⟨l, List.mem_finRange l, rfl⟩)]
  rfl

theorem lanes_other (load : Bool) (a : α) (h : ∀ l, cell l ≠ a) :
    (⟨load, (List.finRange W).map fun (l : Fin W) => (cell l, x l)⟩ : PacketOp α).exec mem a = mem a :=
  write_of_notMem _ _ _ _ (by
    simp only [List.map_map, List.mem_map, not_exists]
    rintro l ⟨-, e⟩
    exact h l e)

end

namespace SimdError

/-- The row of an entry. -/
def rowOf : JacCell → Nat
  | .jac _ t => t
  | .res t => t

/-- Assignments within the rows from `lo` to `hi`. -/
def Within (lo hi : Nat) (ops : List (PacketOp JacCell)) : Prop := ∀ a ∈ cellsOf ops, lo ≤ rowOf a ∧ rowOf a < hi

theorem within_append (lo hi : Nat) (ops : List (PacketOp JacCell)) (op : PacketOp JacCell) :
    Within lo hi (ops ++ [op]) ↔ Within lo hi ops ∧ ∀ c ∈ op.cells, lo ≤ rowOf c.1 ∧ rowOf c.1 < hi := by
  unfold Within
  constructor
  · intro h
    refine ⟨fun a ha => h a ?_, fun c hc => h c.1 ?_⟩
    · obtain ⟨o, h1, h2⟩ := mem_cellsOf.1 ha
      exact mem_cellsOf.2 ⟨o, by simp [h1], h2⟩
    · exact mem_cellsOf.2 ⟨op, by simp, List.mem_map.2 ⟨c, hc, rfl⟩⟩
  · rintro ⟨h1, h2⟩ a ha
    obtain ⟨o, h3, h4⟩ := mem_cellsOf.1 ha
    rcases List.mem_append.1 h3 with h | h
    · exact h1 a (mem_cellsOf.2 ⟨o, h, h4⟩)
    · rw [List.mem_singleton.1 h] at h4
      obtain ⟨c, hc, rfl⟩ := List.mem_map.1 h4
      exact h2 c hc

/-- What is tracked: an entry in column `i` or of the residual, or (`none`) whether the assignments stay within the rows. -/
inductive JacTrack where
  | within
  | jac (row : Nat)
  | res (row : Nat)

open Classical in
noncomputable def jacTrack (lo hi i : Nat) (mem : JacCell → ℝ) (k : JacTrack) (ops : List (PacketOp JacCell)) : ℝ :=
  match k with
  | .within => if Within lo hi ops then 0 else 1
  | .jac t => execOps ops mem (.jac i t)
  | .res t => execOps ops mem (.res t)

/-- The entry of a packet in row `t`, or 0. -/
noncomputable def packetAt (offset t : Nat) (jc : Fin m → Lanes W) : ℝ :=
  ∑ c : Fin m, ∑ l : Fin W, if offset + W * c + l = t then jc c l else 0

theorem block_le {offset hi : Nat} (hhi : offset + W * m ≤ hi) (c : Fin m) : offset + W * c + W ≤ hi := by
  have : W * (c.val + 1) ≤ W * m := Nat.mul_le_mul_left _ c.isLt
  rw [Nat.mul_add, Nat.mul_one] at this
  omega

theorem jacCell_inj (i o : Nat) : Function.Injective fun l : Fin W => JacCell.jac i (o + l) := by
  intro a b h
  have : o + a.val = o + b.val := by simpa using h
  exact Fin.ext (by omega)

theorem resCell_inj (o : Nat) : Function.Injective fun l : Fin W => JacCell.res (o + l) := by
  intro a b h
  have : o + a.val = o + b.val := by simpa using h
  exact Fin.ext (by omega)

theorem jacEmit_emits {A : SparseMat ℝ} (hwf : A.WF) (jrows rows offset lo hi i : Nat) (mem : JacCell → ℝ) (hlo : lo ≤ offset)
    (hhi : offset + W * m ≤ hi) (hrows : hi ≤ rows) :
    Emits jrows (jacEmit (m := m) (W := W) A rows offset) (jacTrack lo hi i mem)
      (fun k jc => match k with | .jac t => packetAt offset t jc | _ => 0)
      (fun k row => match k with | .jac _ => A.coeff row i | _ => 0) := by
  intro row jc ops _
  obtain ⟨ops', e1, e2⟩ := foldlM_track (fun (ops : List (PacketOp JacCell)) (c : Fin m) =>
      if offset + W * c + W ≤ rows then
        (A.entries.filter (·.row == row)).foldlM (init := ops) fun ops e =>
          if e.col < A.cols then
            some (ops ++ [⟨true, (List.finRange W).map fun (l : Fin W) =>
              (JacCell.jac e.col (offset + W * c + l), e.val * jc c l)⟩])
          else none
      else none) (jacTrack lo hi i mem)
    (fun k (c : Fin m) => match k with
      | .jac t => (∑ l : Fin W, if offset + W * c + l = t then jc c l else 0) * A.coeff row i
      | _ => 0) (List.finRange m) (by
      intro c _ ops
      have hb := block_le hhi c
      obtain ⟨ops', e1, e2⟩ := foldlM_track (fun (ops : List (PacketOp JacCell)) (e : Triplet ℝ) =>
          if e.col < A.cols then
            some (ops ++ [⟨true, (List.finRange W).map fun (l : Fin W) =>
              (JacCell.jac e.col (offset + W * c + l), e.val * jc c l)⟩])
          else none) (jacTrack lo hi i mem)
        (fun k e => match k with
          | .jac t => if e.col = i then (∑ l : Fin W, if offset + W * c + l = t then jc c l else 0) * e.val else 0
          | _ => 0) (A.entries.filter (·.row == row)) (by
          intro e he ops
          have hw := hwf e (List.mem_of_mem_filter he)
          refine ⟨_, if_pos hw.2, fun k => ?_⟩
          match k with
          | .within =>
            simp only [jacTrack, add_zero]
            congr 1
            rw [within_append, eq_iff_iff, and_iff_left]
            intro x hx
            obtain ⟨l, -, rfl⟩ := List.mem_map.1 hx
            have := l.isLt
            simp only [rowOf]
            omega
          | .jac t =>
            simp only [jacTrack, execOps_append]
            show PacketOp.exec _ _ _ = _
            by_cases hi : e.col = i
            · subst hi
              rw [lanes_add (jacCell_inj e.col _), if_pos rfl, Finset.sum_mul]
              congr 1
              refine Finset.sum_congr rfl fun l _ => ?_
              simp only [JacCell.jac.injEq, true_and, ite_mul, zero_mul]
              congr 1; ring
            · rw [lanes_other _ _ _ _ (fun l h => hi (by simpa using (JacCell.jac.inj h).1)), if_neg hi, add_zero]
          | .res t =>
            simp only [jacTrack, execOps_append, add_zero]
            show PacketOp.exec _ _ _ = _
            exact lanes_other _ _ _ _ (fun l h => by simp at h)) ops
      refine ⟨ops', by rw [if_pos (by omega)]; exact e1, fun k => ?_⟩
      rw [e2]
      match k with
      | .within => simp
      | .res t => simp
      | .jac t => simp only [coeff_sum]) ops
  refine ⟨ops', e1, fun k => ?_⟩
  rw [e2]
  match k with
  | .within => simp
  | .res t => simp
  | .jac t => simp only [packetAt]; rw [← Fin.sum_univ_def, Finset.sum_mul]

theorem resEmit_eq {rows offset lo hi : Nat} (i : Nat) (mem : JacCell → ℝ) (hlo : lo ≤ offset) (hhi : offset + W * m ≤ hi)
    (hrows : hi ≤ rows) (r : Fin m → Lanes W) (ops : List (PacketOp JacCell)) :
    ∃ ops', resEmit rows offset r ops = some ops' ∧ (Within lo hi ops → Within lo hi ops') ∧
      (∀ t, execOps ops' mem (.jac i t) = execOps ops mem (.jac i t)) ∧
      (∀ t, t < offset ∨ offset + W * m ≤ t → execOps ops' mem (.res t) = execOps ops mem (.res t)) ∧
      ∀ (c : Fin m) (l : Fin W), execOps ops' mem (.res (offset + W * c + l)) = r c l := by
  have key : ∀ (L : List (Fin m)) (ops : List (PacketOp JacCell)), L.Nodup →
      ∃ ops', (L.foldlM (init := ops) fun ops (c : Fin m) =>
        if offset + W * c + W ≤ rows then
          some (ops ++ [⟨false, (List.finRange W).map fun (l : Fin W) => (JacCell.res (offset + W * c + l), r c l)⟩])
        else none) = some ops' ∧ (Within lo hi ops → Within lo hi ops') ∧
      (∀ t, execOps ops' mem (.jac i t) = execOps ops mem (.jac i t)) ∧
      (∀ t, (∀ c ∈ L, ∀ l : Fin W, offset + W * c + l ≠ t) → execOps ops' mem (.res t) = execOps ops mem (.res t)) ∧
      ∀ c ∈ L, ∀ l : Fin W, execOps ops' mem (.res (offset + W * c + l)) = r c l := by
    intro L
    induction L with
    | nil => intro ops _; exact ⟨ops, rfl, id, fun _ => rfl, fun _ _ => rfl, by simp⟩
    | cons c L ih =>
      intro ops hn
      rw [List.nodup_cons] at hn
      have hb := block_le hhi c
      obtain ⟨ops', e1, e2, e3, e4, e5⟩ := ih (ops ++ [⟨false, (List.finRange W).map fun (l : Fin W) =>
        (JacCell.res (offset + W * c + l), r c l)⟩]) hn.2
      refine ⟨ops', ?_, ?_, ?_, ?_, ?_⟩
      · rw [List.foldlM_cons, if_pos (by omega)]
        exact e1
      · intro h
        refine e2 ((within_append _ _ _ _).2 ⟨h, ?_⟩)
        intro x hx
        obtain ⟨l, -, rfl⟩ := List.mem_map.1 hx
        have := l.isLt
        simp only [rowOf]
        omega
      · intro t
        rw [e3, execOps_append]
        exact lanes_other _ _ _ _ (fun l h => by simp at h)
      · intro t ht
        rw [e4 t fun c' hc' => ht c' (List.mem_cons_of_mem _ hc'), execOps_append]
        exact lanes_other _ _ _ _ (fun l h => ht c List.mem_cons_self l (by simpa using h))
      · intro c' hc' l
        rcases List.mem_cons.1 hc' with rfl | hc'
        · rw [e4, execOps_append]
          · exact lanes_set (resCell_inj _) _ _ l
          · intro c'' hc'' l' h
            have h1 := l.isLt
            have h2 := l'.isLt
            have hne : c''.val ≠ c'.val := fun h => hn.1 (Fin.ext h ▸ hc'')
            rcases Nat.lt_or_ge c''.val c'.val with h3 | h3
            · have : W * (c''.val + 1) ≤ W * c'.val := Nat.mul_le_mul_left _ h3
              rw [Nat.mul_add, Nat.mul_one] at this
              omega
            · have : W * (c'.val + 1) ≤ W * c''.val := Nat.mul_le_mul_left _ (by omega)
              rw [Nat.mul_add, Nat.mul_one] at this
              omega
        · exact e5 c' hc' l
  obtain ⟨ops', e1, e2, e3, e4, e5⟩ := key (List.finRange m) ops (List.nodup_finRange m)
  refine ⟨ops', e1, e2, e3, fun t ht => e4 t ?_, fun c l => e5 c (List.mem_finRange c) l⟩
  intro c _ l h
  have := block_le (Nat.le_refl (offset + W * m)) c
  have := l.isLt
  rcases ht with ht | ht <;> omega

end SimdError

end Momentum
