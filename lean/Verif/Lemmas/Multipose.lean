import Verif.Spec.Multipose
import Verif.Lemmas.SequenceSolver4
import Verif.Props.BlockQr

/-!
# Several poses at once
-/

namespace Momentum
open Finset
namespace MultiposeFunction

/-- Entries that are changed one after the other, each once. -/
theorem fold_inj {α : Type} (n : Nat) (g : Nat → Nat) (hg : ∀ i < n, ∀ k < n, g i = g k → i = k) (h : Nat → α → α)
    (r : Nat → α) :
    (∀ i < n, (List.range n).foldl (fun r i => Function.update r (g i) (h i (r (g i)))) r (g i) = h i (r (g i))) ∧
    ∀ j, (∀ i < n, g i ≠ j) → (List.range n).foldl (fun r i => Function.update r (g i) (h i (r (g i)))) r j = r j := by
  induction n with
  | zero => exact ⟨fun i hi => absurd hi (Nat.not_lt_zero _), fun _ _ => rfl⟩
  | succ n ih =>
    obtain ⟨i1, i2⟩ := ih fun i hi k hk => hg i (by omega) k (by omega)
    rw [List.range_succ]
    simp only [List.foldl_append, List.foldl_cons, List.foldl_nil]
    refine ⟨fun i hi => ?_, fun j hj => ?_⟩
    · by_cases hin : i = n
      · subst hin
        rw [Function.update_self, i2 _ fun k hk hc => by have := hg k (by omega) i (by omega) hc; omega]
      · rw [Function.update_of_ne fun hc => hin (hg i hi n (by omega) hc), i1 i (by omega)]
    · rw [Function.update_of_ne fun hc => hj n (by omega) hc.symm, i2 j fun i hi => hj i (by omega)]

/-! ### The layout -/

theorem mapStep_fold (u : Nat → Bool) (n : Nat) :
    let s := (List.range n).foldl (mapStep u) (fun _ => 0, [], [])
    (∀ i, i ∈ s.2.1 ↔ i < n ∧ u i = false) ∧ (∀ i, i ∈ s.2.2 ↔ i < n ∧ u i = true) ∧
      s.2.1.Pairwise (· < ·) ∧ s.2.2.Pairwise (· < ·) ∧
      ∀ i < n, (if u i then s.2.2 else s.2.1)[s.1 i]? = some i := by
  induction n with
  | zero => simp
  | succ n ih =>
    obtain ⟨h1, h2, h3, h4, h5⟩ := ih
    rw [List.range_succ, List.foldl_append, List.foldl_cons, List.foldl_nil]
    set s := (List.range n).foldl (mapStep u) (fun _ => 0, [], [])
    unfold mapStep
    have keep : ∀ {l : List Nat} {k i x : Nat}, l[k]? = some i → (l ++ [x])[k]? = some i := fun h => by
      rw [List.getElem?_append_left (List.getElem?_eq_some_iff.1 h).1]; exact h
    by_cases hu : u n = true
    · rw [if_pos hu]
      refine ⟨fun i => ?_, fun i => ?_, h3, ?_, fun i hi => ?_⟩
      · show i ∈ s.2.1 ↔ _
        rw [h1]
        constructor
        · rintro ⟨a, b⟩; exact ⟨by omega, b⟩
        · rintro ⟨a, b⟩
          refine ⟨?_, b⟩
          rcases Nat.lt_succ_iff_lt_or_eq.1 a with a | rfl
          · exact a
          · rw [hu] at b; exact Bool.noConfusion b
      · show i ∈ s.2.2 ++ [n] ↔ _
        rw [List.mem_append, h2, List.mem_singleton]
        constructor
        · rintro (⟨a, b⟩ | rfl)
          · exact ⟨by omega, b⟩
          · exact ⟨by omega, hu⟩
        · rintro ⟨a, b⟩
          rcases Nat.lt_succ_iff_lt_or_eq.1 a with a | rfl
          · exact Or.inl ⟨a, b⟩
          · exact Or.inr rfl
      · show (s.2.2 ++ [n]).Pairwise _
        refine List.pairwise_append.2 ⟨h4, List.pairwise_singleton _ _, fun a ha b hb => ?_⟩
        rw [List.mem_singleton] at hb
        subst hb
        exact ((h2 a).1 ha).1
      · show (if u i then s.2.2 ++ [n] else s.2.1)[Function.update s.1 n s.2.2.length i]? = some i
        by_cases hin : i = n
        · subst hin
          rw [if_pos hu, Function.update_self, List.getElem?_append_right le_rfl]
          simp
        · rw [Function.update_of_ne hin]
          have := h5 i (by omega)
          split_ifs at this ⊢ with hui
          · exact keep this
          · exact this
    · rw [if_neg hu]
      have hu' : u n = false := by simpa using hu
      refine ⟨fun i => ?_, fun i => ?_, ?_, h4, fun i hi => ?_⟩
      · show i ∈ s.2.1 ++ [n] ↔ _
        rw [List.mem_append, h1, List.mem_singleton]
        constructor
        · rintro (⟨a, b⟩ | rfl)
          · exact ⟨by omega, b⟩
          · exact ⟨by omega, hu'⟩
        · rintro ⟨a, b⟩
          rcases Nat.lt_succ_iff_lt_or_eq.1 a with a | rfl
          · exact Or.inl ⟨a, b⟩
          · exact Or.inr rfl
      · show i ∈ s.2.2 ↔ _
        rw [h2]
        constructor
        · rintro ⟨a, b⟩; exact ⟨by omega, b⟩
        · rintro ⟨a, b⟩
          refine ⟨?_, b⟩
          rcases Nat.lt_succ_iff_lt_or_eq.1 a with a | rfl
          · exact a
          · exact absurd b hu
      · show (s.2.1 ++ [n]).Pairwise _
        refine List.pairwise_append.2 ⟨h3, List.pairwise_singleton _ _, fun a ha b hb => ?_⟩
        rw [List.mem_singleton] at hb
        subst hb
        exact ((h1 a).1 ha).1
      · show (if u i then s.2.2 else s.2.1 ++ [n])[Function.update s.1 n s.2.1.length i]? = some i
        by_cases hin : i = n
        · subst hin
          rw [if_neg hu, Function.update_self, List.getElem?_append_right le_rfl]
          simp
        · rw [Function.update_of_ne hin]
          have := h5 i (by omega)
          split_ifs at this ⊢ with hui
          · exact this
          · exact keep this

theorem make_laid (np : Nat) (u : Nat → Bool) (nFrames : Nat) : (make np u nFrames).Laid := by
  obtain ⟨h1, h2, h3, h4, h5⟩ := mapStep_fold u np
  refine ⟨⟨fun i => ?_, fun i => ?_, h3, h4⟩, h5⟩
  · refine (h1 i).trans ⟨fun h => ⟨h.1, rfl, h.2⟩, fun h => ⟨h.1, h.2.2⟩⟩
  · refine (h2 i).trans ⟨fun h => ⟨h.1, rfl, h.2⟩, fun h => ⟨h.1, h.2.2⟩⟩

variable {M : MultiposeFunction}

theorem slot_standsFor (h : M.Laid) {f i : Nat} (hf : f < M.nFrames) (hi : i < M.np) : M.StandsFor (M.slot f i) f i := by
  have := h.map i hi
  refine ⟨hf, ?_⟩
  unfold slot
  split_ifs at this ⊢ with hu
  · exact Or.inr ⟨_, this, rfl⟩
  · exact Or.inl ⟨_, this, rfl⟩

theorem standsFor_iff (h : M.Laid) {f i j : Nat} : M.StandsFor j f i ↔ f < M.nFrames ∧ i < M.np ∧ j = M.slot f i := by
  constructor
  · intro hs
    have hi : i < M.np := SequenceFunction.StandsFor.lt h.sets hs
    exact ⟨hs.1, hi, SequenceFunction.StandsFor.unique h.sets hs (slot_standsFor h hs.1 hi)⟩
  · rintro ⟨hf, hi, rfl⟩
    exact slot_standsFor h hf hi

theorem slot_inj (h : M.Laid) {f : Nat} (hf : f < M.nFrames) : ∀ i < M.np, ∀ k < M.np, M.slot f i = M.slot f k → i = k :=
  fun _ hi _ hk e => SequenceFunction.StandsFor.inj h.sets (slot_standsFor h hf hi) (e ▸ slot_standsFor h hf hk)

theorem setJoined_asSequence (h : M.Laid) (v : Nat → ℝ) : (M.setJoined v).asSequence = M.asSequence.setJoined v := by
  have : (M.setJoined v).frames = (M.asSequence.setJoined v).frames := by
    funext f i
    obtain ⟨a1, a2⟩ := SequenceFunction.setJoined_frames h.sets v f i
    by_cases hf : f < M.nFrames
    · have e : (M.setJoined v).frames f = _ := if_pos hf
      obtain ⟨b1, b2⟩ := fold_inj M.np id (fun _ _ _ _ h => h) (fun i _ => v (M.slot f i)) (M.frames f)
      rw [e]
      by_cases hi : i < M.np
      · exact (b1 i hi).trans (a1 _ (slot_standsFor h hf hi)).symm
      · refine (b2 i fun k hk hc => hi (by rw [← hc]; exact hk)).trans (a2 fun j hj => hi ?_).symm
        exact SequenceFunction.StandsFor.lt h.sets hj
    · have e : (M.setJoined v).frames f = M.frames f := if_neg hf
      rw [e, a2 fun j hj => hf hj.1]
      rfl
  unfold asSequence SequenceFunction.setJoined at this ⊢
  dsimp only at this ⊢
  rw [this]
  rfl

theorem setJoined_laid (h : M.Laid) (v : Nat → ℝ) : (M.setJoined v).Laid := ⟨⟨h.sets.perFrame, h.sets.universal,
  h.sets.perFrameSorted, h.sets.universalSorted⟩, h.map⟩

theorem sum_coord_slot (h : M.Laid) {f : Nat} (hf : f < M.nFrames) (G : Nat → ℝ) (j : Nat) :
    (∀ i < M.np, j = M.slot f i → ∑ i ∈ range M.np, G i * M.asSequence.coord j f i = G i) ∧
    ((∀ i < M.np, M.slot f i ≠ j) → ∑ i ∈ range M.np, G i * M.asSequence.coord j f i = 0) := by
  unfold SequenceFunction.coord
  refine ⟨fun i hi e => ?_, fun hn => ?_⟩
  · rw [sum_eq_single i]
    · rw [if_pos (e ▸ slot_standsFor h hf hi), mul_one]
    · intro k _ hk
      rw [if_neg fun hc => hk (SequenceFunction.StandsFor.inj h.sets hc (e ▸ slot_standsFor h hf hi)), mul_zero]
    · intro hc; exact absurd (mem_range.2 hi) hc
  · apply sum_eq_zero
    intro i hi
    rw [if_neg fun hc : M.asSequence.StandsFor j f i => hn i (mem_range.1 hi) ((standsFor_iff h).1 hc).2.2.symm, mul_zero]

/-! ### Error and gradient -/

theorem frameTerms_terms (M : MultiposeFunction) : M.asSequence.terms = (List.range M.nFrames).flatMap fun f =>
    (weighted (M.frameErrors f)).map fun F => (f, F.toSeq) := by
  have e : M.asSequence.seqTerms = [] := by
    unfold SequenceFunction.seqTerms
    rw [List.flatMap_eq_nil_iff]
    intro f _
    rfl
  unfold SequenceFunction.terms
  rw [e, List.append_nil]
  rfl

theorem getError_asSequence (h : M.Laid) (v : Nat → ℝ) : (M.getError v).1 = (M.asSequence.getError v).1 := by
  rw [SequenceFunction.getError_eq, frameTerms_terms]
  unfold getError
  show (List.range M.nFrames).foldl (fun e f => (weighted (M.frameErrors f)).foldl
    (fun e F => e + F.getError ((M.setJoined v).frames f)) e) 0 = _
  have hfr : (M.setJoined v).frames = (M.asSequence.setJoined v).frames :=
    congrArg SequenceFunction.frames (setJoined_asSequence h v)
  rw [SequenceFunction.sum_flatMap]
  have : ∀ (l : List Nat) (a : ℝ), l.foldl (fun e f => (weighted (M.frameErrors f)).foldl
      (fun e F => e + F.getError ((M.setJoined v).frames f)) e) a = a + (l.map fun f =>
        ((weighted (M.frameErrors f)).map fun F => F.getError ((M.setJoined v).frames f)).sum).sum := by
    intro l
    induction l with
    | nil => intro a; simp
    | cons f l ih => intro a; rw [List.foldl_cons, ih, SequenceFunction.foldl_add, List.map_cons, List.sum_cons, add_assoc]
  rw [this, zero_add]
  congr 1
  apply List.map_congr_left
  intro f _
  rw [List.map_map]
  congr 1
  apply List.map_congr_left
  intro F _
  show _ = F.getError (subspan (M.asSequence.setJoined v).frames f 1 0)
  rw [SequenceFunction.subspan_one, hfr]

theorem gradTerms_eq (p : Nat → ℝ) (l : List ErrorFunction) (a : ℝ) (b : Nat → ℝ) :
    (l.foldl (fun (g : ℝ × (Nat → ℝ)) F => (g.1 + (F.getGradient p).1, fun i => g.2 i + (F.getGradient p).2 i)) (a, b)).1 =
      a + (l.map fun F => (F.getGradient p).1).sum ∧
    ∀ i, (l.foldl (fun (g : ℝ × (Nat → ℝ)) F => (g.1 + (F.getGradient p).1, fun i => g.2 i + (F.getGradient p).2 i)) (a, b)).2 i =
      b i + (l.map fun F => (F.getGradient p).2 i).sum := by
  induction l generalizing a b with
  | nil => simp
  | cons F l ih =>
    rw [List.foldl_cons]
    obtain ⟨h1, h2⟩ := ih (a + (F.getGradient p).1) (fun i => b i + (F.getGradient p).2 i)
    refine ⟨by rw [h1, List.map_cons, List.sum_cons, add_assoc], fun i => by rw [h2, List.map_cons, List.sum_cons, add_assoc]⟩

theorem gradFrame_eq (h : M.Laid) (s : ℝ × (Nat → ℝ)) {f : Nat} (hf : f < M.nFrames) :
    (M.gradFrame s f).1 = s.1 + ((weighted (M.frameErrors f)).map fun F => (F.getGradient (M.frames f)).1).sum ∧
    ∀ j, (M.gradFrame s f).2 j = s.2 j + ((weighted (M.frameErrors f)).map fun F =>
      ∑ i ∈ range M.np, (F.getGradient (M.frames f)).2 i * M.asSequence.coord j f i).sum := by
  obtain ⟨g1, g2⟩ := gradTerms_eq (M.frames f) (weighted (M.frameErrors f)) s.1 fun _ => 0
  refine ⟨g1, fun j => ?_⟩
  rw [← SequenceFunction.list_sum_finset]
  simp only [← SequenceFunction.list_sum_mul]
  obtain ⟨f1, f2⟩ := fold_inj M.np (M.slot f) (slot_inj h hf) (fun i x => x + ((weighted (M.frameErrors f)).foldl
    (fun (g : ℝ × (Nat → ℝ)) F => (g.1 + (F.getGradient (M.frames f)).1, fun i => g.2 i + (F.getGradient (M.frames f)).2 i))
      (s.1, fun _ => 0)).2 i) s.2
  obtain ⟨c1, c2⟩ := sum_coord_slot h hf (fun i => ((weighted (M.frameErrors f)).map fun F =>
    (F.getGradient (M.frames f)).2 i).sum) j
  by_cases hx : ∃ i < M.np, M.slot f i = j
  · obtain ⟨i, hi, rfl⟩ := hx
    refine (f1 i hi).trans ?_
    rw [g2, zero_add, c1 i hi rfl]
  · have hx : ∀ i < M.np, M.slot f i ≠ j := fun i hi e => hx ⟨i, hi, e⟩
    refine (f2 j hx).trans ?_
    rw [c2 hx, add_zero]

theorem getGradient_asSequence (h : M.Laid) (v : Nat → ℝ) : (M.getGradient v).1 = (M.asSequence.getGradient v).1 ∧
    ∀ j, (M.getGradient v).2.1 j = (M.asSequence.getGradient v).2.1 j := by
  obtain ⟨s1, s2⟩ := SequenceFunction.getGradient_eq h.sets (fun f F hF => by cases hF) v
  have hfr : (M.setJoined v).frames = (M.asSequence.setJoined v).frames :=
    congrArg SequenceFunction.frames (setJoined_asSequence h v)
  have key : ∀ n ≤ M.nFrames,
      ((List.range n).foldl (M.setJoined v).gradFrame (0, fun _ => 0)).1 = (((List.range n).flatMap fun f =>
        (weighted (M.frameErrors f)).map fun F => (f, F.toSeq)).map fun T =>
          ((M.asSequence.term T).getGradient v).1).sum ∧
      ∀ j, ((List.range n).foldl (M.setJoined v).gradFrame (0, fun _ => 0)).2 j = (((List.range n).flatMap fun f =>
        (weighted (M.frameErrors f)).map fun F => (f, F.toSeq)).map fun T =>
          ((M.asSequence.term T).getGradient v).2 j).sum := by
    intro n
    induction n with
    | zero => intro _; exact ⟨rfl, fun _ => rfl⟩
    | succ n ih =>
      intro hn
      obtain ⟨i1, i2⟩ := ih (by omega)
      obtain ⟨g1, g2⟩ := gradFrame_eq (setJoined_laid h v) ((List.range n).foldl (M.setJoined v).gradFrame (0, fun _ => 0))
        (f := n) hn
      rw [List.range_succ, List.foldl_append, List.foldl_cons, List.foldl_nil, List.flatMap_append]
      simp only [List.flatMap_cons, List.flatMap_nil, List.append_nil, List.map_append, List.sum_append, List.map_map]
      refine ⟨?_, fun j => ?_⟩
      · rw [g1, i1]
        congr 2
        apply List.map_congr_left
        intro F _
        show _ = (F.getGradient (subspan (M.asSequence.setJoined v).frames n 1 0)).1
        rw [SequenceFunction.subspan_one, hfr]
      · rw [g2, i2]
        congr 2
        apply List.map_congr_left
        intro F _
        show _ = ∑ k ∈ range 1, ∑ i ∈ range M.np,
          (F.getGradient (subspan (M.asSequence.setJoined v).frames n 1 0)).2 (k * M.np + i) * M.asSequence.coord j (n + k) i
        rw [SequenceFunction.subspan_one, sum_range_one, hfr]
        apply sum_congr rfl
        intro i _
        rw [zero_mul, zero_add, add_zero]
        rfl
  rw [s1]
  obtain ⟨k1, k2⟩ := key M.nFrames le_rfl
  rw [frameTerms_terms]
  refine ⟨k1, fun j => ?_⟩
  rw [s2, frameTerms_terms]
  exact k2 j

end MultiposeFunction
end Momentum
