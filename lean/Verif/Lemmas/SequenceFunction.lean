import Verif.Spec.SequenceFunction
import Verif.Props.SolverGradient

/-!
# Lemmas about the objective of a sequence
-/

namespace Momentum
namespace SequenceFunction
open Finset

/-- Entries `base, base + 1, …` are changed one after the other. -/
theorem fold_shift {α : Type} (base n : Nat) (h : Nat → α → α) (r : Nat → α) (j : Nat) :
    (List.range n).foldl (fun r k => Function.update r (base + k) (h k (r (base + k)))) r j =
      if base ≤ j ∧ j < base + n then h (j - base) (r j) else r j := by
  induction n generalizing j with
  | zero => rw [if_neg (by omega)]; rfl
  | succ n ih =>
    rw [List.range_succ, List.foldl_append, List.foldl_cons, List.foldl_nil]
    by_cases hj : j = base + n
    · subst hj
      rw [Function.update_self, ih, if_neg (by omega), if_pos (by omega), Nat.add_sub_cancel_left]
    · rw [Function.update_of_ne hj, ih]
      by_cases hb : base ≤ j ∧ j < base + n
      · rw [if_pos hb, if_pos (by omega)]
      · rw [if_neg hb, if_neg (by omega)]

/-- The entries with the indices in a list are set. -/
theorem fold_list (l : List Nat) (hn : l.Nodup) (g : Nat → ℝ) (p : Nat → ℝ) :
    (∀ k i, l[k]? = some i → (List.range l.length).foldl (fun p k => Function.update p (l.getD k 0) (g k)) p i = g k) ∧
    ∀ i, i ∉ l → (List.range l.length).foldl (fun p k => Function.update p (l.getD k 0) (g k)) p i = p i := by
  have key : ∀ n ≤ l.length,
      (∀ k i, k < n → l[k]? = some i →
        (List.range n).foldl (fun p k => Function.update p (l.getD k 0) (g k)) p i = g k) ∧
      ∀ i, (∀ k < n, l[k]? ≠ some i) → (List.range n).foldl (fun p k => Function.update p (l.getD k 0) (g k)) p i = p i := by
    intro n
    induction n with
    | zero => intro _; exact ⟨fun k i h => by omega, fun i _ => rfl⟩
    | succ n ih =>
      intro hle
      obtain ⟨h1, h2⟩ := ih (by omega)
      have hl : l[n]? = some (l[n]'(by omega)) := List.getElem?_eq_getElem (by omega)
      have hd : l.getD n 0 = l[n]'(by omega) := by rw [List.getD_eq_getElem?_getD, hl]; rfl
      rw [List.range_succ, List.foldl_append, List.foldl_cons, List.foldl_nil, hd]
      refine ⟨fun k i hk hi => ?_, fun i hi => ?_⟩
      · by_cases hkn : k = n
        · subst hkn
          rw [hl, Option.some.injEq] at hi
          rw [← hi, Function.update_self]
        · have hne : i ≠ l[n]'(by omega) := by
            intro e
            have := (List.getElem?_inj (List.getElem?_eq_some_iff.1 hi).1 hn).1 (hi.trans (e ▸ hl.symm))
            exact hkn this
          rw [Function.update_of_ne hne]
          exact h1 k i (by omega) hi
      · have hne : i ≠ l[n]'(by omega) := fun e => hi n (by omega) (e ▸ hl)
        rw [Function.update_of_ne hne]
        exact h2 i fun k hk => hi k (by omega)
  obtain ⟨h1, h2⟩ := key l.length le_rfl
  exact ⟨fun k i hk => h1 k i (List.getElem?_eq_some_iff.1 hk).1 hk, fun i hi => h2 i fun k _ hk => hi (List.mem_of_getElem? hk)⟩

variable {S : SequenceFunction} {active : Nat → Bool}

theorem Sets.nodup (h : S.Sets active) : S.perFrame.Nodup ∧ S.universal.Nodup :=
  ⟨h.perFrameSorted.imp fun h => Nat.ne_of_lt h, h.universalSorted.imp fun h => Nat.ne_of_lt h⟩

theorem Sets.disjoint (h : S.Sets active) {i : Nat} (h1 : i ∈ S.perFrame) : i ∉ S.universal := fun h2 => by
  have a := ((h.perFrame i).1 h1).2.2
  rw [((h.universal i).1 h2).2.2] at a
  exact Bool.noConfusion a

/-- The two places of a per-frame entry. -/
theorem slot_lt {P f n k : Nat} (hf : f < n) (hk : k < P) : P * f + k < P * n := by
  calc P * f + k < P * f + P := by omega
    _ = P * (f + 1) := by ring
    _ ≤ P * n := Nat.mul_le_mul_left _ hf

theorem slot_inj {P f f' k k' : Nat} (hk : k < P) (hk' : k' < P) (h : P * f + k = P * f' + k') : f = f' ∧ k = k' := by
  have hP : 0 < P := by omega
  have h1 : (P * f + k) / P = f := by rw [Nat.mul_add_div hP, Nat.div_eq_of_lt hk, add_zero]
  have h2 : (P * f' + k') / P = f' := by rw [Nat.mul_add_div hP, Nat.div_eq_of_lt hk', add_zero]
  have : f = f' := by rw [← h1, h, h2]
  subst this
  exact ⟨rfl, by omega⟩

theorem StandsFor.lt (h : S.Sets active) {j f i : Nat} (hj : S.StandsFor j f i) : i < S.np := by
  obtain ⟨-, ⟨k, hk, -⟩ | ⟨k, hk, -⟩⟩ := hj
  · exact ((h.perFrame i).1 (List.mem_of_getElem? hk)).1
  · exact ((h.universal i).1 (List.mem_of_getElem? hk)).1

/-- An entry stands for at most one parameter of a frame. -/
theorem StandsFor.enabled (h : S.Sets active) {j f i : Nat} (hj : S.StandsFor j f i) : active i = true := by
  obtain ⟨-, ⟨k, hk, -⟩ | ⟨k, hk, -⟩⟩ := hj
  · exact ((h.perFrame i).1 (List.mem_of_getElem? hk)).2.1
  · exact ((h.universal i).1 (List.mem_of_getElem? hk)).2.1

theorem StandsFor.inj (h : S.Sets active) {j f i i' : Nat} (hj : S.StandsFor j f i) (hj' : S.StandsFor j f i') : i = i' := by
  obtain ⟨hf, ⟨k, hk, e⟩ | ⟨k, hk, e⟩⟩ := hj <;> obtain ⟨-, ⟨k', hk', e'⟩ | ⟨k', hk', e'⟩⟩ := hj'
  · have : k = k' := by omega
    subst this
    rw [hk] at hk'; exact Option.some.inj hk'
  · have := slot_lt hf (List.getElem?_eq_some_iff.1 hk).1
    omega
  · have := slot_lt hf (List.getElem?_eq_some_iff.1 hk').1
    omega
  · have : k = k' := by omega
    subst this
    rw [hk] at hk'; exact Option.some.inj hk'

/-- A parameter of a frame has at most one entry. -/
theorem StandsFor.unique (h : S.Sets active) {j j' f i : Nat} (hj : S.StandsFor j f i) (hj' : S.StandsFor j' f i) : j = j' := by
  have inj : ∀ {l : List Nat} (_ : l.Nodup) {k k' : Nat}, l[k]? = some i → l[k']? = some i → k = k' :=
    fun hn _ _ a b => (List.getElem?_inj (List.getElem?_eq_some_iff.1 a).1 hn).1 (a.trans b.symm)
  obtain ⟨hf, ⟨k, hk, e⟩ | ⟨k, hk, e⟩⟩ := hj <;> obtain ⟨-, ⟨k', hk', e'⟩ | ⟨k', hk', e'⟩⟩ := hj'
  · have := inj h.nodup.1 hk hk'; subst this; omega
  · exact absurd (List.mem_of_getElem? hk') (h.disjoint (List.mem_of_getElem? hk))
  · exact absurd (List.mem_of_getElem? hk) (h.disjoint (List.mem_of_getElem? hk'))
  · have := inj h.nodup.2 hk hk'; subst this; omega

/-- The parameters of the frames after `setJoinedParameterVector`. -/
theorem setJoined_frames (h : S.Sets active) (v : Nat → ℝ) (f i : Nat) :
    (∀ j, S.StandsFor j f i → (S.setJoined v).frames f i = v j) ∧
    ((∀ j, ¬ S.StandsFor j f i) → (S.setJoined v).frames f i = S.frames f i) := by
  obtain ⟨n1, n2⟩ := h.nodup
  obtain ⟨a1, a2⟩ := fold_list S.perFrame n1 (fun k => v (S.perFrame.length * f + k)) (S.frames f)
  by_cases hf : f < S.nFrames
  · have e : (S.setJoined v).frames f = S.setFrame v f (S.frames f) := if_pos hf
    rw [e]
    unfold setFrame
    obtain ⟨b1, b2⟩ := fold_list S.universal n2 (fun k => v (S.perFrame.length * S.nFrames + k))
      ((List.range S.perFrame.length).foldl (fun p k => Function.update p (S.perFrame.getD k 0)
        (v (S.perFrame.length * f + k))) (S.frames f))
    refine ⟨fun j hj => ?_, fun hn => ?_⟩
    · obtain ⟨-, ⟨k, hk, rfl⟩ | ⟨k, hk, rfl⟩⟩ := hj
      · rw [b2 i (h.disjoint (List.mem_of_getElem? hk))]
        exact a1 k i hk
      · exact b1 k i hk
    · rw [b2 i, a2 i]
      · intro hi
        obtain ⟨k, hk⟩ := List.getElem?_of_mem hi
        exact hn _ ⟨hf, Or.inl ⟨k, hk, rfl⟩⟩
      · intro hi
        obtain ⟨k, hk⟩ := List.getElem?_of_mem hi
        exact hn _ ⟨hf, Or.inr ⟨k, hk, rfl⟩⟩
  · have e : (S.setJoined v).frames f = S.frames f := if_neg hf
    rw [e]
    exact ⟨fun j hj => absurd hj.1 hf, fun _ => rfl⟩

open Classical in
/-- 1 where entry `j` stands for the parameter, 0 elsewhere. -/
noncomputable def coord (S : SequenceFunction) (j f i : Nat) : ℝ := if S.StandsFor j f i then 1 else 0

theorem setJoined_update (h : S.Sets active) (v : Nat → ℝ) (j : Nat) (u : ℝ) (f i : Nat) :
    (S.setJoined (Function.update v j u)).frames f i = (S.setJoined v).frames f i + (u - v j) * S.coord j f i := by
  obtain ⟨a1, a2⟩ := setJoined_frames h v f i
  obtain ⟨b1, b2⟩ := setJoined_frames h (Function.update v j u) f i
  unfold coord
  by_cases hj : S.StandsFor j f i
  · rw [if_pos hj, a1 j hj, b1 j hj, Function.update_self]; ring
  · rw [if_neg hj, mul_zero, add_zero]
    by_cases hx : ∃ j', S.StandsFor j' f i
    · obtain ⟨j', hj'⟩ := hx
      have : j' ≠ j := by rintro rfl; exact hj hj'
      rw [a1 j' hj', b1 j' hj', Function.update_of_ne this]
    · rw [a2 fun j' hj' => hx ⟨j', hj'⟩, b2 fun j' hj' => hx ⟨j', hj'⟩]

/-- A sum over the parameters of a frame picks the one that an entry stands for. -/
theorem sum_coord (h : S.Sets active) (j f : Nat) (hf : f < S.nFrames) (G : Nat → ℝ) :
    ∑ i ∈ range S.np, G i * S.coord j f i =
      if S.perFrame.length * f ≤ j ∧ j < S.perFrame.length * f + S.perFrame.length then
        G (S.perFrame.getD (j - S.perFrame.length * f) 0)
      else if S.perFrame.length * S.nFrames ≤ j ∧ j < S.perFrame.length * S.nFrames + S.universal.length then
        G (S.universal.getD (j - S.perFrame.length * S.nFrames) 0)
      else 0 := by
  have pick : ∀ i, S.StandsFor j f i → ∑ i ∈ range S.np, G i * S.coord j f i = G i := by
    intro i hi
    rw [sum_eq_single i]
    · unfold coord; rw [if_pos hi, mul_one]
    · intro i' _ hne
      unfold coord
      rw [if_neg fun hc => hne (hc.inj h hi), mul_zero]
    · intro hc
      exact absurd (mem_range.2 (hi.lt h)) hc
  have get : ∀ (l : List Nat) k, k < l.length → l[k]? = some (l.getD k 0) := by
    intro l k hk
    rw [List.getD_eq_getElem?_getD, List.getElem?_eq_getElem hk]; rfl
  split_ifs with h1 h2
  · exact pick _ ⟨hf, Or.inl ⟨j - S.perFrame.length * f, get _ _ (by omega), by omega⟩⟩
  · exact pick _ ⟨hf, Or.inr ⟨j - S.perFrame.length * S.nFrames, get _ _ (by omega), by omega⟩⟩
  · apply sum_eq_zero
    intro i _
    unfold coord
    rw [if_neg, mul_zero]
    rintro ⟨-, ⟨k, hk, e⟩ | ⟨k, hk, e⟩⟩
    · have := (List.getElem?_eq_some_iff.1 hk).1
      exact h1 ⟨by omega, by omega⟩
    · have := (List.getElem?_eq_some_iff.1 hk).1
      exact h2 ⟨by omega, by omega⟩

theorem gatherFrame_eq (h : S.Sets active) (full g : Nat → ℝ) (f : Nat) (hf : f < S.nFrames) (j : Nat) :
    S.gatherFrame full g f j = g j + ∑ i ∈ range S.np, full (f * S.np + i) * S.coord j f i := by
  rw [sum_coord h j f hf fun i => full (f * S.np + i)]
  unfold gatherFrame
  rw [fold_shift (S.perFrame.length * S.nFrames) S.universal.length (fun k x => x + full (f * S.np + S.universal.getD k 0)),
    fold_shift (S.perFrame.length * f) S.perFrame.length (fun k x => x + full (f * S.np + S.perFrame.getD k 0))]
  have hlt : S.perFrame.length * f + S.perFrame.length ≤ S.perFrame.length * S.nFrames := by
    calc _ = S.perFrame.length * (f + 1) := by ring
      _ ≤ _ := Nat.mul_le_mul_left _ hf
  by_cases h1 : S.perFrame.length * f ≤ j ∧ j < S.perFrame.length * f + S.perFrame.length
  · rw [if_pos h1, if_pos h1, if_neg (by omega)]
  · rw [if_neg h1, if_neg h1]
    split_ifs <;> simp

theorem gather_eq (h : S.Sets active) (full : Nat → ℝ) (j : Nat) :
    (List.range S.nFrames).foldl (S.gatherFrame full) (fun _ => 0) j =
      ∑ f ∈ range S.nFrames, ∑ i ∈ range S.np, full (f * S.np + i) * S.coord j f i := by
  have key : ∀ n ≤ S.nFrames, (List.range n).foldl (S.gatherFrame full) (fun _ => 0) j =
      ∑ f ∈ range n, ∑ i ∈ range S.np, full (f * S.np + i) * S.coord j f i := by
    intro n
    induction n with
    | zero => intro _; rfl
    | succ n ih =>
      intro hn
      rw [List.range_succ, List.foldl_append, List.foldl_cons, List.foldl_nil, gatherFrame_eq h _ _ _ (by omega),
        ih (by omega), sum_range_succ]
  exact key _ le_rfl

/-! ### All error functions alike -/

/-- An error function of one frame as one of a sequence of one frame. -/
def _root_.Momentum.ErrorFunction.toSeq (F : ErrorFunction) : SeqErrorFunction :=
  ⟨F.weight, 1, F.jacobianSize, fun p => F.getError (p 0), fun p => F.getGradient (p 0), fun p => F.getJacobian (p 0)⟩

theorem subspan_one (frames : Nat → Nat → ℝ) (f : Nat) : subspan frames f 1 0 = frames f := by
  funext i; simp [subspan]

/-- The error functions of the frames. -/
noncomputable def frameTerms (S : SequenceFunction) : List (Nat × SeqErrorFunction) :=
  (List.range S.nFrames).flatMap fun f => (weighted (S.frameErrors f)).map fun F => (f, F.toSeq)

/-- The sequence error functions. -/
noncomputable def seqTerms (S : SequenceFunction) : List (Nat × SeqErrorFunction) :=
  (List.range S.nFrames).flatMap fun f => (weightedSeq (S.sequenceErrors f)).map fun F => (f, F)

noncomputable def terms (S : SequenceFunction) : List (Nat × SeqErrorFunction) := S.frameTerms ++ S.seqTerms

theorem foldl_range_flatMap {α β : Type} (n : Nat) (g : Nat → List β) (step : α → β → α) (s : α) :
    (List.range n).foldl (fun s f => (g f).foldl step s) s = ((List.range n).flatMap g).foldl step s := by
  rw [List.foldl_flatMap]

/-- The error of a term for a joined vector. -/
noncomputable def term (S : SequenceFunction) (T : Nat × SeqErrorFunction) : ErrorFunction where
  weight := T.2.weight
  jacobianSize := T.2.jacobianSize
  getError v := T.2.getError (subspan (S.setJoined v).frames T.1 T.2.numFrames)
  getGradient v :=
    let g := T.2.getGradient (subspan (S.setJoined v).frames T.1 T.2.numFrames)
    (g.1, fun j => ∑ k ∈ range T.2.numFrames, ∑ i ∈ range S.np, g.2 (k * S.np + i) * S.coord j (T.1 + k) i)
  getJacobian v :=
    let r := T.2.getJacobian (subspan (S.setJoined v).frames T.1 T.2.numFrames)
    ⟨r.error, r.rows, fun j t => ∑ k ∈ range T.2.numFrames, ∑ i ∈ range S.np, r.e (k * S.np + i) t * S.coord j (T.1 + k) i,
      r.residual⟩

theorem sum_flatMap {α : Type} (n : Nat) (g : Nat → List α) (x : α → ℝ) :
    (((List.range n).flatMap g).map x).sum = ((List.range n).map fun f => ((g f).map x).sum).sum := by
  induction n with
  | zero => rfl
  | succ n ih =>
    rw [List.range_succ, List.flatMap_append, List.map_append, List.sum_append, ih, List.map_append, List.sum_append]
    simp

theorem foldl_add {α : Type} (l : List α) (x : α → ℝ) (a : ℝ) : l.foldl (fun e F => e + x F) a = a + (l.map x).sum :=
  foldl_add_sum l x a

/-- `getError` is the sum of all terms. -/
theorem getError_eq (S : SequenceFunction) (v : Nat → ℝ) :
    (S.getError v).1 = (S.terms.map fun T => (S.term T).getError v).sum := by
  unfold getError
  show (List.range S.nFrames).foldl (fun e f => e + (S.setJoined v).frameError f) 0 = _
  rw [foldl_add (List.range S.nFrames) (fun f => (S.setJoined v).frameError f), zero_add]
  unfold terms frameTerms seqTerms
  rw [List.map_append, List.sum_append, sum_flatMap, sum_flatMap, ← List.sum_map_add]
  congr 1
  apply List.map_congr_left
  intro f _
  unfold frameError
  rw [foldl_add, foldl_add, zero_add, List.map_map, List.map_map]
  have e1 : ((fun T => (S.term T).getError v) ∘ fun F : ErrorFunction => (f, F.toSeq)) =
      fun F => F.getError ((S.setJoined v).frames f) := by
    funext F
    show F.getError (subspan (S.setJoined v).frames f 1 0) = _
    rw [subspan_one]
  rw [e1]
  rfl

/-- One term of the loops of `getGradient`. -/
noncomputable def gradTerm (S : SequenceFunction) (s : ℝ × (Nat → ℝ)) (T : Nat × SeqErrorFunction) : ℝ × (Nat → ℝ) :=
  (s.1 + (T.2.getGradient (subspan S.frames T.1 T.2.numFrames)).1,
    addSegment (T.1 * S.np) (T.2.numFrames * S.np) (T.2.getGradient (subspan S.frames T.1 T.2.numFrames)).2 s.2)

theorem gradFolds (S : SequenceFunction) :
    (List.range S.nFrames).foldl S.gradSeq ((List.range S.nFrames).foldl S.gradFrame (0, fun _ => 0)) =
      S.terms.foldl S.gradTerm (0, fun _ => 0) := by
  unfold terms
  rw [List.foldl_append]
  have e1 : (List.range S.nFrames).foldl S.gradFrame (0, fun _ => 0) = S.frameTerms.foldl S.gradTerm (0, fun _ => 0) := by
    unfold frameTerms
    rw [List.foldl_flatMap]
    congr 1
    funext s f
    unfold gradFrame
    rw [List.foldl_map]
    congr 1
    funext s F
    unfold gradTerm
    show _ = (s.1 + (F.getGradient (subspan S.frames f 1 0)).1,
      addSegment (f * S.np) (1 * S.np) (F.getGradient (subspan S.frames f 1 0)).2 s.2)
    rw [subspan_one, one_mul]
  rw [e1]
  unfold seqTerms
  rw [List.foldl_flatMap]
  congr 1
  funext s f
  unfold gradSeq
  rw [List.foldl_map]
  rfl

theorem gradTerms (S : SequenceFunction) (l : List (Nat × SeqErrorFunction)) (s : ℝ × (Nat → ℝ)) :
    (l.foldl S.gradTerm s).1 = s.1 + (l.map fun T => (T.2.getGradient (subspan S.frames T.1 T.2.numFrames)).1).sum ∧
    ∀ f i, i < S.np → (l.foldl S.gradTerm s).2 (f * S.np + i) = s.2 (f * S.np + i) + (l.map fun T =>
      if T.1 ≤ f ∧ f < T.1 + T.2.numFrames then
        (T.2.getGradient (subspan S.frames T.1 T.2.numFrames)).2 ((f - T.1) * S.np + i) else 0).sum := by
  induction l generalizing s with
  | nil => exact ⟨by simp, fun f i _ => by simp⟩
  | cons T l ih =>
    obtain ⟨h1, h2⟩ := ih (S.gradTerm s T)
    rw [List.foldl_cons, h1]
    refine ⟨by unfold gradTerm; simp only [List.map_cons, List.sum_cons]; ring, fun f i hi => ?_⟩
    rw [h2 f i hi, List.map_cons, List.sum_cons, ← add_assoc]
    congr 1
    show addSegment _ _ _ _ _ = _
    unfold addSegment
    by_cases hf : T.1 ≤ f ∧ f < T.1 + T.2.numFrames
    · have ha : T.1 * S.np ≤ f * S.np + i := (Nat.mul_le_mul_right _ hf.1).trans (Nat.le_add_right _ _)
      have hb : f * S.np + i < T.1 * S.np + T.2.numFrames * S.np := by
        calc f * S.np + i < (f + 1) * S.np := by rw [add_mul, one_mul]; omega
          _ ≤ (T.1 + T.2.numFrames) * S.np := Nat.mul_le_mul_right _ hf.2
          _ = _ := by ring
      rw [if_pos ⟨ha, hb⟩, if_pos hf]
      have e : f * S.np + i - T.1 * S.np = (f - T.1) * S.np + i := by
        rw [Nat.sub_mul]
        have := Nat.mul_le_mul_right S.np hf.1
        omega
      rw [e]
    · rw [if_neg hf, add_zero, if_neg]
      rintro ⟨ha, hb⟩
      apply hf
      constructor
      · by_contra hc
        have : (f + 1) * S.np ≤ T.1 * S.np := Nat.mul_le_mul_right _ (by omega)
        rw [add_mul, one_mul] at this
        omega
      · by_contra hc
        have : (T.1 + T.2.numFrames) * S.np ≤ f * S.np := Nat.mul_le_mul_right _ (by omega)
        rw [add_mul] at this
        omega

theorem mem_terms {T : Nat × SeqErrorFunction} : T ∈ S.terms ↔
    (∃ F, T = (T.1, F.toSeq) ∧ T.1 < S.nFrames ∧ F ∈ S.frameErrors T.1 ∧ 0 < F.weight) ∨
    (T.1 < S.nFrames ∧ T.2 ∈ S.sequenceErrors T.1 ∧ 0 < T.2.weight) := by
  unfold terms frameTerms seqTerms
  simp only [List.mem_append, List.mem_flatMap, List.mem_range, List.mem_map, weighted, weightedSeq, List.mem_filter,
    decide_eq_true_eq]
  constructor
  · rintro (⟨f, hf, F, ⟨h1, h2⟩, rfl⟩ | ⟨f, hf, F, ⟨h1, h2⟩, rfl⟩)
    · exact Or.inl ⟨F, rfl, hf, h1, h2⟩
    · exact Or.inr ⟨hf, h1, h2⟩
  · rintro (⟨F, e, hf, h1, h2⟩ | ⟨hf, h1, h2⟩)
    · exact Or.inl ⟨_, hf, F, ⟨h1, h2⟩, e.symm⟩
    · exact Or.inr ⟨_, hf, _, ⟨h1, h2⟩, rfl⟩

theorem terms_inside (hin : S.Inside) {T : Nat × SeqErrorFunction} (hT : T ∈ S.terms) : T.1 + T.2.numFrames ≤ S.nFrames := by
  rcases mem_terms.1 hT with ⟨F, e, hf, -⟩ | ⟨-, h, -⟩
  · rw [e]; exact hf
  · exact hin _ _ h

theorem list_sum_finset {α : Type} (l : List α) (s : Finset ℕ) (g : ℕ → α → ℝ) :
    ∑ f ∈ s, (l.map (g f)).sum = (l.map fun T => ∑ f ∈ s, g f T).sum := by
  induction l with
  | nil => simp
  | cons T l ih => simp only [List.map_cons, List.sum_cons, sum_add_distrib, ih]

theorem list_sum_mul {α : Type} (l : List α) (g : α → ℝ) (c : ℝ) : (l.map g).sum * c = (l.map fun T => g T * c).sum := by
  induction l with
  | nil => simp
  | cons T l ih => simp only [List.map_cons, List.sum_cons, add_mul, ih]

/-- A sum over the frames of a sequence that is 0 outside `n` frames from `f0`. -/
theorem sum_window (N f0 n : Nat) (h : f0 + n ≤ N) (g : Nat → ℝ) :
    ∑ f ∈ range N, (if f0 ≤ f ∧ f < f0 + n then g f else 0) = ∑ k ∈ range n, g (f0 + k) := by
  rw [← sum_filter, show (range N).filter (fun f => f0 ≤ f ∧ f < f0 + n) = (range n).image (f0 + ·) from ?_,
    sum_image (fun a _ b _ hab => by simpa using hab)]
  ext f
  simp only [mem_filter, mem_range, mem_image]
  constructor
  · rintro ⟨_, h1, h2⟩; exact ⟨f - f0, by omega, by omega⟩
  · rintro ⟨k, hk, rfl⟩; exact ⟨by omega, by omega, by omega⟩

/-- `getGradient` is the sum of all terms. -/
theorem getGradient_eq (h : S.Sets active) (hin : S.Inside) (v : Nat → ℝ) :
    (S.getGradient v).1 = (S.terms.map fun T => ((S.term T).getGradient v).1).sum ∧
    ∀ j, (S.getGradient v).2.1 j = (S.terms.map fun T => ((S.term T).getGradient v).2 j).sum := by
  have hS : (S.setJoined v).Sets active := ⟨h.perFrame, h.universal, h.perFrameSorted, h.universalSorted⟩
  obtain ⟨g1, g2⟩ := gradTerms (S.setJoined v) S.terms (0, fun _ => 0)
  simp only [show (S.setJoined v).np = S.np from rfl] at g2
  unfold getGradient
  simp only
  rw [gradFolds (S.setJoined v), show (S.setJoined v).terms = S.terms from rfl]
  refine ⟨by rw [g1, zero_add]; rfl, fun j => ?_⟩
  rw [gather_eq hS]
  have e1 : ∀ f ∈ range S.nFrames, ∑ i ∈ range S.np, (S.terms.foldl (S.setJoined v).gradTerm (0, fun _ => 0)).2 (f * S.np + i) *
      S.coord j f i = (S.terms.map fun T => ∑ i ∈ range S.np, (if T.1 ≤ f ∧ f < T.1 + T.2.numFrames then
        (T.2.getGradient (subspan (S.setJoined v).frames T.1 T.2.numFrames)).2 ((f - T.1) * S.np + i) else 0) *
        S.coord j f i).sum := by
    intro f _
    rw [← list_sum_finset]
    apply sum_congr rfl
    intro i hi
    rw [g2 f i (mem_range.1 hi), zero_add, list_sum_mul]
  refine (sum_congr rfl e1).trans ?_
  rw [list_sum_finset]
  congr 1
  apply List.map_congr_left
  intro T hT
  have e2 : ∀ f ∈ range S.nFrames, ∑ i ∈ range S.np, (if T.1 ≤ f ∧ f < T.1 + T.2.numFrames then
        (T.2.getGradient (subspan (S.setJoined v).frames T.1 T.2.numFrames)).2 ((f - T.1) * S.np + i) else 0) *
        S.coord j f i = if T.1 ≤ f ∧ f < T.1 + T.2.numFrames then ∑ i ∈ range S.np,
        (T.2.getGradient (subspan (S.setJoined v).frames T.1 T.2.numFrames)).2 ((f - T.1) * S.np + i) * S.coord j f i else 0 := by
    intro f _
    split_ifs
    · rfl
    · simp
  rw [sum_congr rfl e2, sum_window _ _ _ (terms_inside hin hT) fun f => ∑ i ∈ range S.np,
        (T.2.getGradient (subspan (S.setJoined v).frames T.1 T.2.numFrames)).2 ((f - T.1) * S.np + i) * S.coord j f i]
  show _ = ∑ k ∈ range T.2.numFrames, ∑ i ∈ range S.np, _
  apply sum_congr rfl
  intro k _
  rw [Nat.add_sub_cancel_left]

/-! ### Derivatives of the terms -/

/-- The change of the frames of a term when entry `j` changes. -/
noncomputable def direction (S : SequenceFunction) (T : Nat × SeqErrorFunction) (j : Nat) : Nat → Nat → ℝ :=
  fun k i => if k < T.2.numFrames then S.coord j (T.1 + k) i else 0

theorem subspan_update (h : S.Sets active) (v : Nat → ℝ) (j : Nat) (u : ℝ) (T : Nat × SeqErrorFunction) :
    subspan (S.setJoined (Function.update v j u)).frames T.1 T.2.numFrames =
      fun k i => subspan (S.setJoined v).frames T.1 T.2.numFrames k i + (u - v j) * S.direction T j k i := by
  funext k i
  unfold subspan direction
  split_ifs
  · rw [setJoined_update h]
  · simp

theorem direction_ok (h : S.Sets active) (T : Nat × SeqErrorFunction) (j : Nat) :
    SeqDirection T.2.numFrames S.np active (S.direction T j) := by
  intro k i hk
  unfold direction
  split_ifs with h1
  · unfold coord
    rw [if_neg]
    intro hc
    exact hk ⟨h1, hc.lt h, hc.enabled h⟩
  · rfl

theorem sum_direction (T : Nat × SeqErrorFunction) (j : Nat) (g : Nat → Nat → ℝ) :
    ∑ k ∈ range T.2.numFrames, ∑ i ∈ range S.np, g k i * S.direction T j k i =
      ∑ k ∈ range T.2.numFrames, ∑ i ∈ range S.np, g k i * S.coord j (T.1 + k) i := by
  apply sum_congr rfl
  intro k hk
  apply sum_congr rfl
  intro i _
  unfold direction
  rw [if_pos (mem_range.1 hk)]

/-- The direction of a single frame is a unit vector or 0. -/
theorem direction_one (h : S.Sets active) (F : ErrorFunction) (f j : Nat) :
    (∃ i, i < S.np ∧ S.StandsFor j f i ∧ ∀ k i', S.direction (f, F.toSeq) j k i' = if k = 0 ∧ i' = i then 1 else 0) ∨
    ∀ k i, S.direction (f, F.toSeq) j k i = 0 := by
  by_cases hx : ∃ i, S.StandsFor j f i
  · obtain ⟨i, hi⟩ := hx
    refine Or.inl ⟨i, hi.lt h, hi, fun k i' => ?_⟩
    show (if k < 1 then S.coord j (f + k) i' else 0) = _
    by_cases hk : k = 0
    · subst hk
      rw [if_pos (by omega), add_zero]
      unfold coord
      by_cases hi' : i' = i
      · rw [if_pos (hi' ▸ hi), if_pos ⟨rfl, hi'⟩]
      · rw [if_neg fun hc => hi' (StandsFor.inj h hc hi), if_neg fun hc => hi' hc.2]
    · rw [if_neg (by omega), if_neg fun hc => hk hc.1]
  · refine Or.inr fun k i => ?_
    show (if k < 1 then S.coord j (f + k) i else 0) = 0
    split_ifs with hk
    · have : k = 0 := by omega
      subst this
      unfold coord
      rw [if_neg]
      exact fun hc => hx ⟨i, hc⟩
    · rfl

theorem shift_deriv {g : ℝ → ℝ} {g' : ℝ} (a : ℝ) (hg : HasDerivAt g g' 0) : HasDerivAt (fun u => g (u - a)) g' a := by
  have : HasDerivAt g g' (a - a) := by rwa [sub_self]
  exact this.comp_sub_const a a

/-- A sequence error function with a correct gradient is a correct function of the joined vector. -/
theorem term_gradient_seq (h : S.Sets active) (v : Nat → ℝ) (j : Nat) (T : Nat × SeqErrorFunction)
    (hT : T.2.GradientIsDerivative S.np active (subspan (S.setJoined v).frames T.1 T.2.numFrames)) :
    (S.term T).GradientIsDerivative v j := by
  refine ⟨hT.1, ?_⟩
  have := shift_deriv (v j) (hT.2 _ (direction_ok h T j))
  rw [sum_direction] at this
  show HasDerivAt (fun u => T.2.getError (subspan (S.setJoined (Function.update v j u)).frames T.1 T.2.numFrames)) _ _
  simp only [subspan_update h]
  exact this

theorem toSeq_along (F : ErrorFunction) (p : Nat → Nat → ℝ) (w : Nat → Nat → ℝ) (i : Nat)
    (hw : ∀ k i', w k i' = if k = 0 ∧ i' = i then 1 else 0) (u : ℝ) :
    (fun i' => p 0 i' + u * w 0 i') = Function.update (p 0) i (p 0 i + u) := by
  funext i'
  by_cases hi : i' = i
  · subst hi; rw [hw, if_pos ⟨rfl, rfl⟩, Function.update_self, mul_one]
  · rw [hw, if_neg fun hc => hi hc.2, Function.update_of_ne hi, mul_zero, add_zero]

theorem sum_unit (np i : Nat) (hi : i < np) (g : Nat → ℝ) (w : Nat → Nat → ℝ)
    (hw : ∀ k i', w k i' = if k = 0 ∧ i' = i then 1 else 0) :
    ∑ k ∈ range 1, ∑ i' ∈ range np, g (k * np + i') * w k i' = g i := by
  rw [sum_range_one, zero_mul, sum_eq_single i]
  · rw [hw, if_pos ⟨rfl, rfl⟩, mul_one, zero_add]
  · intro i' _ hne; rw [hw, if_neg fun hc => hne hc.2, mul_zero]
  · intro hc; exact absurd (mem_range.2 hi) hc

/-- An error function of a frame with a correct gradient is a correct function of the joined vector. -/
theorem term_gradient_frame (h : S.Sets active) (v : Nat → ℝ) (j f : Nat) (F : ErrorFunction)
    (he : (F.getGradient ((S.setJoined v).frames f)).1 = F.getError ((S.setJoined v).frames f))
    (hF : ∀ i, S.StandsFor j f i → F.GradientIsDerivative ((S.setJoined v).frames f) i) :
    (S.term (f, F.toSeq)).GradientIsDerivative v j := by
  set p := subspan (S.setJoined v).frames f 1 with hp
  have hp0 : p 0 = (S.setJoined v).frames f := subspan_one _ _
  refine ⟨?_, ?_⟩
  · show (F.getGradient (p 0)).1 = F.getError (p 0)
    rw [hp0]
    exact he
  · show HasDerivAt (fun u => F.getError (subspan (S.setJoined (Function.update v j u)).frames f 1 0)) _ _
    have e : ∀ u, subspan (S.setJoined (Function.update v j u)).frames f 1 0 =
        fun i => p 0 i + (u - v j) * S.direction (f, F.toSeq) j 0 i := fun u =>
      congrFun (subspan_update h v j u (f, F.toSeq)) 0
    simp only [e]
    have hsum : ((S.term (f, F.toSeq)).getGradient v).2 j = ∑ k ∈ range 1, ∑ i ∈ range S.np,
        (F.getGradient (p 0)).2 (k * S.np + i) * S.direction (f, F.toSeq) j k i := by
      have := sum_direction (S := S) (f, F.toSeq) j fun k i => (F.getGradient (p 0)).2 (k * S.np + i)
      exact this.symm
    rw [hsum]
    rcases direction_one h F f j with ⟨i, hi, hst, hw⟩ | hw
    · rw [sum_unit _ i hi _ _ hw]
      have h1 : (fun u => F.getError fun i' => p 0 i' + (u - v j) * S.direction (f, F.toSeq) j 0 i') =
          fun u => F.getError (Function.update (p 0) i (p 0 i + (u - v j))) := by
        funext u; rw [toSeq_along F p _ i hw]
      rw [h1]
      have h2 := (hF i hst).2
      rw [← hp0] at h2
      have h3 : HasDerivAt (fun x => F.getError (Function.update (p 0) i (p 0 i + x))) ((F.getGradient (p 0)).2 i) 0 := by
        have : HasDerivAt (fun x => F.getError (Function.update (p 0) i x)) ((F.getGradient (p 0)).2 i) (p 0 i + 0) := by
          rwa [add_zero]
        exact this.comp_const_add (p 0 i) 0
      exact shift_deriv (v j) h3
    · have h1 : (fun u => F.getError fun i' => p 0 i' + (u - v j) * S.direction (f, F.toSeq) j 0 i') =
          fun _ => F.getError (p 0) := by
        funext u; congr 1; funext i'; rw [hw, mul_zero, add_zero]
      rw [h1]
      simp only [hw, mul_zero, sum_const_zero]
      exact hasDerivAt_const _ _

/-! ### The Jacobian -/

theorem setColumns (position rows base n : Nat) (c : Nat → Nat → ℝ) (e : Nat → Nat → ℝ) (j t : Nat) :
    (List.range n).foldl (fun e k => setColumn position rows e (base + k) (c k)) e j t =
      if (base ≤ j ∧ j < base + n) ∧ (position ≤ t ∧ t < position + rows) then c (j - base) (t - position) else e j t := by
  have := fold_shift base n (fun k (col : Nat → ℝ) t => if position ≤ t ∧ t < position + rows then c k (t - position) else col t)
    e j
  have h2 := congrFun this t
  unfold setColumn
  rw [h2]
  by_cases h1 : base ≤ j ∧ j < base + n
  · rw [if_pos h1]
    by_cases h3 : position ≤ t ∧ t < position + rows
    · rw [if_pos h3, if_pos ⟨h1, h3⟩]
    · rw [if_neg h3, if_neg fun hc => h3 hc.2]
  · rw [if_neg h1, if_neg fun hc => h1 hc.1]

theorem addColumns (position rows base n : Nat) (c : Nat → Nat → ℝ) (e : Nat → Nat → ℝ) (j t : Nat) :
    (List.range n).foldl (fun e k => addColumn position rows e (base + k) (c k)) e j t =
      if (base ≤ j ∧ j < base + n) ∧ (position ≤ t ∧ t < position + rows) then e j t + c (j - base) (t - position)
      else e j t := by
  have := fold_shift base n (fun k (col : Nat → ℝ) t =>
    if position ≤ t ∧ t < position + rows then col t + c k (t - position) else col t) e j
  have h2 := congrFun this t
  unfold addColumn
  rw [h2]
  by_cases h1 : base ≤ j ∧ j < base + n
  · rw [if_pos h1]
    by_cases h3 : position ≤ t ∧ t < position + rows
    · rw [if_pos h3, if_pos ⟨h1, h3⟩]
    · rw [if_neg h3, if_neg fun hc => h3 hc.2]
  · rw [if_neg h1, if_neg fun hc => h1 hc.1]

/-- A block is written below everything that was there. -/
def fill (v : Nat → ℝ) (s : Fill) (F : ErrorFunction) : Fill :=
  let r := F.getJacobian v
  { error := s.error + r.error
    position := s.position + r.rows
    e := fun j t => if s.position ≤ t ∧ t < s.position + r.rows then r.e j (t - s.position) else s.e j t
    residual := fun t =>
      if s.position ≤ t ∧ t < s.position + r.rows then r.residual (t - s.position) else s.residual t }

/-- Nothing is written yet from the position on. -/
def Fill.Clean (s : Fill) : Prop := ∀ t, s.position ≤ t → (∀ j, s.e j t = 0) ∧ s.residual t = 0

theorem fill_clean {v : Nat → ℝ} {s : Fill} (hs : s.Clean) (F : ErrorFunction) : (fill v s F).Clean := by
  intro t ht
  have ht : s.position + (F.getJacobian v).rows ≤ t := ht
  unfold fill
  refine ⟨fun j => ?_, ?_⟩
  · show (if _ then _ else _) = _
    rw [if_neg (by omega), (hs t (by omega)).1]
  · show (if _ then _ else _) = _
    rw [if_neg (by omega), (hs t (by omega)).2]

theorem frame_range {P f n : Nat} (hf : f < n) : P * f + P ≤ P * n := by
  calc _ = P * (f + 1) := by ring
    _ ≤ _ := Nat.mul_le_mul_left _ hf

theorem jacFrameStep_eq (h : S.Sets active) (v : Nat → ℝ) (f : Nat) (hf : f < S.nFrames) (s : Fill) (hs : s.Clean)
    (F : ErrorFunction) : (S.setJoined v).jacFrameStep f s F = fill v s (S.term (f, F.toSeq)) := by
  have hr : ((S.term (f, F.toSeq)).getJacobian v).rows = (F.getJacobian ((S.setJoined v).frames f)).rows := by
    show (F.getJacobian (subspan (S.setJoined v).frames f 1 0)).rows = _
    rw [subspan_one]
  have hres : ((S.term (f, F.toSeq)).getJacobian v).residual = (F.getJacobian ((S.setJoined v).frames f)).residual := by
    show (F.getJacobian (subspan (S.setJoined v).frames f 1 0)).residual = _
    rw [subspan_one]
  have herr : ((S.term (f, F.toSeq)).getJacobian v).error = (F.getJacobian ((S.setJoined v).frames f)).error := by
    show (F.getJacobian (subspan (S.setJoined v).frames f 1 0)).error = _
    rw [subspan_one]
  have he : ∀ j t, ((S.term (f, F.toSeq)).getJacobian v).e j t =
      ∑ i ∈ range S.np, (F.getJacobian ((S.setJoined v).frames f)).e i t * S.coord j f i := by
    intro j t
    show ∑ k ∈ range 1, ∑ i ∈ range S.np, (F.getJacobian (subspan (S.setJoined v).frames f 1 0)).e (k * S.np + i) t *
      S.coord j (f + k) i = _
    rw [subspan_one, sum_range_one]
    simp
  unfold jacFrameStep fill
  simp only [hr, hres, herr, Fill.mk.injEq, true_and, and_true]
  funext j t
  rw [setColumns, setColumns, he, sum_coord h j f hf fun i => (F.getJacobian ((S.setJoined v).frames f)).e i (t - s.position)]
  have hlt := frame_range (P := S.perFrame.length) hf
  simp only [show (S.setJoined v).perFrame = S.perFrame from rfl, show (S.setJoined v).universal = S.universal from rfl,
    show (S.setJoined v).nFrames = S.nFrames from rfl]
  by_cases hb : s.position ≤ t ∧ t < s.position + (F.getJacobian ((S.setJoined v).frames f)).rows
  · simp only [hb, and_true, and_self, if_true]
    by_cases h1 : S.perFrame.length * f ≤ j ∧ j < S.perFrame.length * f + S.perFrame.length
    · rw [if_pos h1, if_pos h1, if_neg (by omega)]
    · rw [if_neg h1, if_neg h1, (hs t hb.1).1]
  · rw [if_neg fun hc => hb hc.2, if_neg fun hc => hb hc.2, if_neg hb]

theorem jacSubframes (h : S.Sets active) (v : Nat → ℝ) (f position : Nat) (r : JacobianResult) (e : Nat → Nat → ℝ)
    (he : ∀ j t, position ≤ t → e j t = 0) (n : Nat) (hn : f + n ≤ S.nFrames) (j t : Nat) :
    (List.range n).foldl ((S.setJoined v).jacSubframe f position r) e j t =
      if position ≤ t ∧ t < position + r.rows then
        ∑ k ∈ range n, ∑ i ∈ range S.np, r.e (k * S.np + i) (t - position) * S.coord j (f + k) i else e j t := by
  induction n generalizing j t with
  | zero =>
    rw [List.range_zero, List.foldl_nil, sum_range_zero]
    split_ifs with hb
    · exact he j t hb.1
    · rfl
  | succ n ih =>
    have ih := ih (by omega)
    rw [List.range_succ, List.foldl_append, List.foldl_cons, List.foldl_nil, jacSubframe]
    simp only [show (S.setJoined v).perFrame = S.perFrame from rfl, show (S.setJoined v).universal = S.universal from rfl,
      show (S.setJoined v).nFrames = S.nFrames from rfl, show (S.setJoined v).np = S.np from rfl]
    rw [addColumns, setColumns, ih]
    have hlt := frame_range (P := S.perFrame.length) (show f + n < S.nFrames by omega)
    by_cases hb : position ≤ t ∧ t < position + r.rows
    · simp only [hb, and_true, and_self, if_true]
      rw [sum_range_succ, sum_coord h j (f + n) (by omega) fun i => r.e (n * S.np + i) (t - position)]
      by_cases h1 : S.perFrame.length * (f + n) ≤ j ∧ j < S.perFrame.length * (f + n) + S.perFrame.length
      · rw [if_pos h1, if_pos h1, if_neg (by omega), sum_eq_zero, zero_add]
        intro k hk
        have hk := mem_range.1 hk
        have := frame_range (P := S.perFrame.length) (show f + k < f + n by omega)
        rw [sum_coord h j (f + k) (by omega) fun i => r.e (k * S.np + i) (t - position), if_neg (by omega), if_neg (by omega)]
      · rw [if_neg h1, if_neg h1]
        split_ifs <;> simp
    · rw [if_neg fun hc => hb hc.2, if_neg fun hc => hb hc.2, if_neg hb, if_neg hb]

theorem jacSeqStep_eq (h : S.Sets active) (v : Nat → ℝ) (T : Nat × SeqErrorFunction) (hT : T.1 + T.2.numFrames ≤ S.nFrames)
    (s : Fill) (hs : s.Clean) : (S.setJoined v).jacSeqStep T.1 s T.2 = fill v s (S.term T) := by
  unfold jacSeqStep fill
  simp only [Fill.mk.injEq]
  refine ⟨rfl, rfl, ?_, rfl⟩
  funext j t
  rw [jacSubframes h v T.1 s.position _ s.e (fun j t ht => (hs t ht).1 j) T.2.numFrames hT]
  rfl

theorem foldl_eq_of_inv {α β : Type} (inv : α → Prop) (g g' : α → β → α) (l : List β)
    (hg : ∀ s, inv s → ∀ x ∈ l, g s x = g' s x) (hi : ∀ s, inv s → ∀ x, inv (g' s x)) (s : α) (hs : inv s) :
    l.foldl g s = l.foldl g' s ∧ inv (l.foldl g' s) := by
  induction l generalizing s with
  | nil => exact ⟨rfl, hs⟩
  | cons x l ih =>
    rw [List.foldl_cons, List.foldl_cons, hg s hs x (by simp)]
    exact ih (fun s hs y hy => hg s hs y (by simp [hy])) (g' s x) (hi s hs x)

/-- The loops of `getJacobian` on zero matrices write the blocks of all terms one below the other. -/
theorem jacFolds (h : S.Sets active) (hin : S.Inside) (v : Nat → ℝ) (s : Fill) (hs : s.Clean) :
    (List.range S.nFrames).foldl (fun s f => (weightedSeq (S.sequenceErrors f)).foldl ((S.setJoined v).jacSeqStep f) s)
      ((List.range S.nFrames).foldl (fun s f => (weighted (S.frameErrors f)).foldl ((S.setJoined v).jacFrameStep f) s) s) =
      S.terms.foldl (fun s T => fill v s (S.term T)) s := by
  unfold terms
  rw [List.foldl_append]
  have e1 : (List.range S.nFrames).foldl (fun s f => (weighted (S.frameErrors f)).foldl ((S.setJoined v).jacFrameStep f) s) s =
      S.frameTerms.foldl (fun s T => fill v s (S.term T)) s ∧
      (S.frameTerms.foldl (fun s T => fill v s (S.term T)) s).Clean := by
    unfold frameTerms
    rw [List.foldl_flatMap]
    refine foldl_eq_of_inv Fill.Clean _ _ _ ?_ ?_ s hs
    · intro s hs f hf
      rw [List.foldl_map]
      exact (foldl_eq_of_inv Fill.Clean _ _ _ (fun s hs F _ => jacFrameStep_eq h v f (List.mem_range.1 hf) s hs F)
        (fun s hs F => fill_clean hs _) s hs).1
    · intro s hs f
      rw [List.foldl_map]
      exact (foldl_eq_of_inv Fill.Clean (fun s F => fill v s (S.term (f, ErrorFunction.toSeq F))) _ _ (fun s hs F _ => rfl)
        (fun s hs F => fill_clean hs _) s hs).2
  rw [e1.1]
  unfold seqTerms
  rw [List.foldl_flatMap]
  refine (foldl_eq_of_inv Fill.Clean _ _ _ ?_ ?_ _ e1.2).1
  · intro s hs f hf
    rw [List.foldl_map]
    refine (foldl_eq_of_inv Fill.Clean _ _ _ (fun s hs F hF => ?_) (fun s hs F => fill_clean hs _) s hs).1
    exact jacSeqStep_eq h v (f, F) (hin f F (List.mem_filter.1 hF).1) s hs
  · intro s hs f
    rw [List.foldl_map]
    exact (foldl_eq_of_inv Fill.Clean (fun s F => fill v s (S.term (f, F))) _ _ (fun s hs F _ => rfl)
      (fun s hs F => fill_clean hs _) s hs).2

/-- Blocks of correct error functions one below the other. -/
theorem fills (fs : List ErrorFunction) (v : Nat → ℝ) (j : Nat) (hfs : ∀ F ∈ fs, F.JacobianIsDerivative v j) :
    (fs.foldl (fill v) ⟨0, 0, fun _ _ => 0, fun _ => 0⟩).error = (fs.map fun F => F.getError v).sum ∧
    (fs.foldl (fill v) ⟨0, 0, fun _ _ => 0, fun _ => 0⟩).position ≤ (fs.map ErrorFunction.jacobianSize).sum ∧
    (∀ u, (fs.foldl (fill (Function.update v j u)) ⟨0, 0, fun _ _ => 0, fun _ => 0⟩).position =
      (fs.foldl (fill v) ⟨0, 0, fun _ _ => 0, fun _ => 0⟩).position) ∧
    (∀ u, ((fs.map fun F => F.getError (Function.update v j u)).sum =
      ∑ t ∈ range (fs.foldl (fill v) ⟨0, 0, fun _ _ => 0, fun _ => 0⟩).position,
        (fs.foldl (fill (Function.update v j u)) ⟨0, 0, fun _ _ => 0, fun _ => 0⟩).residual t ^ 2)) ∧
    (∀ t < (fs.foldl (fill v) ⟨0, 0, fun _ _ => 0, fun _ => 0⟩).position,
      HasDerivAt (fun u => (fs.foldl (fill (Function.update v j u)) ⟨0, 0, fun _ _ => 0, fun _ => 0⟩).residual t)
        ((fs.foldl (fill v) ⟨0, 0, fun _ _ => 0, fun _ => 0⟩).e j t) (v j)) := by
  induction fs using List.reverseRecOn with
  | nil => exact ⟨rfl, le_rfl, fun _ => rfl, fun _ => rfl, fun t ht => absurd ht (Nat.not_lt_zero _)⟩
  | append_singleton fs F ih =>
    obtain ⟨i1, i2, i3, i4, i5⟩ := ih fun G hG => hfs G (by simp [hG])
    have hF := hfs F (by simp)
    simp only [List.foldl_append, List.foldl_cons, List.foldl_nil, List.map_append, List.map_cons, List.map_nil, List.sum_append,
      List.sum_cons, List.sum_nil, add_zero]
    set s := fs.foldl (fill v) ⟨0, 0, fun _ _ => 0, fun _ => 0⟩ with hs
    have hp : ∀ u, (fill (Function.update v j u) (fs.foldl (fill (Function.update v j u)) ⟨0, 0, fun _ _ => 0, fun _ => 0⟩)
        F).position = s.position + (F.getJacobian v).rows := by
      intro u
      show _ + (F.getJacobian (Function.update v j u)).rows = _
      rw [i3 u, hF.rows u]
    have hres : ∀ u t, (fill (Function.update v j u) (fs.foldl (fill (Function.update v j u))
        ⟨0, 0, fun _ _ => 0, fun _ => 0⟩) F).residual t = if s.position ≤ t ∧ t < s.position + (F.getJacobian v).rows then
          (F.getJacobian (Function.update v j u)).residual (t - s.position)
        else (fs.foldl (fill (Function.update v j u)) ⟨0, 0, fun _ _ => 0, fun _ => 0⟩).residual t := by
      intro u t
      show (if (_ : ℕ) ≤ t ∧ t < _ + (F.getJacobian (Function.update v j u)).rows then _ else _) = _
      rw [i3 u, hF.rows u]
    refine ⟨by show s.error + _ = _; rw [i1, hF.error], ?_, fun u => hp u, fun u => ?_, fun t ht => ?_⟩
    · show s.position + (F.getJacobian v).rows ≤ _
      have := hF.size
      omega
    · show _ = ∑ t ∈ range (s.position + (F.getJacobian v).rows), _
      rw [sum_range_add, i4 u, hF.squares u]
      congr 1
      · apply sum_congr rfl
        intro t ht
        have := mem_range.1 ht
        rw [hres, if_neg (by omega)]
      · apply sum_congr rfl
        intro t ht
        have := mem_range.1 ht
        rw [hres, if_pos (by omega), Nat.add_sub_cancel_left]
    · have ht : t < s.position + (F.getJacobian v).rows := ht
      simp only [hres]
      show HasDerivAt _ (if s.position ≤ t ∧ t < s.position + (F.getJacobian v).rows then _ else _) _
      by_cases hb : s.position ≤ t
      · simp only [hb, ht, and_self, if_true]
        exact hF.deriv _ (by omega)
      · simp only [hb, false_and, if_false]
        exact i5 t (by omega)

/-- The size that is announced. -/
theorem jacobianSize_eq (S : SequenceFunction) : S.jacobianSize = (S.terms.map fun T => T.2.jacobianSize).sum := by
  have hadd : ∀ {α : Type} (l : List α) (x : α → Nat) (n : Nat), l.foldl (fun n F => n + x F) n = n + (l.map x).sum := by
    intro α l x
    induction l with
    | nil => intro n; simp
    | cons F l ih => intro n; rw [List.foldl_cons, ih, List.map_cons, List.sum_cons]; ring
  have hflat : ∀ {α : Type} (n : Nat) (g : Nat → List α) (x : α → Nat),
      (((List.range n).flatMap g).map x).sum = ((List.range n).map fun f => ((g f).map x).sum).sum := by
    intro α n g x
    induction n with
    | zero => rfl
    | succ n ih =>
      rw [List.range_succ, List.flatMap_append, List.map_append, List.sum_append, ih, List.map_append, List.sum_append]
      simp
  unfold jacobianSize terms frameTerms seqTerms
  simp only [hadd]
  rw [List.map_append, List.sum_append, hflat, hflat, ← List.sum_map_add]
  have : ∀ (l : List Nat) n, l.foldl (fun n f => n + ((weighted (S.frameErrors f)).map fun F => F.jacobianSize).sum +
      ((weightedSeq (S.sequenceErrors f)).map fun F => F.jacobianSize).sum) n =
      n + (l.map fun f => ((weighted (S.frameErrors f)).map fun F => F.jacobianSize).sum +
      ((weightedSeq (S.sequenceErrors f)).map fun F => F.jacobianSize).sum).sum := by
    intro l
    induction l with
    | nil => intro n; simp
    | cons f l ih => intro n; rw [List.foldl_cons, ih, List.map_cons, List.sum_cons]; ring
  rw [this, zero_add]
  congr 1
  apply List.map_congr_left
  intro f _
  rw [List.map_map, List.map_map]
  rfl

/-! ### Derivatives of the residuals of the terms -/

theorem term_jacobian_seq (h : S.Sets active) (v : Nat → ℝ) (j : Nat) (T : Nat × SeqErrorFunction)
    (hT : T.2.JacobianIsDerivative S.np active (subspan (S.setJoined v).frames T.1 T.2.numFrames)) :
    (S.term T).JacobianIsDerivative v j := by
  have hd := direction_ok h T j
  have hJ : ∀ u, (S.term T).getJacobian (Function.update v j u) =
      let r := T.2.getJacobian (fun k i => subspan (S.setJoined v).frames T.1 T.2.numFrames k i +
        (u - v j) * S.direction T j k i)
      ⟨r.error, r.rows, fun j t => ∑ k ∈ range T.2.numFrames, ∑ i ∈ range S.np, r.e (k * S.np + i) t * S.coord j (T.1 + k) i,
        r.residual⟩ := by
    intro u
    rw [← subspan_update h]
    rfl
  refine ⟨hT.error, hT.size, fun u => ?_, fun u => ?_, fun t ht => ?_⟩
  · rw [hJ]; exact hT.rows _ hd _
  · simp only [hJ]
    have := hT.squares _ hd (u - v j)
    rw [← subspan_update h] at this
    show T.2.getError _ = _
    rw [this, subspan_update h]
    rfl
  · simp only [hJ]
    have := shift_deriv (v j) (hT.deriv _ hd t ht)
    rw [sum_direction (S := S) T j fun k i => (T.2.getJacobian (subspan (S.setJoined v).frames T.1 T.2.numFrames)).e
      (k * S.np + i) t] at this
    exact this

theorem term_jacobian_frame (h : S.Sets active) (v : Nat → ℝ) (j f : Nat) (F : ErrorFunction)
    (he : (F.getJacobian ((S.setJoined v).frames f)).error = F.getError ((S.setJoined v).frames f) ∧
      (F.getJacobian ((S.setJoined v).frames f)).rows ≤ F.jacobianSize ∧ F.getError ((S.setJoined v).frames f) =
        ∑ t ∈ range (F.getJacobian ((S.setJoined v).frames f)).rows, (F.getJacobian ((S.setJoined v).frames f)).residual t ^ 2)
    (hF : ∀ i, S.StandsFor j f i → F.JacobianIsDerivative ((S.setJoined v).frames f) i) :
    (S.term (f, F.toSeq)).JacobianIsDerivative v j := by
  set p := (S.setJoined v).frames f with hp
  have hpu : ∀ u, subspan (S.setJoined (Function.update v j u)).frames f 1 0 =
      fun i => p i + (u - v j) * S.direction (f, F.toSeq) j 0 i := by
    intro u
    have := congrFun (subspan_update h v j u (f, F.toSeq)) 0
    refine this.trans ?_
    funext i
    show subspan (S.setJoined v).frames f 1 0 i + _ = _
    rw [subspan_one]
  have hJ0 : (S.term (f, F.toSeq)).getJacobian v = ⟨(F.getJacobian p).error, (F.getJacobian p).rows,
      fun j t => ∑ k ∈ range 1, ∑ i ∈ range S.np, (F.getJacobian p).e (k * S.np + i) t * S.coord j (f + k) i,
      (F.getJacobian p).residual⟩ := by
    show (⟨(F.getJacobian (subspan (S.setJoined v).frames f 1 0)).error, (F.getJacobian (subspan (S.setJoined v).frames f 1 0)).rows,
      fun j t => ∑ k ∈ range 1, ∑ i ∈ range S.np, (F.getJacobian (subspan (S.setJoined v).frames f 1 0)).e (k * S.np + i) t *
        S.coord j (f + k) i, (F.getJacobian (subspan (S.setJoined v).frames f 1 0)).residual⟩ : JacobianResult) = _
    rw [subspan_one]
  have hE0 : (S.term (f, F.toSeq)).getError v = F.getError p := by
    show F.getError (subspan (S.setJoined v).frames f 1 0) = _
    rw [subspan_one]
  have hsum : ∀ t, ∑ k ∈ range 1, ∑ i ∈ range S.np, (F.getJacobian p).e (k * S.np + i) t * S.coord j (f + k) i =
      ∑ k ∈ range 1, ∑ i ∈ range S.np, (F.getJacobian p).e (k * S.np + i) t * S.direction (f, F.toSeq) j k i := fun t =>
    (sum_direction (S := S) (f, F.toSeq) j fun k i => (F.getJacobian p).e (k * S.np + i) t).symm
  rcases direction_one h F f j with ⟨i, hi, hst, hw⟩ | hw
  · have hup : ∀ u, subspan (S.setJoined (Function.update v j u)).frames f 1 0 = Function.update p i (p i + (u - v j)) := by
      intro u
      rw [hpu]
      exact toSeq_along F (fun _ => p) _ i hw (u - v j)
    have hJu : ∀ u, (S.term (f, F.toSeq)).getJacobian (Function.update v j u) =
        let r := F.getJacobian (Function.update p i (p i + (u - v j)))
        ⟨r.error, r.rows, fun j t => ∑ k ∈ range 1, ∑ i ∈ range S.np, r.e (k * S.np + i) t * S.coord j (f + k) i,
          r.residual⟩ := by
      intro u
      rw [← hup]
      rfl
    have H := hF i hst
    refine ⟨by rw [hJ0, hE0]; exact H.error, by rw [hJ0]; exact H.size, fun u => ?_, fun u => ?_, fun t ht => ?_⟩
    · rw [hJu, hJ0]; exact H.rows _
    · rw [hJu, hJ0]
      show F.getError (subspan (S.setJoined (Function.update v j u)).frames f 1 0) = _
      rw [hup]
      exact H.squares _
    · simp only [hJu]
      rw [hJ0] at ht ⊢
      simp only
      rw [hsum t, sum_unit _ i hi (fun q => (F.getJacobian p).e q t) _ hw]
      have h2 := H.deriv t ht
      have h3 : HasDerivAt (fun x => (F.getJacobian (Function.update p i (p i + x))).residual t) ((F.getJacobian p).e i t) 0 := by
        have : HasDerivAt (fun x => (F.getJacobian (Function.update p i x)).residual t) ((F.getJacobian p).e i t) (p i + 0) := by
          rwa [add_zero]
        exact this.comp_const_add (p i) 0
      exact shift_deriv (v j) h3
  · have hup : ∀ u, subspan (S.setJoined (Function.update v j u)).frames f 1 0 = p := by
      intro u
      rw [hpu]
      funext i
      rw [hw, mul_zero, add_zero]
    have hJu : ∀ u, (S.term (f, F.toSeq)).getJacobian (Function.update v j u) = (S.term (f, F.toSeq)).getJacobian v := by
      intro u
      rw [hJ0]
      conv_rhs => rw [← hup u]
      rfl
    refine ⟨by rw [hJ0, hE0]; exact he.1, by rw [hJ0]; exact he.2.1, fun u => by rw [hJu], fun u => ?_, fun t ht => ?_⟩
    · rw [hJu, hJ0]
      show F.getError (subspan (S.setJoined (Function.update v j u)).frames f 1 0) = _
      rw [hup]
      exact he.2.2
    · simp only [hJu]
      rw [hJ0]
      simp only
      rw [hsum t]
      simp only [hw, mul_zero, sum_const_zero]
      exact hasDerivAt_const _ _

end SequenceFunction
end Momentum
