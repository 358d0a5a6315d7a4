import Verif.Lemmas.SequencePipeline2
import Verif.Lemmas.BandedQr

/-!
# The banded solver and its parts
-/

namespace Momentum
open Finset

variable {K : Type}

theorem bandSet_row {bw : Nat} {Rb : Nat → Nat → ℝ} {i j : Nat} (h : i ≤ j ∧ j - i < bw) (x : ℝ) :
    ∃ Rb', bandSet bw Rb i j x = some Rb' ∧
      ∀ r c, Rb' r c = if r + c + 1 = bw + i ∧ c = j then x else Rb r c := by
  refine ⟨_, if_pos h, fun r c => ?_⟩
  by_cases h1 : r = bw + i - j - 1 <;> by_cases h2 : c = j
  · subst h1 h2
    rw [if_pos ⟨by omega, rfl⟩]; simp
  · rw [if_neg (fun h => h2 h.2), h1]; simp [h2]
  · rw [if_neg (fun h => by have := h.1; omega)]; simp [Function.update_of_ne h1]
  · rw [if_neg (fun h => h2 h.2)]; simp [Function.update_of_ne h1]

/-- A reflection of the band part reads and writes row `iG` of the band alone. -/
theorem bandReflect_rel (m : Nat) (beta : ℝ) (v : Nat → ℝ) (idx : Nat → Nat) (bw iG o : Nat) :
    ∀ (js : List Nat), (∀ j ∈ js, iG ≤ j + o ∧ j + o - iG < bw) → ∀ (Rb1 Rb2 A : Nat → Nat → ℝ),
      (∀ r c, r + c + 1 = bw + iG → Rb1 r c = Rb2 r c) →
      ∃ Rb1' Rb2' A', bandReflect m beta v idx bw iG o js Rb1 A = some (Rb1', A') ∧
        bandReflect m beta v idx bw iG o js Rb2 A = some (Rb2', A') ∧
        (∀ r c, r + c + 1 = bw + iG → Rb1' r c = Rb2' r c) ∧
        (∀ r c, r + c + 1 ≠ bw + iG → Rb1' r c = Rb1 r c) ∧ ∀ r c, r + c + 1 ≠ bw + iG → Rb2' r c = Rb2 r c
  | [], _, Rb1, Rb2, A, h => ⟨Rb1, Rb2, A, rfl, rfl, h, fun _ _ _ => rfl, fun _ _ _ => rfl⟩
  | j :: js, hin, Rb1, Rb2, A, h => by
    have hj := hin j (by simp)
    have he : Rb1 (bw + iG - (j + o) - 1) (j + o) = Rb2 (bw + iG - (j + o) - 1) (j + o) := h _ _ (by omega)
    obtain ⟨R1, h1, h1'⟩ := bandSet_row (Rb := Rb1) hj
      (applyHouseholder m beta v (Rb2 (bw + iG - (j + o) - 1) (j + o)) (A (idx j))).1
    obtain ⟨R2, h2, h2'⟩ := bandSet_row (Rb := Rb2) hj
      (applyHouseholder m beta v (Rb2 (bw + iG - (j + o) - 1) (j + o)) (A (idx j))).1
    obtain ⟨S1, S2, A', e1, e2, e3, e4, e5⟩ := bandReflect_rel m beta v idx bw iG o js (fun j hj => hin j (by simp [hj]))
      R1 R2 (Function.update A (idx j) (applyHouseholder m beta v (Rb2 (bw + iG - (j + o) - 1) (j + o)) (A (idx j))).2) (by
        intro r c hrc
        rw [h1', h2']
        split_ifs
        · rfl
        · exact h r c hrc)
    refine ⟨S1, S2, A', ?_, ?_, e3, fun r c hrc => ?_, fun r c hrc => ?_⟩
    · unfold bandReflect at e1 ⊢
      rw [List.foldlM_cons, bandGet_some hj]
      simp only [Option.bind_eq_bind, Option.bind_some, he, h1]
      exact e1
    · unfold bandReflect at e2 ⊢
      rw [List.foldlM_cons, bandGet_some hj]
      simp only [Option.bind_eq_bind, Option.bind_some, h2]
      exact e2
    · rw [e4 r c hrc, h1', if_neg fun h => hrc h.1]
    · rw [e5 r c hrc, h2', if_neg fun h => hrc h.1]

/-- One column of `zeroBandedPart` reads and writes one row of the solver. -/
theorem bandPivot_rel {bw nCommon k m o i : Nat} {idxB idxC : Nat → Nat} (hk : k ≤ bw) (hi : i < k)
    (Rb1 Rc1 Rb2 Rc2 Ab Ac : Nat → Nat → ℝ) (y1 y2 b : Nat → ℝ)
    (hb : ∀ r c, r + c + 1 = bw + (i + o) → Rb1 r c = Rb2 r c) (hc : Rc1 (i + o) = Rc2 (i + o))
    (hy : y1 (i + o) = y2 (i + o)) :
    ∃ w1 w2, bandPivot bw nCommon k m o idxB idxC ⟨Rb1, Rc1, y1, Ab, Ac, b⟩ i = some w1 ∧
      bandPivot bw nCommon k m o idxB idxC ⟨Rb2, Rc2, y2, Ab, Ac, b⟩ i = some w2 ∧
      w1.Ab = w2.Ab ∧ w1.Ac = w2.Ac ∧ w1.b = w2.b ∧
      (∀ r c, r + c + 1 = bw + (i + o) → w1.Rb r c = w2.Rb r c) ∧ w1.Rc (i + o) = w2.Rc (i + o) ∧
      w1.y (i + o) = w2.y (i + o) ∧
      (∀ r c, r + c + 1 ≠ bw + (i + o) → w1.Rb r c = Rb1 r c) ∧ (∀ r, r ≠ i + o → w1.Rc r = Rc1 r) ∧
      (∀ r, r ≠ i + o → w1.y r = y1 r) ∧
      (∀ r c, r + c + 1 ≠ bw + (i + o) → w2.Rb r c = Rb2 r c) ∧ (∀ r, r ≠ i + o → w2.Rc r = Rc2 r) ∧
      (∀ r, r ≠ i + o → w2.y r = y2 r) := by
  have hdiag : (i + o) ≤ i + o ∧ (i + o) - (i + o) < bw := ⟨le_rfl, by omega⟩
  have he : Rb1 (bw + (i + o) - (i + o) - 1) (i + o) = Rb2 (bw + (i + o) - (i + o) - 1) (i + o) := hb _ _ (by omega)
  unfold bandPivot
  rw [bandGet_some hdiag, bandGet_some hdiag]
  simp only [Option.bind_eq_bind, Option.bind_some]
  rw [he]
  generalize householderVec m (Rb2 (bw + (i + o) - (i + o) - 1) (i + o)) (Ab (idxB i)) = h
  by_cases h0 : h.1 = 0
  · rw [if_pos h0, if_pos h0]
    exact ⟨_, _, rfl, rfl, rfl, rfl, rfl, hb, hc, hy, fun _ _ _ => rfl, fun _ _ => rfl, fun _ _ => rfl, fun _ _ _ => rfl,
      fun _ _ => rfl, fun _ _ => rfl⟩
  · rw [if_neg h0, if_neg h0]
    obtain ⟨R1, h1, h1'⟩ := bandSet_row (Rb := Rb1) hdiag h.2.1
    obtain ⟨R2, h2, h2'⟩ := bandSet_row (Rb := Rb2) hdiag h.2.1
    rw [h1, h2]
    simp only [Option.bind_some]
    obtain ⟨S1, S2, A', e1, e2, e3, e4, e5⟩ := bandReflect_rel m h.1 (Function.update Ab (idxB i) h.2.2 (idxB i)) idxB bw
      (i + o) o (List.range' (i + 1) (k - (i + 1)))
      (fun j hj => by rw [List.mem_range'_1] at hj; omega) R1 R2 (Function.update Ab (idxB i) h.2.2) (by
        intro r c hrc
        rw [h1', h2']
        split_ifs
        · rfl
        · exact hb r c hrc)
    rw [e1, e2]
    simp only [Option.bind_some]
    rw [hc, hy]
    refine ⟨_, _, rfl, rfl, rfl, rfl, rfl, e3, by simp, by simp, ?_, ?_, ?_, ?_, ?_, ?_⟩
    · intro r c hrc
      show S1 r c = _
      rw [e4 r c hrc, h1', if_neg fun h => hrc h.1]
    · intro r hr; exact Function.update_of_ne hr _ _
    · intro r hr; exact Function.update_of_ne hr _ _
    · intro r c hrc
      show S2 r c = _
      rw [e5 r c hrc, h2', if_neg fun h => hrc h.1]
    · intro r hr; exact Function.update_of_ne hr _ _
    · intro r hr; exact Function.update_of_ne hr _ _

/-- The frame a row of the solver belongs to; `none` for the rows of the universal parameters. -/
def rowOwner (n p i : Nat) : Option Nat := if i < n * p then some (i / p) else none

/-- The frame an entry of the band storage belongs to: that of the row it stands for. -/
def bandOwner (n p bw r j : Nat) : Option Nat := if bw ≤ j + r + 1 then rowOwner n p (j + r + 1 - bw) else none

/-- The part of the solver that belongs to a frame, or to none. -/
def bandView (n p bw : Nat) (o : Option Nat) (s : BandRows) : BandRows where
  Rb := fun r j => if bandOwner n p bw r j = o then s.Rb r j else 0
  Rc := fun i => if rowOwner n p i = o then s.Rc i else 0
  y := fun i => if rowOwner n p i = o then s.y i else 0

theorem rowOwner_row {n p f k : Nat} (hf : f < n) (hk : k < p) : rowOwner n p (k + f * p) = some f := by
  have h1 : k + f * p < n * p := by
    calc k + f * p < p + f * p := by omega
      _ = (f + 1) * p := by ring
      _ ≤ n * p := Nat.mul_le_mul_right p hf
  have hp : 0 < p := by omega
  have h2 : (k + f * p) / p = f := by
    rw [Nat.add_mul_div_right _ _ hp, Nat.div_eq_of_lt hk, Nat.zero_add]
  rw [rowOwner, if_pos h1, h2]

theorem rowOwner_lt {n p i f : Nat} (h : rowOwner n p i = some f) : f < n := by
  unfold rowOwner at h
  split_ifs at h with h1
  cases h
  exact Nat.div_lt_of_lt_mul (by rwa [Nat.mul_comm] at h1)

theorem bandOwner_lt {n p bw r j f : Nat} (h : bandOwner n p bw r j = some f) : f < n := by
  unfold bandOwner at h
  split_ifs at h with h1
  exact rowOwner_lt h

theorem rowOwner_common {n p i : Nat} : rowOwner n p (i + n * p) = none := if_neg (by omega)

theorem bandView_eq {n p bw : Nat} {o : Option Nat} {s s' : BandRows}
    (h1 : ∀ r j, bandOwner n p bw r j = o → s.Rb r j = s'.Rb r j) (h2 : ∀ i, rowOwner n p i = o → s.Rc i = s'.Rc i)
    (h3 : ∀ i, rowOwner n p i = o → s.y i = s'.y i) : bandView n p bw o s = bandView n p bw o s' := by
  unfold bandView
  congr 1
  · funext r j; split_ifs with h; exacts [h1 r j h, rfl]
  · funext i; split_ifs with h; exacts [h2 i h, rfl]
  · funext i; split_ifs with h; exacts [h3 i h, rfl]

theorem bandView_elim {n p bw : Nat} {o : Option Nat} {s s' : BandRows} (h : bandView n p bw o s = bandView n p bw o s') :
    (∀ r j, bandOwner n p bw r j = o → s.Rb r j = s'.Rb r j) ∧ (∀ i, rowOwner n p i = o → s.Rc i = s'.Rc i) ∧
      (∀ i, rowOwner n p i = o → s.y i = s'.y i) := by
  refine ⟨fun r j hr => ?_, fun i hi => ?_, fun i hi => ?_⟩
  · have := congrFun (congrFun (congrArg BandRows.Rb h) r) j
    simpa [bandView, hr] using this
  · have := congrFun (congrArg BandRows.Rc h) i
    simpa [bandView, hi] using this
  · have := congrFun (congrArg BandRows.y h) i
    simpa [bandView, hi] using this

/-- The jobs of the sequence solver do not get into each other's way. -/
theorem SequenceBlocks.separated (Q : SequenceBlocks K) {bw : Nat} (hp : Q.perFrame.length ≤ bw) :
    (Q.jobs bw).Separated (bandView Q.nFrames Q.perFrame.length bw) := by
  have hrowc : ∀ f k, f < Q.nFrames → k < Q.perFrame.length → ∀ r c,
      r + c + 1 = bw + (k + f * Q.perFrame.length) → bandOwner Q.nFrames Q.perFrame.length bw r c = some f := by
    intro f k hf hk r c h
    rw [bandOwner, if_pos (by omega), show c + r + 1 - bw = k + f * Q.perFrame.length by omega]
    exact rowOwner_row hf hk
  have key : ∀ f k, f < Q.nFrames → k < Q.perFrame.length → ∀ (s u : BandRows) (l : BandBlock),
      bandView Q.nFrames Q.perFrame.length bw (some f) s = bandView Q.nFrames Q.perFrame.length bw (some f) u →
      ∃ s' u' l', (Q.jobs bw).step f k s l = some (s', l') ∧ (Q.jobs bw).step f k u l = some (u', l') ∧
        bandView Q.nFrames Q.perFrame.length bw (some f) s' = bandView Q.nFrames Q.perFrame.length bw (some f) u' ∧
        ∀ o, o ≠ some f → bandView Q.nFrames Q.perFrame.length bw o s' = bandView Q.nFrames Q.perFrame.length bw o s := by
    intro f k hf hk s u l hv
    obtain ⟨v1, v2, v3⟩ := bandView_elim hv
    have hown := rowOwner_row hf hk
    obtain ⟨w1, w2, e1, e2, a1, a2, a3, b1, b2, b3, c1, c2, c3, d1, d2, d3⟩ :=
      bandPivot_rel (nCommon := Q.universal.length) (m := Q.rows f) (o := f * Q.perFrame.length) (idxB := (Q.band f).idx)
        (idxC := (Q.common f).idx) hp hk s.Rb s.Rc u.Rb u.Rc l.Ab l.Ac s.y u.y l.b
        (fun r c h => v1 r c (hrowc f k hf hk r c h)) (v2 _ hown) (v3 _ hown)
    refine ⟨⟨w1.Rb, w1.Rc, w1.y⟩, ⟨w2.Rb, w2.Rc, w2.y⟩, ⟨w1.Ab, w1.Ac, w1.b⟩, ?_, ?_, ?_, ?_⟩
    · simp only [SequenceBlocks.jobs, e1]; rfl
    · simp only [SequenceBlocks.jobs, e2, a1, a2, a3]; rfl
    · refine bandView_eq (fun r j h => ?_) (fun i h => ?_) fun i h => ?_
      · by_cases hr : r + j + 1 = bw + (k + f * Q.perFrame.length)
        · exact b1 r j hr
        · show w1.Rb r j = w2.Rb r j
          rw [c1 r j hr, d1 r j hr]; exact v1 r j h
      · by_cases hr : i = k + f * Q.perFrame.length
        · subst hr; exact b2
        · show w1.Rc i = w2.Rc i
          rw [c2 i hr, d2 i hr]; exact v2 i h
      · by_cases hr : i = k + f * Q.perFrame.length
        · subst hr; exact b3
        · show w1.y i = w2.y i
          rw [c3 i hr, d3 i hr]; exact v3 i h
    · intro o ho
      refine bandView_eq (fun r j h => ?_) (fun i h => ?_) fun i h => ?_
      · exact c1 r j fun hr => ho (by rw [← h, hrowc f k hf hk r j hr])
      · exact c2 i fun hr => ho (by rw [← h, hr, hown])
      · exact c3 i fun hr => ho (by rw [← h, hr, hown])
  refine ⟨?_, ?_, ?_, ?_, ?_, ?_, ?_⟩
  · intro s s' h1 h2
    obtain ⟨c1, c2, c3⟩ := bandView_elim h2
    cases s with
    | mk Rb Rc y =>
    cases s' with
    | mk Rb' Rc' y' =>
    congr 1
    · funext r j
      cases h : bandOwner Q.nFrames Q.perFrame.length bw r j with
      | none => exact c1 r j h
      | some f => exact (bandView_elim (h1 f (bandOwner_lt h))).1 r j h
    · funext i
      cases h : rowOwner Q.nFrames Q.perFrame.length i with
      | none => exact c2 i h
      | some f => exact (bandView_elim (h1 f (rowOwner_lt h))).2.1 i h
    · funext i
      cases h : rowOwner Q.nFrames Q.perFrame.length i with
      | none => exact c3 i h
      | some f => exact (bandView_elim (h1 f (rowOwner_lt h))).2.2 i h
  · intro f k s l hf hk
    obtain ⟨s', _, l', h, _⟩ := key f k hf hk s s l rfl
    exact ⟨s', l', h⟩
  · intro f k s l s' l' hf hk h o ho
    obtain ⟨s1, _, l1, h1, _, _, h2⟩ := key f k hf hk s s l rfl
    rw [h] at h1
    cases h1
    exact h2 o ho
  · intro f k s u l s' l' u' m' hf hk hv h h'
    obtain ⟨s1, u1, l1, h1, h2, h3, _⟩ := key f k hf hk s u l hv
    rw [h] at h1
    rw [h'] at h2
    cases h1
    cases h2
    exact ⟨rfl, h3⟩
  · intro k s r _
    exact ⟨_, _, rfl⟩
  · intro k s r s' r' _ h o ho
    simp only [SequenceBlocks.jobs, Option.some.injEq] at h
    have h1 := congrArg Prod.fst h
    subst h1
    refine bandView_eq (fun _ _ _ => rfl) (fun i hi => ?_) fun i hi => ?_
    · have hlt : i < Q.nFrames * Q.perFrame.length := by
        by_contra hn
        rw [rowOwner, if_neg hn] at hi
        exact ho hi.symm
      simp [commonPivot, hlt]
    · have hlt : i < Q.nFrames * Q.perFrame.length := by
        by_contra hn
        rw [rowOwner, if_neg hn] at hi
        exact ho hi.symm
      simp [commonPivot, hlt]
  · intro k s u r s' r' u' q' _ hv h h'
    obtain ⟨v1, v2, v3⟩ := bandView_elim hv
    have e1 : (fun i j => s.Rc (i + Q.nFrames * Q.perFrame.length) j) =
        fun i j => u.Rc (i + Q.nFrames * Q.perFrame.length) j := by
      funext i j
      rw [v2 _ rowOwner_common]
    have e2 : (fun i => s.y (Q.nFrames * Q.perFrame.length + i)) = fun i => u.y (Q.nFrames * Q.perFrame.length + i) := by
      funext i
      rw [Nat.add_comm, v3 _ rowOwner_common]
    simp only [SequenceBlocks.jobs, Option.some.injEq, commonPivot] at h h'
    rw [e1, e2] at h
    generalize qrPivot _ _ _ _ _ = w at h h'
    cases h
    cases h'
    refine ⟨rfl, bandView_eq v1 (fun i hi => ?_) fun i hi => ?_⟩
    · funext j
      simp only []
      split_ifs
      · rw [v2 i hi]
      · rfl
    · simp only []
      split_ifs
      · rw [v3 i hi]
      · rfl

end Momentum
