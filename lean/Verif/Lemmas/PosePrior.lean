import Verif.Spec.PosePrior
import Verif.Lemmas.ConstraintError
import Verif.Props.StateError

/-!
# Lemmas for the pose prior
-/

namespace Momentum
open Finset

namespace PosePrior

/-! ### The maps -/

theorem load_fold (A B : List String) (l : List (Nat × Nat)) (hl : ∀ ij ∈ l, ij.1 < A.length ∧ ij.2 < B.length) :
    ∀ s : List (Option Nat) × List (Option Nat), s.1.length = A.length → s.2.length = B.length →
    ∃ s', l.foldlM (loadStep A B) s = some s' ∧ s'.1.length = A.length ∧ s'.2.length = B.length ∧
      (∀ a, (∃ j, (a, j) ∈ l ∧ A[a]? = B[j]? ∧ s'.1[a]? = some (some j)) ∨
        ((∀ j, (a, j) ∈ l → A[a]? ≠ B[j]?) ∧ s'.1[a]? = s.1[a]?)) ∧
      (∀ j, (∃ a, (a, j) ∈ l ∧ A[a]? = B[j]? ∧ s'.2[j]? = some (some a)) ∨
        ((∀ a, (a, j) ∈ l → A[a]? ≠ B[j]?) ∧ s'.2[j]? = s.2[j]?)) := by
  induction l with
  | nil => intro s h1 h2; exact ⟨s, rfl, h1, h2, fun a => Or.inr ⟨by simp, rfl⟩, fun j => Or.inr ⟨by simp, rfl⟩⟩
  | cons q l ih =>
    intro s h1 h2
    obtain ⟨i, j⟩ := q
    obtain ⟨hi, hj⟩ := hl (i, j) (by simp)
    simp only at hi hj
    have ih := ih (fun ij h => hl ij (by simp [h]))
    have hA : A[i]? = some A[i] := List.getElem?_eq_getElem hi
    have hB : B[j]? = some B[j] := List.getElem?_eq_getElem hj
    by_cases hq : A[i] = B[j]
    · have hs : loadStep A B s (i, j) = some (s.1.set i (some j), s.2.set j (some i)) := by
        simp only [loadStep, hA, hB]; exact if_pos hq
      obtain ⟨s', e, l1, l2, k1, k2⟩ := ih (s.1.set i (some j), s.2.set j (some i)) (by simpa using h1) (by simpa using h2)
      refine ⟨s', by rw [List.foldlM_cons, hs]; exact e, l1, l2, fun a => ?_, fun b => ?_⟩
      · rcases k1 a with ⟨j', m', q', r'⟩ | ⟨n', r'⟩
        · exact Or.inl ⟨j', by simp [m'], q', r'⟩
        · by_cases ha : a = i
          · subst ha
            exact Or.inl ⟨j, by simp, by rw [hA, hB, hq], by rw [r']; simp [h1, hi]⟩
          · refine Or.inr ⟨fun j' hj' => ?_, by rw [r']; simp [List.getElem?_set, Ne.symm ha]⟩
            simp only [List.mem_cons, Prod.mk.injEq] at hj'
            rcases hj' with ⟨h, _⟩ | h
            · exact absurd h ha
            · exact n' j' h
      · rcases k2 b with ⟨j', m', q', r'⟩ | ⟨n', r'⟩
        · exact Or.inl ⟨j', by simp [m'], q', r'⟩
        · by_cases ha : b = j
          · subst ha
            exact Or.inl ⟨i, by simp, by rw [hA, hB, hq], by rw [r']; simp [h2, hj]⟩
          · refine Or.inr ⟨fun j' hj' => ?_, by rw [r']; simp [List.getElem?_set, Ne.symm ha]⟩
            simp only [List.mem_cons, Prod.mk.injEq] at hj'
            rcases hj' with ⟨_, h⟩ | h
            · exact absurd h ha
            · exact n' j' h
    · have hs : loadStep A B s (i, j) = some s := by
        simp only [loadStep, hA, hB]; exact if_neg hq
      obtain ⟨s', e, l1, l2, k1, k2⟩ := ih s h1 h2
      have hne : A[i]? ≠ B[j]? := by rw [hA, hB]; simpa using hq
      refine ⟨s', by rw [List.foldlM_cons, hs]; exact e, l1, l2, fun a => ?_, fun b => ?_⟩
      · rcases k1 a with ⟨j', m', q', r'⟩ | ⟨n', r'⟩
        · exact Or.inl ⟨j', by simp [m'], q', r'⟩
        · refine Or.inr ⟨fun j' hj' => ?_, r'⟩
          simp only [List.mem_cons, Prod.mk.injEq] at hj'
          rcases hj' with ⟨rfl, rfl⟩ | h
          · exact hne
          · exact n' j' h
      · rcases k2 b with ⟨j', m', q', r'⟩ | ⟨n', r'⟩
        · exact Or.inl ⟨j', by simp [m'], q', r'⟩
        · refine Or.inr ⟨fun j' hj' => ?_, r'⟩
          simp only [List.mem_cons, Prod.mk.injEq] at hj'
          rcases hj' with ⟨rfl, rfl⟩ | h
          · exact hne
          · exact n' j' h

/-- The map entry for prior name `a`. -/
def pidx (m : Mppca) (names : List String) (a : Nat) : Option Nat :=
  match m.names[a]? with
  | none => none
  | some s => if s ∈ names then some (names.idxOf s) else none

theorem pidx_spec (m : Mppca) {names : List String} (hn : names.Nodup) {a j : Nat} (hj : j < names.length) :
    pidx m names a = some j ↔ m.names[a]? = names[j]? := by
  unfold pidx
  rw [List.getElem?_eq_getElem hj]
  cases h : m.names[a]? with
  | none => simp
  | some s =>
    simp only
    split
    · rename_i hs
      constructor
      · intro e
        simp only [Option.some.injEq] at e
        subst e
        simp
      · intro e
        simp only [Option.some.injEq] at e
        subst e
        rw [hn.idxOf_getElem]
    · rename_i hs
      constructor
      · intro e; simp at e
      · intro e
        simp only [Option.some.injEq] at e
        subst e
        exact absurd (List.getElem_mem _) hs

theorem pidx_lt (m : Mppca) {names : List String} {a j : Nat} (h : pidx m names a = some j) :
    j < names.length ∧ a < m.names.length := by
  unfold pidx at h
  cases h' : m.names[a]? with
  | none => rw [h'] at h; simp at h
  | some s =>
    rw [h'] at h
    simp only at h
    split at h
    · simp only [Option.some.injEq] at h
      subst h
      exact ⟨List.idxOf_lt_length_of_mem (by assumption), (List.getElem?_eq_some_iff.1 h').1⟩
    · simp at h

theorem view_pidx (m : Mppca) (names : List String) (p : Nat → ℝ) (a : Nat) :
    m.view names p a = match pidx m names a with
      | none => 0
      | some j => p j := by
  unfold Mppca.view pidx
  cases m.names[a]? with
  | none => rfl
  | some s => simp only; split <;> rfl

/-- What the constructor sets up. -/
theorem make_maps {names : List String} (hn : names.Nodup) (M : ℝ) (m : Mppca) :
    ∃ E, make names names.length M (some m) = some E ∧ E.paramNames = names ∧ E.numParams = names.length ∧ E.weight = 1 ∧
      E.maxVal = M ∧ E.prior = some m ∧ E.ppMap = (List.range m.names.length).map (pidx m names) ∧
      E.invMap.length = names.length ∧
      (∀ j a, E.invMap[j]? = some (some a) → pidx m names a = some j) ∧
      (∀ j a, pidx m names a = some j → ∃ a', E.invMap[j]? = some (some a')) := by
  have hmem : ∀ a j, (a, j) ∈ ((List.range m.names.length).flatMap fun i => (List.range names.length).map fun j => (i, j)) ↔
      a < m.names.length ∧ j < names.length := by
    intro a j
    simp
  obtain ⟨s', e, l1, l2, k1, k2⟩ := load_fold m.names names
    ((List.range m.names.length).flatMap fun i => (List.range names.length).map fun j => (i, j))
    (fun ij h => (hmem ij.1 ij.2).1 h) (resizeMap [] m.names.length, resizeMap [] names.length)
    (by simp [resizeMap]) (by simp [resizeMap])
  refine ⟨⟨names, names.length, 1, M, s'.1, s'.2, some m⟩, ?_, rfl, rfl, rfl, rfl, rfl, ?_, l2, ?_, ?_⟩
  · simp only [make, loadInternal]
    rw [Option.bind_eq_bind, Option.bind_some, e]
    rfl
  · apply List.ext_getElem?
    intro a
    by_cases ha : a < m.names.length
    · have hr : ((List.range m.names.length).map (pidx m names))[a]? = some (pidx m names a) := by simp [ha]
      rw [hr]
      rcases k1 a with ⟨j, h1, h2, h3⟩ | ⟨h1, h2⟩
      · rw [h3, (pidx_spec m hn ((hmem a j).1 h1).2).2 h2]
      · have : pidx m names a = none := by
          rw [Option.eq_none_iff_forall_ne_some]
          intro j hj
          have := pidx_lt m hj
          exact h1 j ((hmem a j).2 ⟨this.2, this.1⟩) ((pidx_spec m hn this.1).1 hj)
        rw [this, h2]
        simp [resizeMap, ha]
    · rw [List.getElem?_eq_none (by rw [l1]; omega), List.getElem?_eq_none (by simpa using ha)]
  · intro j a h
    rcases k2 j with ⟨a', h1, h2, h3⟩ | ⟨h1, h2⟩
    · rw [h] at h3
      simp only [Option.some.injEq] at h3
      subst h3
      exact (pidx_spec m hn ((hmem a j).1 h1).2).2 h2
    · rw [h] at h2
      simp only [resizeMap, List.take_nil, List.nil_append, List.getElem?_replicate] at h2
      split at h2 <;> simp at h2
  · intro j a h
    have hlt := pidx_lt m h
    rcases k2 j with ⟨a', h1, h2, h3⟩ | ⟨h1, h2⟩
    · exact ⟨a', h3⟩
    · exact absurd ((pidx_spec m hn hlt.1).1 h) (h1 a ((hmem a j).2 ⟨hlt.2, hlt.1⟩))

theorem mapParameters_eq (inp : List ℝ) (mp : List (Option Nat)) (h : ∀ j, some j ∈ mp → j < inp.length) :
    mapParameters inp mp = some (mp.map fun o => match o with
      | none => 0
      | some j => inp.getD j 0) := by
  induction mp with
  | nil => rfl
  | cons o mp ih =>
    have ih := ih (fun j hj => h j (by simp [hj]))
    unfold mapParameters at ih ⊢
    rw [List.mapM_cons, ih]
    cases o with
    | none => rfl
    | some j =>
      have := h j (by simp)
      simp [List.getElem?_eq_getElem this, List.getD_eq_getElem?_getD]

/-! ### The best mode -/

theorem half_dist (m : Mppca) (c : Nat) (x : Nat → ℝ) :
    (0.5 : ℝ) * ∑ j ∈ range m.d, (∑ i ∈ range m.d, (x i - m.mu c i) * m.Cinv c i j) * (x j - m.mu c j) = m.dist c x := by
  unfold Mppca.dist
  rw [sum_comm]
  congr 1
  · norm_num
  · exact sum_congr rfl fun j _ => by rw [sum_mul]

theorem best_fold {m : Mppca} {sub : List ℝ} (hs : sub.length = m.d) (M : ℝ) (p : Nat) :
    ∃ b, (List.range p).foldlM (bestStep m sub) ⟨none, fun _ => 0, -M, M⟩ = some b ∧
      (((∀ c < p, m.score c (fun a => sub.getD a 0) ≤ -M) ∧ b = ⟨none, fun _ => 0, -M, M⟩) ∨
        ∃ c < p, b = ⟨some c, fun a => sub.getD a 0 - m.mu c a, m.score c (fun a => sub.getD a 0),
            m.dist c (fun a => sub.getD a 0)⟩ ∧ -M < m.score c (fun a => sub.getD a 0) ∧
          (∀ c' < p, m.score c' (fun a => sub.getD a 0) ≤ m.score c (fun a => sub.getD a 0)) ∧
          ∀ c' < c, m.score c' (fun a => sub.getD a 0) < m.score c (fun a => sub.getD a 0)) := by
  induction p with
  | zero => exact ⟨_, rfl, Or.inl ⟨by simp, rfl⟩⟩
  | succ n ih =>
    obtain ⟨b, e, h⟩ := ih
    have hstep : ∀ b, bestStep m sub b n = some (open Classical in if m.score n (fun a => sub.getD a 0) > b.R then
        ⟨some n, fun a => sub.getD a 0 - m.mu n a, m.score n (fun a => sub.getD a 0), m.dist n (fun a => sub.getD a 0)⟩
        else b) := by
      intro b
      simp only [bestStep]
      rw [if_neg (by simpa using hs), half_dist m n (fun a => sub.getD a 0)]
      rfl
    rw [List.range_succ, List.foldlM_append, e]
    simp only [Option.bind_eq_bind, Option.bind_some, List.foldlM_cons, List.foldlM_nil, hstep]
    refine ⟨_, rfl, ?_⟩
    rcases h with ⟨h1, rfl⟩ | ⟨c, hc, rfl, h2, h3, h4⟩
    · by_cases hb : m.score n (fun a => sub.getD a 0) > -M
      · refine Or.inr ⟨n, by omega, if_pos hb, hb, fun c' hc' => ?_, fun c' hc' => ?_⟩
        · rcases Nat.lt_succ_iff_lt_or_eq.1 hc' with h | rfl
          · exact (h1 c' h).trans hb.le
          · exact le_rfl
        · exact (h1 c' hc').trans_lt hb
      · refine Or.inl ⟨fun c' hc' => ?_, if_neg hb⟩
        rcases Nat.lt_succ_iff_lt_or_eq.1 hc' with h | rfl
        · exact h1 c' h
        · exact not_lt.1 hb
    · by_cases hb : m.score n (fun a => sub.getD a 0) > m.score c (fun a => sub.getD a 0)
      · refine Or.inr ⟨n, by omega, if_pos hb, h2.trans hb, fun c' hc' => ?_, fun c' hc' => ?_⟩
        · rcases Nat.lt_succ_iff_lt_or_eq.1 hc' with h | rfl
          · exact (h3 c' h).trans hb.le
          · exact le_rfl
        · exact (h3 c' hc').trans_lt hb
      · refine Or.inr ⟨c, by omega, if_neg hb, h2, fun c' hc' => ?_, h4⟩
        rcases Nat.lt_succ_iff_lt_or_eq.1 hc' with h | rfl
        · exact h3 c' h
        · exact not_lt.1 hb

theorem dist_congr {m : Mppca} {c : Nat} {x y : Nat → ℝ} (h : ∀ a < m.d, x a = y a) : m.dist c x = m.dist c y := by
  unfold Mppca.dist
  congr 1
  refine sum_congr rfl fun a ha => sum_congr rfl fun b hb => ?_
  rw [h a (mem_range.1 ha), h b (mem_range.1 hb)]

theorem score_congr {m : Mppca} {c : Nat} {x y : Nat → ℝ} (h : ∀ a < m.d, x a = y a) : m.score c x = m.score c y := by
  unfold Mppca.score; rw [dist_congr h]

/-- `getBestFitMode` on an error function made by the constructor. -/
theorem bestFit {names : List String} {M : ℝ} {m : Mppca} {E : PosePrior}
    (h5 : E.numParams = names.length) (h1 : E.maxVal = M) (h2 : E.prior = some m)
    (h3 : E.ppMap = (List.range m.names.length).map (pidx m names)) (hm : m.names.length = m.d) (p : Nat → ℝ) :
    ∃ b, E.getBestFitMode (paramVec E.numParams p) = some b ∧
      (((∀ c < m.p, m.score c (m.view names p) ≤ -M) ∧ b = ⟨none, fun _ => 0, -M, M⟩) ∨
        ∃ c < m.p, b.idx = some c ∧ b.dist = m.dist c (m.view names p) ∧
          (∀ a < m.d, b.diff a = m.view names p a - m.mu c a) ∧ -M < m.score c (m.view names p) ∧
          (∀ c' < m.p, m.score c' (m.view names p) ≤ m.score c (m.view names p)) ∧
          ∀ c' < c, m.score c' (m.view names p) < m.score c (m.view names p)) := by
  have hmap : mapParameters (paramVec E.numParams p) E.ppMap =
      some ((List.range m.names.length).map (m.view names p)) := by
    rw [mapParameters_eq, h3, List.map_map]
    · congr 1
      apply List.map_congr_left
      intro a ha
      rw [view_pidx]
      simp only [Function.comp]
      cases h : pidx m names a with
      | none => rfl
      | some j =>
        have := (pidx_lt m h).1
        simp [paramVec, h5, List.getD_eq_getElem?_getD, this]
    · intro j hj
      rw [h3] at hj
      obtain ⟨a, _, ha⟩ := List.mem_map.1 hj
      rw [StateError.paramVec_length, h5]
      exact (pidx_lt m ha).1
  have hsub : ∀ a < m.d, (((List.range m.names.length).map (m.view names p)).getD a 0) = m.view names p a := by
    intro a ha
    simp [List.getD_eq_getElem?_getD, hm, ha]
  obtain ⟨b, e, h⟩ := best_fold (m := m) (sub := (List.range m.names.length).map (m.view names p)) (by simpa using hm) M m.p
  have hsc : ∀ c, m.score c (fun a => ((List.range m.names.length).map (m.view names p)).getD a 0) =
      m.score c (m.view names p) := fun c => score_congr hsub
  refine ⟨b, ?_, ?_⟩
  · unfold getBestFitMode
    rw [h2]
    simp only
    rw [hmap, Option.bind_eq_bind, Option.bind_some, h1, e]
  · simp only [hsc] at h
    rcases h with h | ⟨c, hc, rfl, k1, k2, k3⟩
    · exact Or.inl h
    · exact Or.inr ⟨c, hc, rfl, dist_congr hsub, fun a ha => by simp only; rw [hsub a ha], k1, k2, k3⟩

end PosePrior

end Momentum
