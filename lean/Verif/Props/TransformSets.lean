import Verif.Lemmas.TransformSets
import Verif.Props.TransformText

/-! # C85: parameter sets and pose constraints in the text -/

namespace Momentum.TransformText

section
variable {K : Type}

/-- Parameter sets: when all names are known the parser succeeds, every key has exactly one set, that of its last line, and the set
holds exactly the parameters that are named there. -/
theorem C85_sets {ls : List (List Char × List (List Char))} {text : List Char} {pt : ParameterTransform K}
    (h : KeyedText "parameterset".toList ls text) (hk : ∀ e ∈ ls, ∀ w ∈ e.2, ∃ i, IsParameter pt i w ∧ i < kMaxModelParams) :
    ∃ m, parseParameterSets text pt = some m ∧ ∀ key ps, (String.ofList key, ps) ∈ m ↔
      ∃ ws, LastLine ls key ws ∧ ∀ i, ps i = true ↔ ∃ w ∈ ws, IsParameter pt i.val w := by
  refine ⟨ls.foldl (fun m e => assignKey m (String.ofList e.1) (membersOf pt ParameterSet.empty e.2)) [], ?_, ?_⟩
  · unfold parseParameterSets
    rw [setLine_keyed]
    exact keyed_ok (by decide) (by decide) h (f := fun ws => membersOf pt ParameterSet.empty ws)
      (fun e he => addMember_fold pt (h.entries e he) (hk e he) _) []
  · intro key ps
    rw [mem_assigned]
    simp only [List.not_mem_nil, and_false, or_false]
    refine exists_congr fun ws => and_congr_right fun _ => ?_
    constructor
    · rintro rfl i
      simp only [membersOf, ParameterSet.empty, Bool.false_or, List.any_eq_true, decide_eq_true_eq]
      exact exists_congr fun w => and_congr_right fun _ => parameterIndex_iff
    · intro hi
      funext i
      rw [Bool.eq_iff_iff, hi i]
      simp only [membersOf, ParameterSet.empty, Bool.false_or, List.any_eq_true, decide_eq_true_eq]
      exact exists_congr fun w => and_congr_right fun _ => parameterIndex_iff.symm

/-- A name that no parameter has is an exception. -/
theorem C85_sets_unknown {ls : List (List Char × List (List Char))} {text : List Char} {pt : ParameterTransform K}
    (h : KeyedText "parameterset".toList ls text) {e : List Char × List (List Char)} (he : e ∈ ls) {w : List Char} (hw : w ∈ e.2)
    (hk : ∀ n ∈ pt.name, n.toList ≠ w) : parseParameterSets text pt = none := by
  unfold parseParameterSets
  rw [setLine_keyed]
  exact keyed_throws (by decide) (by decide) h he (addMember_none pt (h.entries e he) hw hk _) []

/-- Pose constraints: when all items are written well the parser succeeds and every key has exactly one list, that of its last line,
with the parameters and values in the order of the text. -/
theorem C85_constraints {ls : List (List Char × List (List Char))} {text : List Char} {pt : ParameterTransform K}
    {read : List Char → Option K} (h : KeyedText "poseconstraints".toList ls text)
    (hk : ∀ e ∈ ls, ∃ xs, Items read pt e.2 xs) :
    ∃ m, parsePoseConstraints read text pt = some m ∧ ∀ key xs, (String.ofList key, xs) ∈ m ↔
      ∃ ws, LastLine ls key ws ∧ Items read pt ws xs := by
  let f : List (List Char) → List (Nat × K) := fun ws => (ws.foldlM (addItem read pt) []).getD []
  have hf : ∀ e ∈ ls, ∀ xs, Items read pt e.2 xs → e.2.foldlM (addItem read pt) [] = some xs ∧ f e.2 = xs := by
    intro e he xs hx
    have : e.2.foldlM (addItem read pt) [] = some xs := by simpa using addItem_fold hx (h.entries e he) []
    exact ⟨this, by simp [f, this]⟩
  refine ⟨ls.foldl (fun m e => assignKey m (String.ofList e.1) (f e.2)) [], ?_, ?_⟩
  · unfold parsePoseConstraints
    rw [constraintLine_keyed]
    refine keyed_ok (by decide) (by decide) h (f := f) (fun e he => ?_) []
    obtain ⟨xs, hx⟩ := hk e he
    obtain ⟨h1, h2⟩ := hf e he xs hx
    rw [h2]
    exact h1
  · intro key xs
    rw [mem_assigned]
    simp only [List.not_mem_nil, and_false, or_false]
    refine exists_congr fun ws => and_congr_right fun hl => ?_
    have he : (key, ws) ∈ ls := by
      obtain ⟨pre, post, rfl, _⟩ := hl
      simp
    obtain ⟨ys, hy⟩ := hk _ he
    have h2 := (hf _ he ys hy).2
    simp only at h2
    constructor
    · rintro rfl
      rw [h2]
      exact hy
    · intro hx
      exact ((hf _ he xs hx).2).symm

end
end Momentum.TransformText
