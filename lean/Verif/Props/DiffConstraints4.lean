import Verif.Props.DiffConstraints3

/-! # C79, continued: the error of the differentiable constraints and the inputs of the state error -/

namespace Momentum

namespace DiffPosition

theorem errorStep_fold {st : List JointState} (l : List DiffPosConstraint) (hl : ∀ c ∈ l, c.parent < st.length) : ∀ e : ℝ,
    l.foldlM (errorStep st) e = some (e + (l.map fun c =>
      c.weight * ((stateAt st c.parent).transform.transformPoint c.offset - c.target).sqNorm * kDiffPositionWeight).sum) := by
  induction l with
  | nil => intro e; simp
  | cons c l ih =>
    intro e
    have hc := hl c (by simp)
    rw [List.foldlM_cons]
    have : errorStep st e c = some (e + c.weight *
        ((stateAt st c.parent).transform.transformPoint c.offset - c.target).sqNorm * kDiffPositionWeight) := by
      simp [errorStep, position, List.getElem?_eq_getElem hc, stateAt_eq (List.getElem?_eq_getElem hc)]
    rw [this, Option.bind_eq_bind, Option.bind_some, ih fun x hx => hl x (List.mem_cons_of_mem _ hx)]
    simp only [List.map_cons, List.sum_cons]
    congr 1
    ring

theorem gradStep_error {E : DiffPosition} {st : List JointState} (l : List DiffPosConstraint) : ∀ s s' : ℝ × (Nat → ℝ),
    l.foldlM (E.gradStep st) s = some s' → l.foldlM (errorStep st) s.1 = some s'.1 := by
  induction l with
  | nil => intro s s' h; injection h with h; subst h; rfl
  | cons c l ih =>
    intro s s' h
    rw [List.foldlM_cons, Option.bind_eq_bind] at h ⊢
    obtain ⟨s1, h1, h2⟩ := Option.bind_eq_some_iff.mp h
    have : errorStep st s.1 c = some s1.1 := by
      unfold gradStep at h1
      obtain ⟨pos, p1, p2⟩ := Option.bind_eq_some_iff.mp h1
      unfold errorStep
      rw [p1]
      split at p2
      · rename_i hw
        injection p2 with p2
        subst p2
        simp [hw]
      · obtain ⟨g, -, p3⟩ := Option.map_eq_some_iff.mp p2
        rw [← p3]
        rfl
    rw [this, Option.bind_some]
    exact ih s1 s' h2

end DiffPosition

/-- The error of position constraints is the weighted sum of the squared distances to the targets, and it is the error that
`getGradient` returns. -/
theorem C79_position_error (E : DiffPosition) (st : List JointState) (hc : ∀ c ∈ E.constraints, c.parent < st.length) :
    E.getError st = some (E.weight * (E.constraints.map fun c =>
      c.weight * ((stateAt st c.parent).transform.transformPoint c.offset - c.target).sqNorm * kDiffPositionWeight).sum) ∧
    ∀ gradient e g, E.getGradient st gradient = some (e, g) → E.getError st = some e := by
  constructor
  · unfold DiffPosition.getError
    rw [DiffPosition.errorStep_fold _ hc]
    simp [mul_comm]
  · intro gradient e g h
    unfold DiffPosition.getGradient at h
    obtain ⟨s, h1, h2⟩ := Option.map_eq_some_iff.mp h
    injection h2 with h2 _
    unfold DiffPosition.getError
    rw [DiffPosition.gradStep_error _ _ _ h1, Option.map_some, h2]

/-- Two constraints on the second of two joints meet the hypothesis. -/
example (a b : JointState) : ∀ c ∈ [(⟨⟨1, 0, 0⟩, ⟨0, 2, 0⟩, 1, 3⟩ : DiffPosConstraint), ⟨⟨0, 0, 1⟩, ⟨0, 0, 0⟩, 1, 0⟩], c.parent < [a, b].length := by
  simp

namespace DiffOrientation

theorem errorStep_fold {st : List JointState} (l : List DiffRotConstraint) (hl : ∀ c ∈ l, c.parent < st.length) : ∀ e : ℝ,
    l.foldlM (errorStep st) e = some (e + (l.map fun c =>
      let d := ((stateAt st c.parent).transform.rotation * c.offset).toMat.minus c.target.toMat
      c.weight * d.sumProd d * kDiffOrientationWeight).sum) := by
  induction l with
  | nil => intro e; simp
  | cons c l ih =>
    intro e
    have hc := hl c (by simp)
    rw [List.foldlM_cons]
    have : errorStep st e c = some (e +
        let d := ((stateAt st c.parent).transform.rotation * c.offset).toMat.minus c.target.toMat
        c.weight * d.sumProd d * kDiffOrientationWeight) := by
      simp [errorStep, rotation, List.getElem?_eq_getElem hc, stateAt_eq (List.getElem?_eq_getElem hc)]
    rw [this, Option.bind_eq_bind, Option.bind_some, ih fun x hx => hl x (List.mem_cons_of_mem _ hx)]
    simp only [List.map_cons, List.sum_cons]
    congr 1
    ring

theorem gradStep_error {E : DiffOrientation} {st : List JointState} (l : List DiffRotConstraint) (hl : ∀ c ∈ l, c.parent < st.length) :
    ∀ s s' : ℝ × (Nat → ℝ), l.foldlM (E.gradStep st) s = some s' → l.foldlM (errorStep st) s.1 = some s'.1 := by
  induction l with
  | nil => intro s s' h; injection h with h; subst h; rfl
  | cons c l ih =>
    intro s s' h
    have hc := hl c (by simp)
    rw [List.foldlM_cons, Option.bind_eq_bind] at h ⊢
    obtain ⟨s1, h1, h2⟩ := Option.bind_eq_some_iff.mp h
    have : errorStep st s.1 c = some s1.1 := by
      unfold gradStep at h1
      unfold errorStep
      split at h1
      · rename_i hw
        injection h1 with h1
        subst h1
        simp [hw, rotation, List.getElem?_eq_getElem hc]
      · obtain ⟨rot, p1, p2⟩ := Option.bind_eq_some_iff.mp h1
        obtain ⟨g, -, p3⟩ := Option.map_eq_some_iff.mp p2
        rw [p1, ← p3, Option.map_some]
        congr 1
        ring
    rw [this, Option.bind_some]
    exact ih (fun x hx => hl x (List.mem_cons_of_mem _ hx)) s1 s' h2

end DiffOrientation

/-- The error of orientation constraints is the weighted sum of the squared differences of the rotation matrices, and it is the error
that `getGradient` returns. -/
theorem C79_orientation_error (E : DiffOrientation) (st : List JointState) (hc : ∀ c ∈ E.constraints, c.parent < st.length) :
    E.getError st = some (E.weight * (E.constraints.map fun c =>
      let d := ((stateAt st c.parent).transform.rotation * c.offset).toMat.minus c.target.toMat
      c.weight * d.sumProd d * kDiffOrientationWeight).sum) ∧
    ∀ gradient e g, E.getGradient st gradient = some (e, g) → E.getError st = some e := by
  constructor
  · unfold DiffOrientation.getError
    rw [DiffOrientation.errorStep_fold _ hc]
    simp [mul_comm]
  · intro gradient e g h
    unfold DiffOrientation.getGradient at h
    obtain ⟨s, h1, h2⟩ := Option.map_eq_some_iff.mp h
    injection h2 with h2 _
    unfold DiffOrientation.getError
    rw [DiffOrientation.gradStep_error _ hc _ _ h1, Option.map_some, h2]

/-- Target states and weights of the right size are stored as they are, scales included; quaternions must be unit. -/
theorem C79_state_inputs (E : StateError) (hE : E.Sized) (y : List ℝ) :
    (y.length = 8 * E.skeleton.joints.length →
      (∀ i < E.skeleton.joints.length,
        (⟨y.getD (8 * i + 6) 0, y.getD (8 * i + 3) 0, y.getD (8 * i + 4) 0, y.getD (8 * i + 5) 0⟩ : Quat ℝ).normSq = 1) →
      ∃ E', E.setInput "targetState" y = some E' ∧ E'.getInput "targetState" = some y ∧
        E'.getInput "targetPositionWeights" = E.getInput "targetPositionWeights" ∧
        E'.getInput "targetRotationWeights" = E.getInput "targetRotationWeights") ∧
    (y.length = E.skeleton.joints.length →
      (∃ E', E.setInput "targetPositionWeights" y = some E' ∧ E'.getInput "targetPositionWeights" = some y ∧
        E'.getInput "targetRotationWeights" = E.getInput "targetRotationWeights" ∧
        E'.getInput "targetState" = E.getInput "targetState") ∧
      (∃ E', E.setInput "targetRotationWeights" y = some E' ∧ E'.getInput "targetRotationWeights" = some y ∧
        E'.getInput "targetPositionWeights" = E.getInput "targetPositionWeights" ∧
        E'.getInput "targetState" = E.getInput "targetState")) := by
  refine ⟨fun hy hu => ?_, fun hy => ⟨?_, ?_⟩⟩
  · refine ⟨{ E with targetState := (List.range E.skeleton.joints.length).map (StateError.stateSegment y) }, ?_, ?_, rfl, rfl⟩
    · unfold StateError.setInput StateError.getInputSize StateError.setInputImp
      rw [if_neg (by decide), if_pos rfl, Option.bind_some, if_pos hy, if_neg (by decide), if_neg (by decide), if_pos rfl]
    · unfold StateError.getInput
      rw [if_neg (by decide), if_neg (by decide), if_pos rfl]
      simp only
      rw [mapM_of_forall (g := fun i => StateError.stateCoeffs (StateError.stateSegment y i))]
      · rw [Option.map_some]
        congr 1
        have hl : ∀ i, (StateError.stateCoeffs (StateError.stateSegment y i)).length = 8 := fun i => rfl
        have hlen : ((List.range E.skeleton.joints.length).flatMap fun i => StateError.stateCoeffs (StateError.stateSegment y i)).length =
            8 * E.skeleton.joints.length := by
          rw [flatMap_length' (k := 8) _ hl]
          simp
        rw [← List.flatMap_def]
        refine list_ext_getD (by rw [hlen, hy]) fun c hc => ?_
        rw [hlen] at hc
        have hi : c / 8 < E.skeleton.joints.length := by omega
        have hce : 8 * (c / 8) + c % 8 = c := by omega
        have e := flatMap_getD (fun i => StateError.stateCoeffs (StateError.stateSegment y i)) hl (c % 8) (by omega)
          (List.range E.skeleton.joints.length) (c / 8) (c / 8) (by simp [hi])
        rw [hce] at e
        rw [e]
        have hn := unit_normalized (hu (c / 8) hi)
        have hn2 := unit_normalized (r := Quat.normalized ⟨y.getD (8 * (c / 8) + 6) 0, y.getD (8 * (c / 8) + 3) 0,
          y.getD (8 * (c / 8) + 4) 0, y.getD (8 * (c / 8) + 5) 0⟩) (by rw [hn]; exact hu _ hi)
        have hm : c % 8 < 8 := by omega
        conv_rhs => rw [← hce]
        generalize c % 8 = m at hm
        unfold StateError.stateCoeffs StateError.stateSegment
        simp only
        rw [hn2, hn]
        have : m = 0 ∨ m = 1 ∨ m = 2 ∨ m = 3 ∨ m = 4 ∨ m = 5 ∨ m = 6 ∨ m = 7 := by omega
        rcases this with rfl | rfl | rfl | rfl | rfl | rfl | rfl | rfl <;> rfl
      · intro i hi
        simp [List.mem_range.mp hi]
  · refine ⟨{ E with targetPositionWeights := y }, ?_, rfl, rfl, rfl⟩
    unfold StateError.setInput StateError.getInputSize StateError.setInputImp
    rw [if_pos (by decide), Option.bind_some, if_pos hy, if_pos rfl, if_pos ⟨hy, hE.rot⟩]
  · refine ⟨{ E with targetRotationWeights := y }, ?_, rfl, rfl, rfl⟩
    unfold StateError.setInput StateError.getInputSize StateError.setInputImp
    rw [if_pos (by decide), Option.bind_some, if_pos hy, if_neg (by decide), if_pos rfl, if_pos ⟨hE.pos, hy⟩]

/-- Eight numbers for one joint: a translation, a half turn about x and the scale 3. -/
example : ([1, 2, 0, 1, 0, 0, 0, 3] : List ℝ).length = 8 * 1 ∧ ∀ i < 1,
    (⟨([1, 2, 0, 1, 0, 0, 0, 3] : List ℝ).getD (8 * i + 6) 0, ([1, 2, 0, 1, 0, 0, 0, 3] : List ℝ).getD (8 * i + 3) 0,
      ([1, 2, 0, 1, 0, 0, 0, 3] : List ℝ).getD (8 * i + 4) 0, ([1, 2, 0, 1, 0, 0, 0, 3] : List ℝ).getD (8 * i + 5) 0⟩ : Quat ℝ).normSq = 1 := by
  refine ⟨rfl, fun i hi => ?_⟩
  have : i = 0 := by omega
  subst this
  simp [Quat.normSq]

end Momentum
