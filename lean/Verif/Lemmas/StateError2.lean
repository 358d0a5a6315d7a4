import Verif.Lemmas.StateError

/-!
# Closed forms of the state error function
-/

namespace Momentum
open Skeleton

namespace StateError

/-- The vectors of the error function have the sizes the setters check. -/
structure Sized (E : StateError) : Prop where
  state : E.targetState.length = E.skeleton.joints.length
  params : E.targetParameters.length = E.transform.cols
  weights : E.targetParameterWeights.length = E.transform.cols
  pos : E.targetPositionWeights.length = E.skeleton.joints.length
  rot : E.targetRotationWeights.length = E.skeleton.joints.length

noncomputable def tgt (E : StateError) (i : Nat) : Transform ℝ := E.targetState.getD i Transform.one
noncomputable def rw' (E : StateError) (i : Nat) : ℝ := E.targetRotationWeights.getD i 0
noncomputable def pw' (E : StateError) (i : Nat) : ℝ := E.targetPositionWeights.getD i 0
noncomputable def rwgt (E : StateError) (i : Nat) : ℝ := kStateOrientationWeight * E.rotWgt * E.weight * E.rw' i
noncomputable def pwgt (E : StateError) (i : Nat) : ℝ := kStatePositionWeight * E.posWgt * E.weight * E.pw' i

/-- The part of joint `i` in the error. -/
noncomputable def jointErr (E : StateError) (st : List JointState) (i : Nat) : ℝ :=
  sqNormFn (rotDiff (E.tgt i) (stateAt st i)).flat * E.rwgt i + (posDiff (E.tgt i) (stateAt st i)).sqNorm * E.pwgt i

theorem jointData_eq {E : StateError} (hE : E.Sized) {st : List JointState} (hst : st.length = E.skeleton.joints.length)
    {i : Nat} (hi : i < E.skeleton.joints.length) :
    E.jointData st i = some (E.tgt i, stateAt st i, E.rw' i, E.pw' i) := by
  have e1 : E.targetState[i]? = some (E.targetState[i]'(by rw [hE.state]; exact hi)) := List.getElem?_eq_getElem _
  have e2 : st[i]? = some (st[i]'(by rw [hst]; exact hi)) := List.getElem?_eq_getElem _
  have e3 : E.targetRotationWeights[i]? = some (E.targetRotationWeights[i]'(by rw [hE.rot]; exact hi)) :=
    List.getElem?_eq_getElem _
  have e4 : E.targetPositionWeights[i]? = some (E.targetPositionWeights[i]'(by rw [hE.pos]; exact hi)) :=
    List.getElem?_eq_getElem _
  simp only [jointData, tgt, rw', pw', List.getD_eq_getElem?_getD, stateAt_eq e2, e1, e2, e3, e4, Option.getD_some]
  rfl

theorem not_mismatch {E : StateError} (hE : E.Sized) {st : List JointState} (hst : st.length = E.skeleton.joints.length)
    {p : List ℝ} (hp : p.length = E.transform.cols) : ¬ E.mismatch p st := by
  unfold mismatch
  rw [hE.state, hst, hE.params, hp]
  simp

/-- The weighted parameter differences. -/
noncomputable def pd (E : StateError) (p : List ℝ) (i : Nat) : ℝ :=
  (p.getD i 0 - E.targetParameters.getD i 0) * E.targetParameterWeights.getD i 0

theorem pdiff_eq {E : StateError} (hE : E.Sized) {p : List ℝ} (hp : p.length = E.transform.cols) :
    E.pdiff p = some ((List.range E.transform.cols).map (E.pd p)) := by
  unfold pdiff
  rw [if_pos (by rw [hE.weights, hp])]
  congr 1
  apply List.ext_getElem?
  intro i
  by_cases hi : i < E.transform.cols
  · have e1 : p[i]? = some (p[i]'(by omega)) := List.getElem?_eq_getElem _
    have e2 : E.targetParameters[i]? = some (E.targetParameters[i]'(by rw [hE.params]; exact hi)) := List.getElem?_eq_getElem _
    have e3 : E.targetParameterWeights[i]? = some (E.targetParameterWeights[i]'(by rw [hE.weights]; exact hi)) :=
      List.getElem?_eq_getElem _
    simp [List.getElem?_zipWith, e1, e2, e3, hi, pd, List.getD_eq_getElem?_getD]
  · rw [List.getElem?_eq_none, List.getElem?_eq_none]
    · simp; omega
    · simp; omega

theorem sqNormList_range (n : Nat) (f : Nat → ℝ) :
    sqNormList ((List.range n).map f) = ∑ i ∈ Finset.range n, f i ^ 2 := by
  unfold sqNormList
  induction n with
  | zero => simp
  | succ n ih =>
    rw [List.range_succ, List.map_append, List.map_append, List.sum_append, ih, Finset.sum_range_succ]
    simp [sq]

/-- The error in closed form. -/
noncomputable def total (E : StateError) (p : List ℝ) (st : List JointState) : ℝ :=
  (∑ i ∈ Finset.range E.transform.cols, E.pd p i ^ 2) * E.weight +
    ((List.range E.skeleton.joints.length).map (E.jointErr st)).sum

theorem getError_eq {E : StateError} (hE : E.Sized) (hne : E.skeleton.joints ≠ []) {st : List JointState}
    (hst : st.length = E.skeleton.joints.length) {p : List ℝ} (hp : p.length = E.transform.cols) :
    E.getError p st = some (E.total p st) := by
  have hem : ¬ st.isEmpty = true := by
    rw [List.isEmpty_iff]; intro h; rw [h] at hst
    exact hne (List.eq_nil_of_length_eq_zero hst.symm)
  unfold getError
  rw [if_neg hem, if_neg (not_mismatch hE hst hp), pdiff_eq hE hp]
  obtain ⟨e, h1, h2⟩ := foldlM_track (E.errorStep st) (fun (_ : Unit) (x : ℝ) => x * E.weight)
    (fun _ i => E.jointErr st i) (List.range E.skeleton.joints.length) (by
      intro i hi s
      refine ⟨_, by unfold errorStep; rw [jointData_eq hE hst (List.mem_range.1 hi)]; rfl, fun _ => ?_⟩
      simp only [jointErr, rwgt, pwgt]; ring) (0 + sqNormList ((List.range E.transform.cols).map (E.pd p)))
  simp only [Option.bind_eq_bind, Option.bind_some, h1]
  rw [h2 (), sqNormList_range, zero_add]; rfl

/-- What joint `j`, carried by the chain `l`, adds to component `i` of the gradient. -/
noncomputable def jointGrad (E : StateError) (st : List JointState) (l : List Nat) (i j : Nat) : ℝ :=
  2 * E.pwgt j * (posDiff (E.tgt j) (stateAt st j)).dot
      (posVel st l (fun r => E.transform.coeff r i) (stateAt st j).transform.translation) +
    2 * E.rwgt j * ∑ b, spinFlat (stateAt st j).transform.rotation.toMat
      (spinOf st l fun r => E.transform.coeff r i) b * (rotDiff (E.tgt j) (stateAt st j)).flat b

section
variable {E : StateError} {pt : ParameterTransform ℝ} (hF : E.Fits pt) (hE : E.Sized) {st : List JointState}
  (hst : st.length = E.skeleton.joints.length) (hclean : ∀ js ∈ st, js.derivDirty = false)
  {ch : Nat → List Nat} (hch : ∀ j < E.skeleton.joints.length, Chain E.skeleton (some j) (ch j))

include hF hE hst hclean hch in
theorem getGradient_eq (hne : E.skeleton.joints ≠ []) {p : List ℝ} (hp : p.length = E.transform.cols) (g0 : Nat → ℝ) :
    ∃ g, E.getGradient p st g0 = some (E.total p st, g) ∧ ∀ i < E.transform.cols, E.enabledParameters.mem i = true →
      g i = g0 i + 2 * E.pd p i * E.weight +
        ((List.range E.skeleton.joints.length).map fun j => E.jointGrad st (ch j) i j).sum := by
  have hem : ¬ st.isEmpty = true := by
    rw [List.isEmpty_iff]; intro h; rw [h] at hst
    exact hne (List.eq_nil_of_length_eq_zero hst.symm)
  unfold getGradient
  rw [if_neg hem, if_neg (not_mismatch hE hst hp), pdiff_eq hE hp]
  simp only [Option.bind_eq_bind, Option.bind_some]
  obtain ⟨⟨err, g⟩, h1, h2⟩ := foldlM_track (E.gradStep st)
    (fun (i : Option {i : Nat // E.enabledParameters.mem i = true}) (s : ℝ × (Nat → ℝ)) =>
      match i with
      | none => s.1
      | some i => s.2 i.1)
    (fun i j => match i with
      | none => E.jointErr st j
      | some i => E.jointGrad st (ch j) i.1 j) (List.range E.skeleton.joints.length) (by
      intro j hj s
      have hj := List.mem_range.1 hj
      unfold gradStep
      rw [jointData_eq hE hst hj]
      simp only [Option.bind_eq_bind, Option.bind_some]
      by_cases h0 : E.rw' j = 0 ∧ E.pw' j = 0
      · rw [if_pos h0]
        refine ⟨s, rfl, fun i => ?_⟩
        cases i <;> simp [jointErr, jointGrad, rwgt, pwgt, h0.1, h0.2]
      · rw [if_neg h0]
        obtain ⟨g', e1, e2⟩ := chainWalk_track (gradScatter_emits (ι := {i : Nat // E.enabledParameters.mem i = true})
            (by rw [hF.transform]; exact hF.wf : E.transform.WF) pt.transform.rows (fun i => i.1))
          hF.activeLength hF.rows
          (fun i r hne => hF.active r i.1 i.2 (by rw [← hF.transform]; exact hne)) hst
          (dofs := gradDofs (stateAt st j).transform.translation (stateAt st j).transform.rotation.toMat
            (posDiff (E.tgt j) (stateAt st j)) (rotDiff (E.tgt j) (stateAt st j)) (E.pwgt j) (E.rwgt j))
          (fun js hjs => gradDofs_eq _ _ _ _ _ _ (hclean js hjs)) (fun js _ d hd => gradDv_lt hd) (hch j hj).to s.2
        refine ⟨(s.1 + E.jointErr st j, g'), ?_, fun i => ?_⟩
        · simp only [pwgt, rwgt] at e1
          rw [e1, Option.bind_some]
          simp only [jointErr, add_assoc, pwgt, rwgt]
        · cases i with
          | none => rfl
          | some i =>
            have := e2 i
            rw [chain_grad] at this
            exact this)
    (0 + sqNormList ((List.range E.transform.cols).map (E.pd p)) * E.weight,
      fun k => g0 k + 2 * ((List.range E.transform.cols).map (E.pd p)).getD k 0 * E.weight)
  refine ⟨g, ?_, fun i hi hen => ?_⟩
  · rw [h1]
    have := h2 none
    simp only at this
    rw [this, sqNormList_range, zero_add]; rfl
  · have := h2 (some ⟨i, hen⟩)
    simp only at this
    rw [this, List.getD_eq_getElem?_getD, List.getElem?_map, List.getElem?_range hi]; rfl

/-- The twelve residuals of joint `j`. -/
noncomputable def res (E : StateError) (st : List JointState) (j : Nat) (b : Fin 12) : ℝ :=
  stack12 (Real.sqrt (E.pwgt j) • posDiff (E.tgt j) (stateAt st j))
    (fun i => (rotDiff (E.tgt j) (stateAt st j)).flat i * Real.sqrt (E.rwgt j)) b

/-- What the chain `l` puts into column `i` of the Jacobian for joint `j`. -/
noncomputable def dres (E : StateError) (st : List JointState) (l : List Nat) (i j : Nat) (b : Fin 12) : ℝ :=
  stack12 (Real.sqrt (E.pwgt j) • posVel st l (fun r => E.transform.coeff r i) (stateAt st j).transform.translation)
    (fun k => spinFlat (stateAt st j).transform.rotation.toMat (spinOf st l fun r => E.transform.coeff r i) k *
      Real.sqrt (E.rwgt j)) b

open Classical in
/-- The joints that take part. -/
noncomputable def acts (E : StateError) (l : List Nat) : List Nat := l.filter fun j => ¬ (E.rw' j = 0 ∧ E.pw' j = 0)

include hF hE hst hclean hch in
theorem jacStep_eq {j : Nat} (hj : j < E.skeleton.joints.length) (h0 : ¬ (E.rw' j = 0 ∧ E.pw' j = 0))
    (s : JacobianResult) :
    ∃ s', E.jacStep st s j = some s' ∧ s'.error = s.error + E.jointErr st j ∧ s'.rows = s.rows + 12 ∧
      (∀ t, t < s.rows ∨ s.rows + 12 ≤ t → s'.residual t = s.residual t ∧
        ∀ i, E.enabledParameters.mem i = true → s'.e i t = s.e i t) ∧
      ∀ b : Fin 12, s'.residual (s.rows + b) = E.res st j b ∧ ∀ i, E.enabledParameters.mem i = true →
        s'.e i (s.rows + b) = s.e i (s.rows + b) + E.dres st (ch j) i j b := by
  unfold jacStep
  rw [jointData_eq hE hst hj]
  simp only [Option.bind_eq_bind, Option.bind_some]
  rw [if_neg h0]
  obtain ⟨J', e1, e2⟩ := chainWalk_track (jacScatter_emits (m := 12) (ι := {i : Nat // E.enabledParameters.mem i = true})
      (by rw [hF.transform]; exact hF.wf : E.transform.WF) s.rows pt.transform.rows (fun i => i.1))
    hF.activeLength hF.rows
    (fun i r hne => hF.active r i.1.1 i.1.2 (by rw [← hF.transform]; exact hne)) hst
    (dofs := jacDofs (stateAt st j).transform.translation (stateAt st j).transform.rotation.toMat
      (Real.sqrt (E.pwgt j)) (Real.sqrt (E.rwgt j)))
    (fun js hjs => jacDofs_eq _ _ _ _ (hclean js hjs)) (fun js _ d hd => jacDv_lt hd) (hch j hj).to s.e
  simp only [pwgt, rwgt] at e1
  rw [e1, Option.bind_some]
  refine ⟨_, rfl, ?_, rfl, fun t ht => ⟨?_, fun i hi => ?_⟩, fun b => ⟨?_, fun i hi => ?_⟩⟩
  · simp only [jointErr, pwgt, rwgt, add_assoc]
  · simp only
    rw [dif_neg (by omega)]
  · have := e2 (⟨i, hi⟩, t)
    simp only at this
    simp only
    rw [this]
    have h : ¬ (s.rows ≤ t ∧ t < s.rows + 12) := by omega
    simp only [h, dif_neg, not_false_iff, dofSum, zero_mul]
    simp
  · simp only
    rw [dif_pos (by omega)]
    simp only [res, pwgt, rwgt, Nat.add_sub_cancel_left]
  · have := e2 (⟨i, hi⟩, s.rows + b)
    simp only at this
    simp only
    rw [this]
    have h : s.rows ≤ s.rows + b.val ∧ s.rows + b.val < s.rows + 12 := by omega
    simp only [h, and_self, dif_pos, Nat.add_sub_cancel_left, Fin.eta]
    rw [chain_jac]
    rfl

include hF hE hst hclean hch in
theorem jac_fold (l : List Nat) (hl : ∀ j ∈ l, j < E.skeleton.joints.length) : ∀ s : JacobianResult,
    ∃ s', l.foldlM (E.jacStep st) s = some s' ∧ s'.error = s.error + (l.map (E.jointErr st)).sum ∧
      s'.rows = s.rows + 12 * (E.acts l).length ∧
      (∀ t, t < s.rows ∨ s'.rows ≤ t → s'.residual t = s.residual t ∧
        ∀ i, E.enabledParameters.mem i = true → s'.e i t = s.e i t) ∧
      ∀ (k j : Nat), (E.acts l)[k]? = some j → ∀ b : Fin 12, s'.residual (s.rows + (12 * k + b)) = E.res st j b ∧
        ∀ i, E.enabledParameters.mem i = true →
          s'.e i (s.rows + (12 * k + b)) = s.e i (s.rows + (12 * k + b)) + E.dres st (ch j) i j b := by
  induction l with
  | nil =>
    intro s
    exact ⟨s, rfl, by simp, by simp [acts], fun _ _ => ⟨rfl, fun _ _ => rfl⟩, by simp [acts]⟩
  | cons j l ih =>
    intro s
    have hj := hl j (by simp)
    have ih := ih (fun k hk => hl k (by simp [hk]))
    by_cases h0 : E.rw' j = 0 ∧ E.pw' j = 0
    · obtain ⟨s', h1, h2, h3, h4, h5⟩ := ih s
      have ha : E.acts (j :: l) = E.acts l := by
        unfold acts; rw [List.filter_cons_of_neg]; simpa using h0
      refine ⟨s', ?_, ?_, by rw [ha]; exact h3, h4, by rw [ha]; exact h5⟩
      · rw [List.foldlM_cons]
        have : E.jacStep st s j = some s := by
          unfold jacStep
          rw [jointData_eq hE hst hj]
          simp only [Option.bind_eq_bind, Option.bind_some]
          exact if_pos h0
        rw [this]; exact h1
      · rw [h2, List.map_cons, List.sum_cons]
        have : E.jointErr st j = 0 := by simp [jointErr, rwgt, pwgt, h0.1, h0.2]
        rw [this, zero_add]
    · obtain ⟨s1, a1, a2, a3, a4, a5⟩ := jacStep_eq hF hE hst hclean hch hj h0 s
      obtain ⟨s', h1, h2, h3, h4, h5⟩ := ih s1
      have ha : E.acts (j :: l) = j :: E.acts l := by
        unfold acts; rw [List.filter_cons_of_pos]; exact decide_eq_true h0
      refine ⟨s', ?_, ?_, ?_, fun t ht => ?_, fun k j' hk b => ?_⟩
      · rw [List.foldlM_cons, a1]; exact h1
      · rw [h2, a2, List.map_cons, List.sum_cons, add_assoc]
      · rw [h3, a3, ha, List.length_cons]; ring
      · obtain ⟨b1, b2⟩ := h4 t (by omega)
        obtain ⟨c1, c2⟩ := a4 t (by omega)
        exact ⟨b1.trans c1, fun i hi => (b2 i hi).trans (c2 i hi)⟩
      · rw [ha] at hk
        have hb := b.2
        cases k with
        | zero =>
          simp at hk; subst hk
          obtain ⟨b1, b2⟩ := h4 (s.rows + (12 * 0 + b)) (by omega)
          obtain ⟨c1, c2⟩ := a5 b
          rw [Nat.mul_zero, Nat.zero_add] at b1 b2 ⊢
          exact ⟨b1.trans c1, fun i hi => (b2 i hi).trans (c2 i hi)⟩
        | succ k =>
          rw [List.getElem?_cons_succ] at hk
          obtain ⟨b1, b2⟩ := h5 k j' hk b
          have e : s1.rows + (12 * k + b.val) = s.rows + (12 * (k + 1) + b.val) := by omega
          rw [e] at b1 b2
          obtain ⟨c1, c2⟩ := a4 (s.rows + (12 * (k + 1) + b.val)) (by omega)
          exact ⟨b1, fun i hi => by rw [b2 i hi, c2 i hi]⟩
end

/-! ## Derivatives -/

theorem flat_sub (a b : Mat3 ℝ) (i : Fin 9) : (a.sub b).flat i = a.flat i - b.flat i := by
  fin_cases i <;> rfl

theorem stack12_deriv {P : ℝ → Vec3 ℝ} {P' : Vec3 ℝ} {R : ℝ → Fin 9 → ℝ} {R' : Fin 9 → ℝ} {t : ℝ}
    (hP : HasVecDerivAt P P' t) (hR : ∀ i, HasDerivAt (fun u => R u i) (R' i) t) (b : Fin 12) :
    HasDerivAt (fun u => stack12 (P u) (R u) b) (stack12 P' R' b) t := by
  unfold stack12
  by_cases hb : b.val < 3
  · simp only [hb, dif_pos]; exact hP.toFn _
  · simp only [hb, dif_neg, not_false_iff]; exact hR _

theorem stack12_sq (p : Vec3 ℝ) (r : Fin 9 → ℝ) : ∑ b, stack12 p r b ^ 2 = p.sqNorm + sqNormFn r := by
  have h := Fin.sum_univ_add (a := 3) (b := 9) fun b => stack12 p r b ^ 2
  refine h.trans ?_
  congr 1
  · simp [Fin.sum_univ_succ, stack12, Vec3.sqNorm, Vec3.dot, Vec3.toFn]; ring
  · unfold sqNormFn
    refine Finset.sum_congr rfl fun b _ => ?_
    simp [stack12, sq]

theorem sqNorm_smul' (c : ℝ) (v : Vec3 ℝ) : (c • v).sqNorm = c ^ 2 * v.sqNorm := by
  simp [Vec3.sqNorm, Vec3.dot]; ring

/-- The squares of the residuals of a joint add up to its error. -/
theorem res_sq {E : StateError} {st : List JointState} {j : Nat} (hp : 0 ≤ E.pwgt j) (hr : 0 ≤ E.rwgt j) :
    ∑ b, E.res st j b ^ 2 = E.jointErr st j := by
  unfold res
  rw [stack12_sq, sqNorm_smul', Real.sq_sqrt hp]
  unfold jointErr sqNormFn
  have : ∀ x : ℝ, x * Real.sqrt (E.rwgt j) * (x * Real.sqrt (E.rwgt j)) = x * x * E.rwgt j := by
    intro x
    have := Real.mul_self_sqrt hr
    linear_combination (x * x) * this
  simp only [this, ← Finset.sum_mul]
  ring

section
variable {E : StateError} {pt : ParameterTransform ℝ} (hF : E.Fits pt) {θ : ℝ → List ℝ} {S : ℝ → List JointState}
  (hG : ∀ u, FKGood E.skeleton (θ u) true (S u)) (hlen : ∀ u, (S u).length = E.skeleton.joints.length) {t : ℝ}
  {i : Nat} (hθ : ∀ r, HasDerivAt (fun u => (θ u).getD r 0) (pt.transform.coeff r i) t)

include hF hG hlen hθ in
theorem posDiff_deriv {j : Nat} {l : List Nat} (hc : Chain E.skeleton (some j) l) :
    HasVecDerivAt (fun u => posDiff (E.tgt j) (stateAt (S u) j))
      (posVel (S t) l (fun r => E.transform.coeff r i) (stateAt (S t) j).transform.translation) t := by
  rw [hF.transform]
  have h := translation_deriv hF.skeleton hF.unit hG hlen hθ hc
  have h2 := h.sub (HasVecDerivAt.const (E.tgt j).translation t)
  exact h2.congr_deriv' (by simp)

include hF hG hlen hθ in
theorem rotDiff_deriv {j : Nat} {l : List Nat} (hc : Chain E.skeleton (some j) l) (k : Fin 9) :
    HasDerivAt (fun u => (rotDiff (E.tgt j) (stateAt (S u) j)).flat k)
      (spinFlat (stateAt (S t) j).transform.rotation.toMat (spinOf (S t) l fun r => E.transform.coeff r i) k) t := by
  rw [hF.transform]
  have h := rotation_deriv hF.skeleton hF.unit hG hlen hθ hc k
  simp only [rotDiff, flat_sub]
  exact h.sub_const _

include hF hG hlen hθ in
theorem res_deriv {j : Nat} {l : List Nat} (hc : Chain E.skeleton (some j) l) (b : Fin 12) :
    HasDerivAt (fun u => E.res (S u) j b) (E.dres (S t) l i j b) t := by
  unfold res dres
  refine stack12_deriv ?_ ?_ b
  · obtain ⟨h1, h2, h3⟩ := posDiff_deriv hF hG hlen hθ hc
    exact ⟨h1.const_mul _, h2.const_mul _, h3.const_mul _⟩
  · intro k
    exact (rotDiff_deriv hF hG hlen hθ hc k).mul_const _

include hF hG hlen hθ in
theorem jointErr_deriv {j : Nat} {l : List Nat} (hc : Chain E.skeleton (some j) l) :
    HasDerivAt (fun u => E.jointErr (S u) j) (E.jointGrad (S t) l i j) t := by
  unfold jointErr jointGrad
  have h1 := posDiff_deriv hF hG hlen hθ hc
  have h2 := rotDiff_deriv hF hG hlen hθ hc
  have h3 := (h1.dot h1).mul_const (E.pwgt j)
  have h4 := (HasDerivAt.fun_sum (u := Finset.univ) fun k _ => (h2 k).mul (h2 k)).mul_const (E.rwgt j)
  refine (h4.add h3).congr_deriv ?_
  rw [add_comm]
  congr 1
  · simp only [Vec3.dot]; ring
  · rw [Finset.mul_sum, Finset.sum_mul]
    refine Finset.sum_congr rfl fun k _ => ?_
    ring
end

/-- The same weights in the shape of `getJacobianSize`. -/
theorem acts_length {E : StateError} (hE : E.Sized) :
    ((List.zip E.targetPositionWeights E.targetRotationWeights).filter fun w => w.1 ≠ 0 ∨ w.2 ≠ 0).length =
      (E.acts (List.range E.skeleton.joints.length)).length := by
  classical
  have hz : List.zip E.targetPositionWeights E.targetRotationWeights =
      (List.range E.skeleton.joints.length).map fun j => (E.pw' j, E.rw' j) := by
    apply List.ext_getElem?
    intro j
    by_cases hj : j < E.skeleton.joints.length
    · have e3 : E.targetRotationWeights[j]? = some (E.targetRotationWeights[j]'(by rw [hE.rot]; exact hj)) :=
        List.getElem?_eq_getElem _
      have e4 : E.targetPositionWeights[j]? = some (E.targetPositionWeights[j]'(by rw [hE.pos]; exact hj)) :=
        List.getElem?_eq_getElem _
      simp [List.zip, List.getElem?_zipWith, e3, e4, hj, pw', rw', List.getD_eq_getElem?_getD]
    · rw [List.getElem?_eq_none, List.getElem?_eq_none]
      · simp; omega
      · simp [hE.pos, hE.rot]; omega
  rw [hz, List.filter_map, List.length_map]
  unfold acts
  congr 2
  funext j
  simp only [Function.comp]
  apply decide_eq_decide.2
  tauto

end StateError
end Momentum
