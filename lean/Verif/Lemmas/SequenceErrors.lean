import Verif.Lemmas.StateError2
import Verif.Model.SequenceErrors
import Verif.Spec.SequenceFunction
import Verif.Props.StateError

/-!
# Motions of the parameters of a frame, and closed forms of the sequence error functions
-/

namespace Momentum
open Skeleton

/-! ## Directions -/

theorem linear_rates (φ : (Nat → ℝ) → ℝ) (h0 : φ (fun _ => 0) = 0)
    (hadd : ∀ a b c, φ (fun r => a r + b r * c) = φ a + φ b * c) (A : Nat → Nat → ℝ) (w : Nat → ℝ) (n : Nat) :
    φ (fun r => ∑ i ∈ Finset.range n, A r i * w i) = ∑ i ∈ Finset.range n, φ (fun r => A r i) * w i := by
  induction n with
  | zero => simpa using h0
  | succ n ih =>
    simp only [Finset.sum_range_succ]
    rw [hadd (fun r => ∑ i ∈ Finset.range n, A r i * w i) (fun r => A r n) (w n), ih]

theorem posVel_zero (st : List JointState) (l : List Nat) (pos : Vec3 ℝ) : posVel st l (fun _ => 0) pos = 0 := by
  unfold posVel
  induction l with
  | nil => simp
  | cons a l ih =>
    simp only [List.map_cons, List.sum_cons, ih, jointVel_split]
    simp

theorem jointVel_lin (js : JointState) (a b : Nat → ℝ) (c : ℝ) (x : Nat) (pos : Vec3 ℝ) :
    jointVel js (ratesOf (fun r => a r + b r * c) x) pos = jointVel js (ratesOf a x) pos + c • jointVel js (ratesOf b x) pos := by
  simp only [jointVel_split]
  ext <;> simp <;> ring

theorem jointSpin_lin (js : JointState) (a b : Nat → ℝ) (c : ℝ) (x : Nat) :
    jointSpin js (ratesOf (fun r => a r + b r * c) x) = jointSpin js (ratesOf a x) + c • jointSpin js (ratesOf b x) := by
  simp only [jointSpin_split]
  ext <;> simp <;> ring

theorem posVel_lin (st : List JointState) (l : List Nat) (a b : Nat → ℝ) (c : ℝ) (pos : Vec3 ℝ) :
    posVel st l (fun r => a r + b r * c) pos = posVel st l a pos + c • posVel st l b pos := by
  unfold posVel
  induction l with
  | nil => simp
  | cons x l ih =>
    simp only [List.map_cons, List.sum_cons]
    rw [ih, jointVel_lin, smul_add]
    abel

theorem spinOf_zero (st : List JointState) (l : List Nat) : spinOf st l (fun _ => 0) = 0 := by
  unfold spinOf
  induction l with
  | nil => simp
  | cons a l ih =>
    simp only [List.map_cons, List.sum_cons, ih, jointSpin_split]
    simp

theorem spinOf_lin (st : List JointState) (l : List Nat) (a b : Nat → ℝ) (c : ℝ) :
    spinOf st l (fun r => a r + b r * c) = spinOf st l a + c • spinOf st l b := by
  unfold spinOf
  induction l with
  | nil => simp
  | cons x l ih =>
    simp only [List.map_cons, List.sum_cons]
    rw [ih, jointSpin_lin, smul_add]
    abel

/-- Joint parameters when the model parameters move along `w`. -/
theorem apply_line (pt : ParameterTransform ℝ) (hwf : pt.transform.WF) (hoffs : pt.offsets.length = pt.transform.rows)
    (p w : Nat → ℝ) :
    ∃ θ : ℝ → List ℝ, (∀ u : ℝ, pt.apply (paramVec pt.transform.cols fun i => p i + u * w i) = some (θ u)) ∧
      (∀ u, (θ u).length = pt.transform.rows) ∧ ∀ r t, HasDerivAt (fun u => (θ u).getD r 0)
        (∑ i ∈ Finset.range pt.transform.cols, pt.transform.coeff r i * w i) t := by
  have hex : ∀ u : ℝ, ∃ q, pt.apply (paramVec pt.transform.cols fun i => p i + u * w i) = some q := by
    intro u
    unfold ParameterTransform.apply
    rw [if_pos (StateError.paramVec_length _ _), if_pos hoffs]
    exact ⟨_, rfl⟩
  choose θ hθ using hex
  have hc := fun u => (C13_apply_affine pt hwf _ (θ u)).1 (hθ u)
  refine ⟨θ, hθ, fun u => (hc u).2.2.1, fun r t => ?_⟩
  by_cases hr : r < pt.transform.rows
  · have hval : ∀ u, (θ u).getD r 0 = ∑ j ∈ Finset.range pt.transform.cols, pt.transform.coeff r j *
        (p j + u * w j) + pt.offsets.getD r 0 := by
      intro u
      rw [List.getD_eq_getElem?_getD, (hc u).2.2.2 r hr, Option.getD_some]
      congr 1
      refine Finset.sum_congr rfl fun j hj => ?_
      congr 1
      simp [paramVec, List.getD_eq_getElem?_getD, Finset.mem_range.1 hj]
    rw [show (fun u => (θ u).getD r 0) = _ from funext hval]
    refine HasDerivAt.add_const _ ?_
    apply HasDerivAt.fun_sum
    intro j _
    apply HasDerivAt.const_mul
    have := ((hasDerivAt_id' t).mul_const (w j)).const_add (p j)
    exact this.congr_deriv (by ring)
  · have h0 : ∀ i, pt.transform.coeff r i = 0 := by
      intro i
      unfold SparseMat.coeff
      rw [List.filter_eq_nil_iff.2, List.map_nil, List.sum_nil]
      intro e he
      have := (hwf e he).1
      simp only [Bool.and_eq_true, beq_iff_eq, not_and]
      intro h; omega
    have hfun : (fun u => (θ u).getD r 0) = fun _ => 0 := by
      funext u
      rw [List.getD_eq_getElem?_getD, List.getElem?_eq_none (by rw [(hc u).2.2.1]; omega)]; rfl
    rw [hfun]
    refine (hasDerivAt_const t (0 : ℝ)).congr_deriv ?_
    rw [Finset.sum_eq_zero]
    intro i _; rw [h0, zero_mul]

/-- The states when the model parameters move along `w`. -/
theorem ErrorBase.states_line {E : ErrorBase} {pt : ParameterTransform ℝ} (hE : E.Fits pt) (p w : Nat → ℝ) :
    ∃ (θ : ℝ → List ℝ) (S : ℝ → List JointState),
      (∀ u : ℝ, E.stateFor pt (paramVec pt.transform.cols fun i => p i + u * w i) true = some (S u)) ∧
      (∀ u, FKGood E.skeleton (θ u) true (S u)) ∧ (∀ u, (S u).length = E.skeleton.joints.length) ∧
      (∀ r t, HasDerivAt (fun u => (θ u).getD r 0) (∑ i ∈ Finset.range pt.transform.cols, pt.transform.coeff r i * w i) t) := by
  obtain ⟨θ, h1, h2, h3⟩ := apply_line pt hE.wf hE.offs p w
  have hx := fun u => skeletonState_good hE.skeleton (params := θ u) true (by rw [h2 u, hE.rows])
  choose S s1 s2 s3 using hx
  refine ⟨θ, S, fun u => ?_, s2, s3, h3⟩
  unfold stateFor; rw [h1, Option.bind_some, s1]

/-! ## Segments -/

theorem onSegment_some {α : Type} {start n : Nat} {f : (Nat → α) → Option (Nat → α)} {g g' : Nat → α}
    (h : f (fun k => g (start + k)) = some g') : ∃ r, onSegment start n f g = some r ∧
      (∀ i < n, r (start + i) = g' i) ∧ ∀ k, k < start ∨ start + n ≤ k → r k = g k := by
  refine ⟨_, by unfold onSegment; rw [h], fun i hi => ?_, fun k hk => ?_⟩
  · rw [if_pos (by omega), Nat.add_sub_cancel_left]
  · rw [if_neg (by omega)]

/-- First (`false`) or second (`true`) frame. -/
def pick {α : Type} (k : Bool) (a b : α) : α := if k then b else a
/-- The sign of the part of a frame. -/
def sgn (k : Bool) : ℝ := if k then 1 else -1
/-- The index of parameter `i` of a frame. -/
def segIdx (k : Bool) (n i : Nat) : Nat := if k then n + i else i

/-! ## The state sequence error function -/

namespace StateSeqError

/-- The vectors of the error function have the sizes the setter checks. -/
structure Sized (E : StateSeqError) : Prop where
  pos : E.targetPositionWeights.length = E.skeleton.joints.length
  rot : E.targetRotationWeights.length = E.skeleton.joints.length

noncomputable def rw' (E : StateSeqError) (i : Nat) : ℝ := E.targetRotationWeights.getD i 0
noncomputable def pw' (E : StateSeqError) (i : Nat) : ℝ := E.targetPositionWeights.getD i 0
noncomputable def rwgt (E : StateSeqError) (i : Nat) : ℝ := kStateOrientationWeight * E.rotWgt * E.weight * E.rw' i
noncomputable def pwgt (E : StateSeqError) (i : Nat) : ℝ := kStatePositionWeight * E.posWgt * E.weight * E.pw' i

/-- The part of joint `i` in the error. -/
noncomputable def jointErr (E : StateSeqError) (a b : List JointState) (i : Nat) : ℝ :=
  sqNormFn (rotDiff (stateAt a i) (stateAt b i)).flat * E.rwgt i + (posDiff (stateAt a i) (stateAt b i)).sqNorm * E.pwgt i

theorem jointData_eq {E : StateSeqError} (hE : E.Sized) {a b : List JointState} (ha : a.length = E.skeleton.joints.length)
    (hb : b.length = E.skeleton.joints.length) {i : Nat} (hi : i < E.skeleton.joints.length) :
    E.jointData a b i = some (stateAt a i, stateAt b i, E.rw' i, E.pw' i) := by
  have e1 : a[i]? = some (a[i]'(by rw [ha]; exact hi)) := List.getElem?_eq_getElem _
  have e2 : b[i]? = some (b[i]'(by rw [hb]; exact hi)) := List.getElem?_eq_getElem _
  have e3 : E.targetRotationWeights[i]? = some (E.targetRotationWeights[i]'(by rw [hE.rot]; exact hi)) :=
    List.getElem?_eq_getElem _
  have e4 : E.targetPositionWeights[i]? = some (E.targetPositionWeights[i]'(by rw [hE.pos]; exact hi)) :=
    List.getElem?_eq_getElem _
  simp only [jointData, rw', pw', List.getD_eq_getElem?_getD, stateAt_eq e1, stateAt_eq e2, e1, e2, e3, e4, Option.getD_some]
  rfl

/-- The error in closed form. -/
noncomputable def total (E : StateSeqError) (a b : List JointState) : ℝ :=
  ((List.range E.skeleton.joints.length).map (E.jointErr a b)).sum

theorem getError_eq {E : StateSeqError} (hE : E.Sized) {a b : List JointState} (ha : a.length = E.skeleton.joints.length)
    (hb : b.length = E.skeleton.joints.length) : E.getError a b = some (E.total a b) := by
  unfold getError
  obtain ⟨e, h1, h2⟩ := foldlM_track (E.errorStep a b) (fun (_ : Unit) (x : ℝ) => x * E.weight)
    (fun _ i => E.jointErr a b i) (List.range E.skeleton.joints.length) (by
      intro i hi s
      refine ⟨_, by unfold errorStep; rw [jointData_eq hE ha hb (List.mem_range.1 hi)]; rfl, fun _ => ?_⟩
      simp only [jointErr, rwgt, pwgt]; ring) 0
  simp only [Option.bind_eq_bind, h1, Option.bind_some]
  rw [h2 (), zero_mul, zero_add]; rfl

/-- The derivative of the error of joint `j` when what the chain `l` carries moves at rates `v` in frame `k`. -/
noncomputable def jointGrad (E : StateSeqError) (a b : List JointState) (l : List Nat) (k : Bool) (v : Nat → ℝ) (j : Nat) : ℝ :=
  2 * (sgn k * E.pwgt j) * (posDiff (stateAt a j) (stateAt b j)).dot
      (posVel (pick k a b) l v (stateAt (pick k a b) j).transform.translation) +
    2 * (sgn k * E.rwgt j) * ∑ c, spinFlat (stateAt (pick k a b) j).transform.rotation.toMat
      (spinOf (pick k a b) l v) c * (rotDiff (stateAt a j) (stateAt b j)).flat c

theorem jointGrad_rates (E : StateSeqError) (a b : List JointState) (l : List Nat) (k : Bool) (j : Nat) (A : Nat → Nat → ℝ)
    (w : Nat → ℝ) (n : Nat) : E.jointGrad a b l k (fun r => ∑ i ∈ Finset.range n, A r i * w i) j =
      ∑ i ∈ Finset.range n, E.jointGrad a b l k (fun r => A r i) j * w i := by
  refine linear_rates (fun v => E.jointGrad a b l k v j) ?_ ?_ A w n
  · simp only [jointGrad, posVel_zero, spinOf_zero, spinFlat_zero]
    simp [Vec3.dot]
  · intro x y c
    simp only [jointGrad, posVel_lin, spinOf_lin, spinFlat_add, spinFlat_smul, add_mul, Finset.sum_add_distrib]
    rw [show (∑ q, c * spinFlat (stateAt (pick k a b) j).transform.rotation.toMat (spinOf (pick k a b) l y) q *
        (rotDiff (stateAt a j) (stateAt b j)).flat q) = c * ∑ q, spinFlat (stateAt (pick k a b) j).transform.rotation.toMat
        (spinOf (pick k a b) l y) q * (rotDiff (stateAt a j) (stateAt b j)).flat q by
      rw [Finset.mul_sum]; exact Finset.sum_congr rfl fun q _ => by ring]
    simp [Vec3.dot]; ring

section
variable {E : StateSeqError} {pt : ParameterTransform ℝ} (hF : E.Fits pt) (hE : E.Sized) {a b : List JointState}
  (ha : a.length = E.skeleton.joints.length) (hb : b.length = E.skeleton.joints.length)
  (hca : ∀ js ∈ a, js.derivDirty = false) (hcb : ∀ js ∈ b, js.derivDirty = false)
  {ch : Nat → List Nat} (hch : ∀ j < E.skeleton.joints.length, Chain E.skeleton (some j) (ch j))

include hF ha hb hca hcb hch in
theorem addGradient_eq (k : Bool) {j : Nat} (hj : j < E.skeleton.joints.length) (pwgt rwgt : ℝ) (d : Vec3 ℝ) (rd : Mat3 ℝ)
    (g : Nat → ℝ) :
    ∃ g', E.addGradient (pick k a b) j (stateAt (pick k a b) j) (sgn k) d rd pwgt rwgt g = some g' ∧
      ∀ i, E.enabledParameters.mem i = true → g' i = g i +
        (2 * (sgn k * pwgt) * d.dot (posVel (pick k a b) (ch j) (fun r => E.transform.coeff r i)
            (stateAt (pick k a b) j).transform.translation) +
          2 * (sgn k * rwgt) * ∑ c, spinFlat (stateAt (pick k a b) j).transform.rotation.toMat
            (spinOf (pick k a b) (ch j) fun r => E.transform.coeff r i) c * rd.flat c) := by
  have hl : (pick k a b).length = E.skeleton.joints.length := by cases k; exacts [ha, hb]
  have hcl : ∀ js ∈ pick k a b, js.derivDirty = false := by cases k; exacts [hca, hcb]
  obtain ⟨g', e1, e2⟩ := chainWalk_track (gradScatter_emits (ι := {i : Nat // E.enabledParameters.mem i = true})
      (by rw [hF.transform]; exact hF.wf : E.transform.WF) pt.transform.rows (fun i => i.1))
    hF.activeLength hF.rows
    (fun i r hne => hF.active r i.1 i.2 (by rw [← hF.transform]; exact hne)) hl
    (dofs := StateError.gradDofs (stateAt (pick k a b) j).transform.translation
      (stateAt (pick k a b) j).transform.rotation.toMat d rd (sgn k * pwgt) (sgn k * rwgt))
    (fun js hjs => StateError.gradDofs_eq _ _ _ _ _ _ (hcl js hjs)) (fun js _ d hd => StateError.gradDv_lt hd)
    (hch j hj).to g
  refine ⟨g', e1, fun i hi => ?_⟩
  have := e2 ⟨i, hi⟩
  rw [StateError.chain_grad] at this
  exact this

include hF hE ha hb hca hcb hch in
theorem getGradient_eq (g0 : Nat → ℝ) :
    ∃ g, E.getGradient a b g0 = some (E.total a b, g) ∧ ∀ k i, i < E.transform.cols → E.enabledParameters.mem i = true →
      g (segIdx k E.transform.cols i) = g0 (segIdx k E.transform.cols i) +
        ((List.range E.skeleton.joints.length).map fun j =>
          E.jointGrad a b (ch j) k (fun r => E.transform.coeff r i) j).sum := by
  unfold getGradient
  obtain ⟨⟨err, g⟩, h1, h2⟩ := foldlM_track (E.gradStep a b)
    (fun (i : Option (Bool × {i : Nat // i < E.transform.cols ∧ E.enabledParameters.mem i = true})) (s : ℝ × (Nat → ℝ)) =>
      match i with
      | none => s.1
      | some i => s.2 (segIdx i.1 E.transform.cols i.2.1))
    (fun i j => match i with
      | none => E.jointErr a b j
      | some i => E.jointGrad a b (ch j) i.1 (fun r => E.transform.coeff r i.2.1) j) (List.range E.skeleton.joints.length) (by
      intro j hj s
      have hj := List.mem_range.1 hj
      unfold gradStep
      rw [jointData_eq hE ha hb hj]
      simp only [Option.bind_eq_bind, Option.bind_some]
      by_cases h0 : E.rw' j = 0 ∧ E.pw' j = 0
      · rw [if_pos h0]
        refine ⟨s, rfl, fun i => ?_⟩
        cases i <;> simp [jointErr, jointGrad, rwgt, pwgt, h0.1, h0.2]
      · rw [if_neg h0]
        obtain ⟨g1, a1, a2⟩ := addGradient_eq hF ha hb hca hcb hch false hj (E.pwgt j) (E.rwgt j)
          (posDiff (stateAt a j) (stateAt b j)) (rotDiff (stateAt a j) (stateAt b j)) (fun k => s.2 (0 + k))
        obtain ⟨r1, b1, b2, b3⟩ := onSegment_some (n := E.transform.cols) (start := 0) (g := s.2) a1
        obtain ⟨g2, c1, c2⟩ := addGradient_eq hF ha hb hca hcb hch true hj (E.pwgt j) (E.rwgt j)
          (posDiff (stateAt a j) (stateAt b j)) (rotDiff (stateAt a j) (stateAt b j)) (fun k => r1 (E.transform.cols + k))
        obtain ⟨r2, d1, d2, d3⟩ := onSegment_some (n := E.transform.cols) (start := E.transform.cols) (g := r1) c1
        simp only [pick, sgn, if_true, if_false, Bool.false_eq_true, pwgt, rwgt] at b1 d1
        rw [b1, Option.bind_some, d1, Option.bind_some]
        refine ⟨_, rfl, fun i => ?_⟩
        cases i with
        | none => simp only [jointErr, rwgt, pwgt]; ring
        | some i =>
          obtain ⟨k, i, hi, hen⟩ := i
          cases k with
          | false =>
            simp only [segIdx, Bool.false_eq_true, if_false]
            have := b2 i hi
            rw [Nat.zero_add] at this
            rw [d3 i (Or.inl hi), this, a2 i hen, Nat.zero_add]; rfl
          | true =>
            simp only [segIdx, if_true]
            rw [d2 i hi, c2 i hen, b3 _ (Or.inr (by omega))]; rfl)
    (0, g0)
  refine ⟨g, ?_, fun k i hi hen => h2 (some (k, ⟨i, hi, hen⟩))⟩
  rw [h1]
  have := h2 none
  simp only at this
  rw [this, zero_add]; rfl

/-- The twelve residuals of joint `j`. -/
noncomputable def res (E : StateSeqError) (a b : List JointState) (j : Nat) (c : Fin 12) : ℝ :=
  StateError.stack12 (Real.sqrt (E.pwgt j) • posDiff (stateAt a j) (stateAt b j))
    (fun i => (rotDiff (stateAt a j) (stateAt b j)).flat i * Real.sqrt (E.rwgt j)) c

/-- Their derivative when what the chain `l` carries moves at rates `v` in frame `k`. -/
noncomputable def dres (E : StateSeqError) (a b : List JointState) (l : List Nat) (k : Bool) (v : Nat → ℝ) (j : Nat)
    (c : Fin 12) : ℝ :=
  StateError.stack12
    ((sgn k * Real.sqrt (E.pwgt j)) • posVel (pick k a b) l v (stateAt (pick k a b) j).transform.translation)
    (fun q => spinFlat (stateAt (pick k a b) j).transform.rotation.toMat (spinOf (pick k a b) l v) q *
      (sgn k * Real.sqrt (E.rwgt j))) c

theorem dres_rates (E : StateSeqError) (a b : List JointState) (l : List Nat) (k : Bool) (j : Nat) (c : Fin 12)
    (A : Nat → Nat → ℝ) (w : Nat → ℝ) (n : Nat) : E.dres a b l k (fun r => ∑ i ∈ Finset.range n, A r i * w i) j c =
      ∑ i ∈ Finset.range n, E.dres a b l k (fun r => A r i) j c * w i := by
  refine linear_rates (fun v => E.dres a b l k v j c) ?_ ?_ A w n
  · simp only [dres, posVel_zero, spinOf_zero, spinFlat_zero, StateError.stack12]
    by_cases hc : c.val < 3
    · simp only [hc, dif_pos, toFn_smul, toFn_zero, mul_zero]
    · simp only [hc, dif_neg, not_false_iff, zero_mul]
  · intro x y z
    simp only [dres, posVel_lin, spinOf_lin, spinFlat_add, spinFlat_smul, StateError.stack12]
    by_cases hc : c.val < 3
    · simp only [hc, dif_pos, toFn_smul, toFn_add]; ring
    · simp only [hc, dif_neg, not_false_iff]; ring

open Classical in
/-- The joints that take part. -/
noncomputable def acts (E : StateSeqError) (l : List Nat) : List Nat := l.filter fun j => ¬ (E.rw' j = 0 ∧ E.pw' j = 0)

include hF ha hb hca hcb hch in
theorem addJacobian_eq (k : Bool) {j : Nat} (hj : j < E.skeleton.joints.length) (wgt awgt : ℝ) (offset : Nat)
    (J : Nat → Nat → ℝ) :
    ∃ J', E.addJacobian (pick k a b) j (stateAt (pick k a b) j) (sgn k) wgt awgt offset J = some J' ∧
      ∀ i, E.enabledParameters.mem i = true → (∀ t, t < offset ∨ offset + 12 ≤ t → J' i t = J i t) ∧
        ∀ c : Fin 12, J' i (offset + c) = J i (offset + c) + StateError.stack12
          ((sgn k * wgt) • posVel (pick k a b) (ch j) (fun r => E.transform.coeff r i)
            (stateAt (pick k a b) j).transform.translation)
          (fun q => spinFlat (stateAt (pick k a b) j).transform.rotation.toMat
            (spinOf (pick k a b) (ch j) fun r => E.transform.coeff r i) q * (sgn k * awgt)) c := by
  have hl : (pick k a b).length = E.skeleton.joints.length := by cases k; exacts [ha, hb]
  have hcl : ∀ js ∈ pick k a b, js.derivDirty = false := by cases k; exacts [hca, hcb]
  obtain ⟨J', e1, e2⟩ := chainWalk_track (jacScatter_emits (m := 12) (ι := {i : Nat // E.enabledParameters.mem i = true})
      (by rw [hF.transform]; exact hF.wf : E.transform.WF) offset pt.transform.rows (fun i => i.1))
    hF.activeLength hF.rows
    (fun i r hne => hF.active r i.1.1 i.1.2 (by rw [← hF.transform]; exact hne)) hl
    (dofs := StateError.jacDofs (stateAt (pick k a b) j).transform.translation
      (stateAt (pick k a b) j).transform.rotation.toMat (sgn k * wgt) (sgn k * awgt))
    (fun js hjs => StateError.jacDofs_eq _ _ _ _ (hcl js hjs)) (fun js _ d hd => StateError.jacDv_lt hd) (hch j hj).to J
  refine ⟨J', e1, fun i hi => ⟨fun t ht => ?_, fun c => ?_⟩⟩
  · have := e2 (⟨i, hi⟩, t)
    simp only at this
    rw [this]
    have h : ¬ (offset ≤ t ∧ t < offset + 12) := by omega
    simp only [h, dif_neg, not_false_iff, dofSum, zero_mul]
    simp
  · have := e2 (⟨i, hi⟩, offset + c)
    simp only at this
    rw [this]
    have h : offset ≤ offset + c.val ∧ offset + c.val < offset + 12 := by omega
    simp only [h, and_self, dif_pos, Nat.add_sub_cancel_left, Fin.eta]
    rw [StateError.chain_jac]

include hF hE ha hb hca hcb hch in
theorem jacStep_eq {j : Nat} (hj : j < E.skeleton.joints.length) (h0 : ¬ (E.rw' j = 0 ∧ E.pw' j = 0))
    (s : JacobianResult) :
    ∃ s', E.jacStep a b s j = some s' ∧ s'.error = s.error + E.jointErr a b j ∧ s'.rows = s.rows + 12 ∧
      (∀ t, t < s.rows ∨ s.rows + 12 ≤ t → s'.residual t = s.residual t ∧
        ∀ k i, i < E.transform.cols → E.enabledParameters.mem i = true →
          s'.e (segIdx k E.transform.cols i) t = s.e (segIdx k E.transform.cols i) t) ∧
      ∀ c : Fin 12, s'.residual (s.rows + c) = E.res a b j c ∧ ∀ k i, i < E.transform.cols →
        E.enabledParameters.mem i = true → s'.e (segIdx k E.transform.cols i) (s.rows + c) =
          s.e (segIdx k E.transform.cols i) (s.rows + c) + E.dres a b (ch j) k (fun r => E.transform.coeff r i) j c := by
  unfold jacStep
  rw [jointData_eq hE ha hb hj]
  simp only [Option.bind_eq_bind, Option.bind_some]
  rw [if_neg h0]
  obtain ⟨g1, a1, a2⟩ := addJacobian_eq hF ha hb hca hcb hch false hj (Real.sqrt (E.pwgt j)) (Real.sqrt (E.rwgt j))
    s.rows (fun k => s.e (0 + k))
  obtain ⟨r1, b1, b2, b3⟩ := onSegment_some (n := E.transform.cols) (start := 0) (g := s.e) a1
  obtain ⟨g2, c1, c2⟩ := addJacobian_eq hF ha hb hca hcb hch true hj (Real.sqrt (E.pwgt j)) (Real.sqrt (E.rwgt j))
    s.rows (fun k => r1 (E.transform.cols + k))
  obtain ⟨r2, d1, d2, d3⟩ := onSegment_some (n := E.transform.cols) (start := E.transform.cols) (g := r1) c1
  simp only [pick, sgn, if_true, if_false, Bool.false_eq_true, pwgt, rwgt] at b1 d1
  rw [b1, Option.bind_some, d1, Option.bind_some]
  have hcol0 : ∀ i < E.transform.cols, r2 i = g1 i := fun i hi => by
    have := b2 i hi
    rw [Nat.zero_add] at this
    rw [d3 i (Or.inl hi), this]
  have hcol1 : ∀ i, r1 (E.transform.cols + i) = s.e (E.transform.cols + i) := fun i => b3 _ (Or.inr (by omega))
  refine ⟨_, rfl, ?_, rfl, fun t ht => ⟨?_, fun k i hi hen => ?_⟩, fun c => ⟨?_, fun k i hi hen => ?_⟩⟩
  · simp only [jointErr, pwgt, rwgt, add_assoc]
  · simp only
    rw [dif_neg (by omega)]
  · cases k with
    | false =>
      simp only [segIdx, Bool.false_eq_true, if_false]
      rw [hcol0 i hi, (a2 i hen).1 t ht, Nat.zero_add]
    | true =>
      simp only [segIdx, if_true]
      rw [d2 i hi, (c2 i hen).1 t ht, hcol1]
  · simp only
    rw [dif_pos (by omega)]
    simp only [res, pwgt, rwgt, Nat.add_sub_cancel_left]
  · cases k with
    | false =>
      simp only [segIdx, Bool.false_eq_true, if_false]
      rw [hcol0 i hi, (a2 i hen).2 c, Nat.zero_add]; rfl
    | true =>
      simp only [segIdx, if_true]
      rw [d2 i hi, (c2 i hen).2 c, hcol1]; rfl

include hF hE ha hb hca hcb hch in
theorem jac_fold (l : List Nat) (hl : ∀ j ∈ l, j < E.skeleton.joints.length) : ∀ s : JacobianResult,
    ∃ s', l.foldlM (E.jacStep a b) s = some s' ∧ s'.error = s.error + (l.map (E.jointErr a b)).sum ∧
      s'.rows = s.rows + 12 * (E.acts l).length ∧
      (∀ t, t < s.rows ∨ s'.rows ≤ t → s'.residual t = s.residual t ∧
        ∀ k i, i < E.transform.cols → E.enabledParameters.mem i = true →
          s'.e (segIdx k E.transform.cols i) t = s.e (segIdx k E.transform.cols i) t) ∧
      ∀ (m j : Nat), (E.acts l)[m]? = some j → ∀ c : Fin 12, s'.residual (s.rows + (12 * m + c)) = E.res a b j c ∧
        ∀ k i, i < E.transform.cols → E.enabledParameters.mem i = true →
          s'.e (segIdx k E.transform.cols i) (s.rows + (12 * m + c)) =
            s.e (segIdx k E.transform.cols i) (s.rows + (12 * m + c)) +
              E.dres a b (ch j) k (fun r => E.transform.coeff r i) j c := by
  induction l with
  | nil =>
    intro s
    exact ⟨s, rfl, by simp, by simp [acts], fun _ _ => ⟨rfl, fun _ _ _ _ => rfl⟩, by simp [acts]⟩
  | cons j l ih =>
    intro s
    have hj := hl j (by simp)
    have ih := ih (fun k hk => hl k (by simp [hk]))
    by_cases h0 : E.rw' j = 0 ∧ E.pw' j = 0
    · obtain ⟨s', h1, h2, h3, h4, h5⟩ := ih s
      have ha' : E.acts (j :: l) = E.acts l := by
        unfold acts; rw [List.filter_cons_of_neg]; simpa using h0
      refine ⟨s', ?_, ?_, by rw [ha']; exact h3, h4, by rw [ha']; exact h5⟩
      · rw [List.foldlM_cons]
        have : E.jacStep a b s j = some s := by
          unfold jacStep
          rw [jointData_eq hE ha hb hj]
          simp only [Option.bind_eq_bind, Option.bind_some]
          exact if_pos h0
        rw [this]; exact h1
      · rw [h2, List.map_cons, List.sum_cons]
        have : E.jointErr a b j = 0 := by simp [jointErr, rwgt, pwgt, h0.1, h0.2]
        rw [this, zero_add]
    · obtain ⟨s1, a1, a2, a3, a4, a5⟩ := jacStep_eq hF hE ha hb hca hcb hch hj h0 s
      obtain ⟨s', h1, h2, h3, h4, h5⟩ := ih s1
      have ha' : E.acts (j :: l) = j :: E.acts l := by
        unfold acts; rw [List.filter_cons_of_pos]; exact decide_eq_true h0
      refine ⟨s', ?_, ?_, ?_, fun t ht => ?_, fun m j' hm c => ?_⟩
      · rw [List.foldlM_cons, a1]; exact h1
      · rw [h2, a2, List.map_cons, List.sum_cons, add_assoc]
      · rw [h3, a3, ha', List.length_cons]; ring
      · obtain ⟨b1, b2⟩ := h4 t (by omega)
        obtain ⟨c1, c2⟩ := a4 t (by omega)
        exact ⟨b1.trans c1, fun k i hi hen => (b2 k i hi hen).trans (c2 k i hi hen)⟩
      · rw [ha'] at hm
        have hc := c.2
        cases m with
        | zero =>
          simp at hm; subst hm
          obtain ⟨b1, b2⟩ := h4 (s.rows + (12 * 0 + c)) (by omega)
          obtain ⟨c1, c2⟩ := a5 c
          rw [Nat.mul_zero, Nat.zero_add] at b1 b2 ⊢
          exact ⟨b1.trans c1, fun k i hi hen => (b2 k i hi hen).trans (c2 k i hi hen)⟩
        | succ m =>
          rw [List.getElem?_cons_succ] at hm
          obtain ⟨b1, b2⟩ := h5 m j' hm c
          have e : s1.rows + (12 * m + c.val) = s.rows + (12 * (m + 1) + c.val) := by omega
          rw [e] at b1 b2
          obtain ⟨c1, c2⟩ := a4 (s.rows + (12 * (m + 1) + c.val)) (by omega)
          exact ⟨b1, fun k i hi hen => by rw [b2 k i hi hen, c2 k i hi hen]⟩
end

/-- The squares of the residuals of a joint add up to its error. -/
theorem res_sq {E : StateSeqError} {a b : List JointState} {j : Nat} (hp : 0 ≤ E.pwgt j) (hr : 0 ≤ E.rwgt j) :
    ∑ c, E.res a b j c ^ 2 = E.jointErr a b j := by
  unfold res
  rw [StateError.stack12_sq, StateError.sqNorm_smul', Real.sq_sqrt hp]
  unfold jointErr sqNormFn
  have : ∀ x : ℝ, x * Real.sqrt (E.rwgt j) * (x * Real.sqrt (E.rwgt j)) = x * x * E.rwgt j := by
    intro x
    have := Real.mul_self_sqrt hr
    linear_combination (x * x) * this
  simp only [this, ← Finset.sum_mul]
  ring

section
variable {E : StateSeqError} (hv : E.skeleton.Valid) (hpre : ∀ jt ∈ E.skeleton.joints, jt.preRotation.normSq = 1)
  {θa θb : ℝ → List ℝ} {A B : ℝ → List JointState}
  (hGa : ∀ u, FKGood E.skeleton (θa u) true (A u)) (hGb : ∀ u, FKGood E.skeleton (θb u) true (B u))
  (hla : ∀ u, (A u).length = E.skeleton.joints.length) (hlb : ∀ u, (B u).length = E.skeleton.joints.length) {t : ℝ}
  {va vb : Nat → ℝ} (hta : ∀ r, HasDerivAt (fun u => (θa u).getD r 0) (va r) t)
  (htb : ∀ r, HasDerivAt (fun u => (θb u).getD r 0) (vb r) t)

include hv hpre hGa hGb hla hlb hta htb in
theorem posDiff_deriv {j : Nat} {l : List Nat} (hc : Chain E.skeleton (some j) l) :
    HasVecDerivAt (fun u => posDiff (stateAt (A u) j) (stateAt (B u) j))
      (posVel (B t) l vb (stateAt (B t) j).transform.translation -
        posVel (A t) l va (stateAt (A t) j).transform.translation) t :=
  (translation_deriv hv hpre hGb hlb htb hc).sub (translation_deriv hv hpre hGa hla hta hc)

include hv hpre hGa hGb hla hlb hta htb in
theorem rotDiff_deriv {j : Nat} {l : List Nat} (hc : Chain E.skeleton (some j) l) (q : Fin 9) :
    HasDerivAt (fun u => (rotDiff (stateAt (A u) j) (stateAt (B u) j)).flat q)
      (spinFlat (stateAt (B t) j).transform.rotation.toMat (spinOf (B t) l vb) q -
        spinFlat (stateAt (A t) j).transform.rotation.toMat (spinOf (A t) l va) q) t := by
  simp only [rotDiff, StateError.flat_sub]
  exact (rotation_deriv hv hpre hGb hlb htb hc q).sub (rotation_deriv hv hpre hGa hla hta hc q)

include hv hpre hGa hGb hla hlb hta htb in
theorem res_deriv {j : Nat} {l : List Nat} (hc : Chain E.skeleton (some j) l) (c : Fin 12) :
    HasDerivAt (fun u => E.res (A u) (B u) j c)
      (E.dres (A t) (B t) l false va j c + E.dres (A t) (B t) l true vb j c) t := by
  have hp := posDiff_deriv hv hpre hGa hGb hla hlb hta htb hc
  have hr := rotDiff_deriv hv hpre hGa hGb hla hlb hta htb hc
  unfold res dres
  refine (StateError.stack12_deriv (P' := Real.sqrt (E.pwgt j) • (posVel (B t) l vb (stateAt (B t) j).transform.translation -
        posVel (A t) l va (stateAt (A t) j).transform.translation)) ?_ (fun q => (hr q).mul_const _) c).congr_deriv ?_
  · obtain ⟨h1, h2, h3⟩ := hp
    exact ⟨h1.const_mul _, h2.const_mul _, h3.const_mul _⟩
  · unfold StateError.stack12
    by_cases hc : c.val < 3
    · simp only [hc, dif_pos, toFn_smul, pick, sgn, if_true, if_false, Bool.false_eq_true]
      rw [show ∀ x y : Vec3 ℝ, ∀ i, (x - y).toFn i = x.toFn i - y.toFn i from fun x y i => by fin_cases i <;> rfl]
      ring
    · simp only [hc, dif_neg, not_false_iff, pick, sgn, if_true, if_false, Bool.false_eq_true]
      ring

include hv hpre hGa hGb hla hlb hta htb in
theorem jointErr_deriv {j : Nat} {l : List Nat} (hc : Chain E.skeleton (some j) l) :
    HasDerivAt (fun u => E.jointErr (A u) (B u) j)
      (E.jointGrad (A t) (B t) l false va j + E.jointGrad (A t) (B t) l true vb j) t := by
  unfold jointErr jointGrad
  have h1 := posDiff_deriv hv hpre hGa hGb hla hlb hta htb hc
  have h2 := rotDiff_deriv hv hpre hGa hGb hla hlb hta htb hc
  have h3 := (h1.dot h1).mul_const (E.pwgt j)
  have h4 := (HasDerivAt.fun_sum (u := Finset.univ) fun k _ => (h2 k).mul (h2 k)).mul_const (E.rwgt j)
  refine (h4.add h3).congr_deriv ?_
  simp only [pick, sgn, if_true, if_false, Bool.false_eq_true]
  generalize posVel (B t) l vb (stateAt (B t) j).transform.translation = P
  generalize posVel (A t) l va (stateAt (A t) j).transform.translation = Q
  have e : (∑ q, ((spinFlat (stateAt (B t) j).transform.rotation.toMat (spinOf (B t) l vb) q -
        spinFlat (stateAt (A t) j).transform.rotation.toMat (spinOf (A t) l va) q) *
          (rotDiff (stateAt (A t) j) (stateAt (B t) j)).flat q +
        (rotDiff (stateAt (A t) j) (stateAt (B t) j)).flat q *
          (spinFlat (stateAt (B t) j).transform.rotation.toMat (spinOf (B t) l vb) q -
            spinFlat (stateAt (A t) j).transform.rotation.toMat (spinOf (A t) l va) q))) =
      2 * (∑ q, spinFlat (stateAt (B t) j).transform.rotation.toMat (spinOf (B t) l vb) q *
          (rotDiff (stateAt (A t) j) (stateAt (B t) j)).flat q) -
        2 * ∑ q, spinFlat (stateAt (A t) j).transform.rotation.toMat (spinOf (A t) l va) q *
          (rotDiff (stateAt (A t) j) (stateAt (B t) j)).flat q := by
    rw [Finset.mul_sum, Finset.mul_sum, ← Finset.sum_sub_distrib]
    exact Finset.sum_congr rfl fun q _ => by ring
  rw [e]
  simp [Vec3.dot]; ring
end

/-- The same weights in the shape of `getJacobianSize`. -/
theorem acts_length {E : StateSeqError} (hE : E.Sized) :
    E.getJacobianSize = 12 * (E.acts (List.range E.skeleton.joints.length)).length := by
  classical
  have hz : List.zip E.targetPositionWeights E.targetRotationWeights =
      (List.range E.skeleton.joints.length).map fun j => (E.pw' j, E.rw' j) := by
    apply List.ext_getElem?
    intro j
    by_cases hj : j < E.skeleton.joints.length
    · have e3 : E.targetRotationWeights[j]? = some (E.targetRotationWeights[j]'(by rw [hE.rot]; exact hj)) :=
        List.getElem?_eq_getElem _
      have e4 : E.targetPositionWeights[j]? = some (E.targetPositionWeights[j]'(by rw [hE.pos]; exact hj)) :=
        List.getElem?_eq_getElem _
      simp [List.zip, List.getElem?_zipWith, e3, e4, hj, pw', rw', List.getD_eq_getElem?_getD]
    · rw [List.getElem?_eq_none, List.getElem?_eq_none]
      · simp; omega
      · simp [hE.pos, hE.rot]; omega
  unfold getJacobianSize
  rw [hz, List.filter_map, List.length_map, mul_comm]
  unfold acts
  congr 3
  funext j
  simp only [Function.comp]
  apply decide_eq_decide.2
  tauto

end StateSeqError
end Momentum
