import Verif.Lemmas.ChainWalk
import Verif.Model.StateError

/-!
# What the state error function computes
-/

namespace Momentum
open Skeleton

theorem crossMat_col (a : Vec3 ℝ) (R : Mat3 ℝ) (k : Fin 3) :
    ((crossProductMatrix a).mul R).col k = a.cross (R.col k) := by
  fin_cases k <;> ext <;> simp [crossProductMatrix, Mat3.mul, Mat3.col] <;> ring

/-- Entry `i` of the derivative of a rotation matrix that turns with spin `a`. -/
def spinFlat (R : Mat3 ℝ) (a : Vec3 ℝ) (i : Fin 9) : ℝ := ((crossProductMatrix a).mul R).flat i

theorem spinFlat_add (R : Mat3 ℝ) (a b : Vec3 ℝ) (i : Fin 9) : spinFlat R (a + b) i = spinFlat R a i + spinFlat R b i := by
  unfold spinFlat Mat3.flat
  rw [crossMat_col, crossMat_col, crossMat_col, cross_add', toFn_add]

theorem spinFlat_smul (R : Mat3 ℝ) (r : ℝ) (a : Vec3 ℝ) (i : Fin 9) : spinFlat R (r • a) i = r * spinFlat R a i := by
  unfold spinFlat Mat3.flat
  rw [crossMat_col, crossMat_col, cross_smul', toFn_smul]

theorem spinFlat_zero (R : Mat3 ℝ) (i : Fin 9) : spinFlat R 0 i = 0 := by
  unfold spinFlat Mat3.flat
  rw [crossMat_col, zero_cross', toFn_zero]

theorem spinFlat_sum {α : Type} (R : Mat3 ℝ) (l : List α) (f : α → Vec3 ℝ) (i : Fin 9) :
    spinFlat R (l.map f).sum i = (l.map fun a => spinFlat R (f a) i).sum := by
  induction l with
  | nil => simp [spinFlat_zero]
  | cons a l ih => simp only [List.map_cons, List.sum_cons, spinFlat_add, ih]

/-- Velocity of the world point `pos` carried by the chain `l` when the joint parameters move at rates `w`. -/
noncomputable def posVel (st : List JointState) (l : List Nat) (w : Nat → ℝ) (pos : Vec3 ℝ) : Vec3 ℝ :=
  (l.map fun a => jointVel (stateAt st a) (ratesOf w a) pos).sum

/-- Angular velocity of what the chain `l` carries when the joint parameters move at rates `w`. -/
noncomputable def spinOf (st : List JointState) (l : List Nat) (w : Nat → ℝ) : Vec3 ℝ :=
  (l.map fun a => jointSpin (stateAt st a) (ratesOf w a)).sum

theorem jointVel_split (js : JointState) (w : Nat → ℝ) (a : Nat) (pos : Vec3 ℝ) :
    jointVel js (ratesOf w a) pos = w (a * 7 + 0) • js.translationAxis 0 + w (a * 7 + 1) • js.translationAxis 1 +
      w (a * 7 + 2) • js.translationAxis 2 + w (a * 7 + 3) • (js.rotationAxis 0).cross (pos - js.transform.translation) +
      w (a * 7 + 4) • (js.rotationAxis 1).cross (pos - js.transform.translation) +
      w (a * 7 + 5) • (js.rotationAxis 2).cross (pos - js.transform.translation) +
      w (a * 7 + 6) • (Real.log 2 • (pos - js.transform.translation)) := by
  simp only [jointVel, jointSpin, ratesOf, mul_comm 7 a]
  ext <;> simp <;> ring

theorem jointSpin_split (js : JointState) (w : Nat → ℝ) (a : Nat) :
    jointSpin js (ratesOf w a) = w (a * 7 + 3) • js.rotationAxis 0 + w (a * 7 + 4) • js.rotationAxis 1 +
      w (a * 7 + 5) • js.rotationAxis 2 := by
  simp only [jointSpin, ratesOf, mul_comm 7 a]
  rfl

namespace StateError

/-- The values in `gradDofs` when the derivatives are up to date. -/
noncomputable def gradDv (pos : Vec3 ℝ) (rot : Mat3 ℝ) (diff : Vec3 ℝ) (rotDiff : Mat3 ℝ) (pwgt rwgt : ℝ)
    (js : JointState) : List (Nat × ℝ) :=
  let posd := pos - js.transform.translation
  let t (d : Fin 3) : ℝ := 2 * diff.dot (js.translationAxis d) * pwgt
  let r (d : Fin 3) : ℝ := 2 * diff.dot ((js.rotationAxis d).cross posd) * pwgt +
      2 * rwgt * ∑ i, spinFlat rot (js.rotationAxis d) i * rotDiff.flat i
  [(0, t 0), (3, r 0), (1, t 1), (4, r 1), (2, t 2), (5, r 2), (6, 2 * diff.dot (Real.log 2 • posd) * pwgt)]

theorem gradDofs_eq (pos : Vec3 ℝ) (rot : Mat3 ℝ) (diff : Vec3 ℝ) (rd : Mat3 ℝ) (pwgt rwgt : ℝ) {js : JointState}
    (h : js.derivDirty = false) :
    gradDofs pos rot diff rd pwgt rwgt js = (gradDv pos rot diff rd pwgt rwgt js).map fun d => (d.1, some d.2) := by
  simp [gradDofs, gradDv, JointState.getRotationDerivative, JointState.getTranslationDerivative,
    JointState.getScaleDerivative, h, spinFlat]

theorem gradDv_sum (pos : Vec3 ℝ) (rot : Mat3 ℝ) (diff : Vec3 ℝ) (rd : Mat3 ℝ) (pwgt rwgt : ℝ) (js : JointState)
    (w : Nat → ℝ) (a : Nat) : dofSum (fun v => v) w a (gradDv pos rot diff rd pwgt rwgt js) =
      2 * pwgt * diff.dot (jointVel js (ratesOf w a) pos) +
        2 * rwgt * ∑ i, spinFlat rot (jointSpin js (ratesOf w a)) i * rd.flat i := by
  have hL : ∑ i, spinFlat rot (jointSpin js (ratesOf w a)) i * rd.flat i =
      w (a * 7 + 3) * ∑ i, spinFlat rot (js.rotationAxis 0) i * rd.flat i +
      w (a * 7 + 4) * ∑ i, spinFlat rot (js.rotationAxis 1) i * rd.flat i +
      w (a * 7 + 5) * ∑ i, spinFlat rot (js.rotationAxis 2) i * rd.flat i := by
    rw [Finset.mul_sum, Finset.mul_sum, Finset.mul_sum, ← Finset.sum_add_distrib, ← Finset.sum_add_distrib]
    refine Finset.sum_congr rfl fun i _ => ?_
    rw [jointSpin_split, spinFlat_add, spinFlat_add, spinFlat_smul, spinFlat_smul, spinFlat_smul]
    ring
  rw [hL, jointVel_split]
  simp only [dofSum, gradDv, List.map_cons, List.map_nil, List.sum_cons, List.sum_nil]
  generalize (∑ i, spinFlat rot (js.rotationAxis 0) i * rd.flat i) = L0
  generalize (∑ i, spinFlat rot (js.rotationAxis 1) i * rd.flat i) = L1
  generalize (∑ i, spinFlat rot (js.rotationAxis 2) i * rd.flat i) = L2
  generalize (js.rotationAxis 0).cross (pos - js.transform.translation) = r0
  generalize (js.rotationAxis 1).cross (pos - js.transform.translation) = r1
  generalize (js.rotationAxis 2).cross (pos - js.transform.translation) = r2
  generalize Real.log 2 • (pos - js.transform.translation) = sc
  simp [Vec3.dot]
  ring

theorem chain_grad (pos : Vec3 ℝ) (rot : Mat3 ℝ) (diff : Vec3 ℝ) (rd : Mat3 ℝ) (pwgt rwgt : ℝ) (st : List JointState)
    (w : Nat → ℝ) (l : List Nat) :
    (l.map fun a => dofSum (fun v => v) w a (gradDv pos rot diff rd pwgt rwgt (stateAt st a))).sum =
      2 * pwgt * diff.dot (posVel st l w pos) + 2 * rwgt * ∑ i, spinFlat rot (spinOf st l w) i * rd.flat i := by
  simp only [gradDv_sum, posVel, spinOf]
  induction l with
  | nil => simp [spinFlat_zero, Vec3.dot]
  | cons a l ih =>
    simp only [List.map_cons, List.sum_cons, ih, spinFlat_add, add_mul, Finset.sum_add_distrib]
    simp [Vec3.dot]; ring

/-- The rows in `jacDofs` when the derivatives are up to date. -/
noncomputable def jacDv (pos : Vec3 ℝ) (rot : Mat3 ℝ) (wgt awgt : ℝ) (js : JointState) : List (Nat × (Fin 12 → ℝ)) :=
  let posd := pos - js.transform.translation
  let t (d : Fin 3) : Fin 12 → ℝ := stack12 (wgt • js.translationAxis d) fun _ => 0
  let r (d : Fin 3) : Fin 12 → ℝ :=
    stack12 (wgt • (js.rotationAxis d).cross posd) fun i => spinFlat rot (js.rotationAxis d) i * awgt
  [(0, t 0), (3, r 0), (1, t 1), (4, r 1), (2, t 2), (5, r 2), (6, stack12 (wgt • (Real.log 2 • posd)) fun _ => 0)]

theorem jacDofs_eq (pos : Vec3 ℝ) (rot : Mat3 ℝ) (wgt awgt : ℝ) {js : JointState} (h : js.derivDirty = false) :
    jacDofs pos rot wgt awgt js = (jacDv pos rot wgt awgt js).map fun d => (d.1, some d.2) := by
  simp [jacDofs, jacDv, JointState.getRotationDerivative, JointState.getTranslationDerivative,
    JointState.getScaleDerivative, h, spinFlat]

theorem jacDv_sum (pos : Vec3 ℝ) (rot : Mat3 ℝ) (wgt awgt : ℝ) (js : JointState) (w : Nat → ℝ) (a : Nat) (b : Fin 12) :
    dofSum (fun jc => jc b) w a (jacDv pos rot wgt awgt js) =
      stack12 (wgt • jointVel js (ratesOf w a) pos) (fun i => spinFlat rot (jointSpin js (ratesOf w a)) i * awgt) b := by
  rw [jointVel_split, jointSpin_split]
  simp only [dofSum, jacDv, List.map_cons, List.map_nil, List.sum_cons, List.sum_nil, stack12]
  by_cases hb : b.val < 3
  · simp only [hb, dif_pos, toFn_smul, toFn_add]
    ring
  · simp only [hb, dif_neg, not_false_iff, spinFlat_add, spinFlat_smul]
    ring

theorem chain_jac (pos : Vec3 ℝ) (rot : Mat3 ℝ) (wgt awgt : ℝ) (st : List JointState) (w : Nat → ℝ) (l : List Nat)
    (b : Fin 12) :
    (l.map fun a => dofSum (fun jc => jc b) w a (jacDv pos rot wgt awgt (stateAt st a))).sum =
      stack12 (wgt • posVel st l w pos) (fun i => spinFlat rot (spinOf st l w) i * awgt) b := by
  simp only [jacDv_sum, posVel, spinOf, stack12]
  by_cases hb : b.val < 3
  · simp only [hb, dif_pos]
    induction l with
    | nil => simp [toFn_zero]
    | cons a l ih => simp only [List.map_cons, List.sum_cons, ih, smul_add, toFn_add]
  · simp only [hb, dif_neg, not_false_iff]
    induction l with
    | nil => simp [spinFlat_zero]
    | cons a l ih => simp only [List.map_cons, List.sum_cons, ih, spinFlat_add, add_mul]

theorem gradDv_lt {pos : Vec3 ℝ} {rot : Mat3 ℝ} {diff : Vec3 ℝ} {rd : Mat3 ℝ} {pwgt rwgt : ℝ} {js : JointState}
    {d : Nat × ℝ} (h : d ∈ gradDv pos rot diff rd pwgt rwgt js) : d.1 < 7 := by
  simp [gradDv] at h
  rcases h with h | h | h | h | h | h | h <;> subst h <;> simp

theorem jacDv_lt {pos : Vec3 ℝ} {rot : Mat3 ℝ} {wgt awgt : ℝ} {js : JointState} {d : Nat × (Fin 12 → ℝ)}
    (h : d ∈ jacDv pos rot wgt awgt js) : d.1 < 7 := by
  simp [jacDv] at h
  rcases h with h | h | h | h | h | h | h <;> subst h <;> simp

end StateError

/-! ## The derivatives of position and rotation of a joint -/

theorem toMat_col (q : Quat ℝ) (k : Fin 3) : q.toMat.col k = q.rotate (rotationAxisOf k) := by
  rw [← Quat.toMat_mulVec]
  fin_cases k <;> ext <;> simp [rotationAxisOf, Mat3.mulVec, Mat3.col, Vec3.unitX, Vec3.unitY, Vec3.unitZ]

theorem transformPoint_zero (T : Transform ℝ) : T.transformPoint 0 = T.translation := by
  simp [Transform.transformPoint, Quat.rotate_zero]

section
variable {s : Skeleton ℝ} (hv : s.Valid) (hpre : ∀ jt ∈ s.joints, jt.preRotation.normSq = 1) {θ : ℝ → List ℝ}
  {S : ℝ → List JointState} (hG : ∀ u, FKGood s (θ u) true (S u)) (hlen : ∀ u, (S u).length = s.joints.length) {t : ℝ}
  {θ' : Nat → ℝ} (hθ : ∀ i, HasDerivAt (fun u => (θ u).getD i 0) (θ' i) t)

include hv hpre hG hlen hθ in
theorem translation_deriv {j : Nat} {l : List Nat} (hc : Chain s (some j) l) :
    HasVecDerivAt (fun u => (stateAt (S u) j).transform.translation)
      (posVel (S t) l θ' (stateAt (S t) j).transform.translation) t := by
  have hj : j < s.joints.length := by cases hc with | cons h _ => exact getElem?_lt h
  have h := chain_vel hv hpre hG hlen hθ hc 0
  simp only [transformPoint_zero] at h
  have hw : ∀ u, (worldOf (S u) (some j)) = (stateAt (S u) j).transform := fun u =>
    (worldOf_stateAt (by rw [hlen]; exact hj)).symm
  simp only [hw] at h
  exact h

include hv hpre hG hlen hθ in
theorem rotation_deriv {j : Nat} {l : List Nat} (hc : Chain s (some j) l) (i : Fin 9) :
    HasDerivAt (fun u => (stateAt (S u) j).transform.rotation.toMat.flat i)
      (spinFlat (stateAt (S t) j).transform.rotation.toMat (spinOf (S t) l θ') i) t := by
  have hj : j < s.joints.length := by cases hc with | cons h _ => exact getElem?_lt h
  have hw : ∀ u, (worldOf (S u) (some j)) = (stateAt (S u) j).transform := fun u =>
    (worldOf_stateAt (by rw [hlen]; exact hj)).symm
  have h := chain_spin hv hpre hG hlen hθ hc (rotationAxisOf (i.divNat (m := 3) (n := 3)))
  simp only [hw] at h
  unfold spinFlat Mat3.flat
  simp only [crossMat_col, toMat_col]
  exact h.toFn _
end

end Momentum
