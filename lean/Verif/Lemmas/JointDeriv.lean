import Verif.Lemmas.SkeletonState
import Verif.Spec.Calculus
import Verif.Spec.JointDerivative
import Mathlib.Analysis.SpecialFunctions.Trigonometric.Deriv
import Mathlib.Analysis.SpecialFunctions.Pow.Deriv
import Mathlib.Analysis.Calculus.Deriv.Add
import Mathlib.Analysis.Calculus.Deriv.Mul

namespace Momentum
open Skeleton

theorem toMat_angleAxis_x (a : ℝ) : (Quat.angleAxis a Vec3.unitX).toMat = rotX a := by
  have h1 : Real.cos a = 2 * Real.cos (a / 2) ^ 2 - 1 := by
    rw [← Real.cos_two_mul]; congr 1; ring
  have h2 : Real.sin a = 2 * Real.sin (a / 2) * Real.cos (a / 2) := by
    rw [← Real.sin_two_mul]; congr 1; ring
  have h3 := Real.sin_sq_add_cos_sq (a / 2)
  ext <;> simp only [Quat.angleAxis, Quat.toMat, rotX, Vec3.unitX]
  all_goals first | ring1 | (rw [h1]; linear_combination -2 * h3) | (rw [h2]; ring1)

theorem toMat_angleAxis_y (a : ℝ) : (Quat.angleAxis a Vec3.unitY).toMat = rotY a := by
  have h1 : Real.cos a = 2 * Real.cos (a / 2) ^ 2 - 1 := by
    rw [← Real.cos_two_mul]; congr 1; ring
  have h2 : Real.sin a = 2 * Real.sin (a / 2) * Real.cos (a / 2) := by
    rw [← Real.sin_two_mul]; congr 1; ring
  have h3 := Real.sin_sq_add_cos_sq (a / 2)
  ext <;> simp only [Quat.angleAxis, Quat.toMat, rotY, Vec3.unitY]
  all_goals first | ring1 | (rw [h1]; linear_combination -2 * h3) | (rw [h2]; ring1)

theorem toMat_angleAxis_z (a : ℝ) : (Quat.angleAxis a Vec3.unitZ).toMat = rotZ a := by
  have h1 : Real.cos a = 2 * Real.cos (a / 2) ^ 2 - 1 := by
    rw [← Real.cos_two_mul]; congr 1; ring
  have h2 : Real.sin a = 2 * Real.sin (a / 2) * Real.cos (a / 2) := by
    rw [← Real.sin_two_mul]; congr 1; ring
  have h3 := Real.sin_sq_add_cos_sq (a / 2)
  ext <;> simp only [Quat.angleAxis, Quat.toMat, rotZ, Vec3.unitZ]
  all_goals first | ring1 | (rw [h1]; linear_combination -2 * h3) | (rw [h2]; ring1)

namespace HasVecDerivAt
variable {f : ℝ → Vec3 ℝ} {f' : Vec3 ℝ} {t : ℝ}

theorem const (v : Vec3 ℝ) (t : ℝ) : HasVecDerivAt (fun _ => v) 0 t :=
  ⟨hasDerivAt_const _ _, hasDerivAt_const _ _, hasDerivAt_const _ _⟩

theorem const_add (v : Vec3 ℝ) (h : HasVecDerivAt f f' t) : HasVecDerivAt (fun u => v + f u) f' t :=
  ⟨h.1.const_add _, h.2.1.const_add _, h.2.2.const_add _⟩

theorem const_smul (c : ℝ) (h : HasVecDerivAt f f' t) :
    HasVecDerivAt (fun u => c • f u) (c • f') t :=
  ⟨h.1.const_mul c, h.2.1.const_mul c, h.2.2.const_mul c⟩

theorem mulVec (m : Mat3 ℝ) (h : HasVecDerivAt f f' t) :
    HasVecDerivAt (fun u => m.mulVec (f u)) (m.mulVec f') t := by
  refine ⟨?_, ?_, ?_⟩
  · exact ((h.1.const_mul m.m00).add (h.2.1.const_mul m.m01)).add (h.2.2.const_mul m.m02)
  · exact ((h.1.const_mul m.m10).add (h.2.1.const_mul m.m11)).add (h.2.2.const_mul m.m12)
  · exact ((h.1.const_mul m.m20).add (h.2.1.const_mul m.m21)).add (h.2.2.const_mul m.m22)

theorem rotate (q : Quat ℝ) (h : HasVecDerivAt f f' t) :
    HasVecDerivAt (fun u => q.rotate (f u)) (q.rotate f') t := by
  have := h.mulVec q.toMat
  simpa only [Quat.toMat_mulVec] using this

theorem transformPoint (a : Transform ℝ) (h : HasVecDerivAt f f' t) :
    HasVecDerivAt (fun u => a.transformPoint (f u)) (a.rotation.rotate (a.scale • f')) t :=
  ((h.const_smul a.scale).rotate a.rotation).const_add a.translation

theorem congr' {g : ℝ → Vec3 ℝ} (h : HasVecDerivAt f f' t) (hfg : ∀ u, g u = f u) :
    HasVecDerivAt g f' t := by
  have : g = f := funext hfg
  rw [this]; exact h

end HasVecDerivAt

theorem hasDerivAt_congr {f g : ℝ → ℝ} {f' g' t : ℝ} (h : HasDerivAt g g' t)
    (hfg : ∀ u, f u = g u) (hd : f' = g') : HasDerivAt f f' t := by
  have : f = g := funext hfg
  rw [this, hd]; exact h

theorem hasDerivAt_trig (A B C t : ℝ) :
    HasDerivAt (fun u => A * Real.cos u + B * Real.sin u + C)
      (A * -Real.sin t + B * Real.cos t) t :=
  (((Real.hasDerivAt_cos t).const_mul A).add ((Real.hasDerivAt_sin t).const_mul B)).add_const C

theorem hasDeriv_angleAxis (i : Fin 3) (v : Vec3 ℝ) (t : ℝ) :
    HasVecDerivAt (fun u => (Quat.angleAxis u (rotationAxisOf i)).rotate v)
      ((rotationAxisOf i).cross ((Quat.angleAxis t (rotationAxisOf i)).rotate v)) t := by
  fin_cases i
  · simp only [rotationAxisOf, ← Quat.toMat_mulVec, toMat_angleAxis_x]
    refine ⟨?_, ?_, ?_⟩ <;> simp only [Mat3.mulVec, rotX, Vec3.unitX, Vec3.cross]
    · exact hasDerivAt_congr (hasDerivAt_trig 0 0 v.x t) (fun u => by ring) (by ring)
    · exact hasDerivAt_congr (hasDerivAt_trig v.y (-v.z) 0 t) (fun u => by ring) (by ring)
    · exact hasDerivAt_congr (hasDerivAt_trig v.z v.y 0 t) (fun u => by ring) (by ring)
  · simp only [rotationAxisOf, ← Quat.toMat_mulVec, toMat_angleAxis_y]
    refine ⟨?_, ?_, ?_⟩ <;> simp only [Mat3.mulVec, rotY, Vec3.unitY, Vec3.cross]
    · exact hasDerivAt_congr (hasDerivAt_trig v.x v.z 0 t) (fun u => by ring) (by ring)
    · exact hasDerivAt_congr (hasDerivAt_trig 0 0 v.y t) (fun u => by ring) (by ring)
    · exact hasDerivAt_congr (hasDerivAt_trig v.z (-v.x) 0 t) (fun u => by ring) (by ring)
  · simp only [rotationAxisOf, ← Quat.toMat_mulVec, toMat_angleAxis_z]
    refine ⟨?_, ?_, ?_⟩ <;> simp only [Mat3.mulVec, rotZ, Vec3.unitZ, Vec3.cross]
    · exact hasDerivAt_congr (hasDerivAt_trig v.x (-v.y) 0 t) (fun u => by ring) (by ring)
    · exact hasDerivAt_congr (hasDerivAt_trig v.y v.x 0 t) (fun u => by ring) (by ring)
    · exact hasDerivAt_congr (hasDerivAt_trig 0 0 v.z t) (fun u => by ring) (by ring)

theorem jointSlice_set_ne (params : List ℝ) {a i : Nat} (h : i ≠ a) (k : Fin 7) (t : ℝ) :
    jointSlice (params.set (7 * a + k.val) t) i = jointSlice params i := by
  funext m
  have hk := k.isLt
  have hm := m.isLt
  simp only [jointSlice, List.getD_eq_getElem?_getD]
  rw [List.getElem?_set_ne]
  omega

theorem jointSlice_set_self (params : List ℝ) {a : Nat} (k : Fin 7) (t : ℝ)
    (h : 7 * a + k.val < params.length) :
    jointSlice (params.set (7 * a + k.val) t) a = Function.update (jointSlice params a) k t := by
  funext m
  simp only [jointSlice, List.getD_eq_getElem?_getD]
  by_cases hm : m = k
  · subst hm
    rw [List.getElem?_set_self h]; simp
  · rw [List.getElem?_set_ne]
    · simp [hm, jointSlice]
    · have : m.val ≠ k.val := fun h => hm (Fin.ext h)
      omega

/-- Joints that do not have `a` among their ancestors-or-self keep their state when parameters of
joint `a` change. -/
theorem state_eq_of_not_anc {s : Skeleton ℝ} (hv : s.Valid) {params params' : List ℝ} {cd : Bool}
    {st st' : List JointState} (h : FKGood s params cd st) (h' : FKGood s params' cd st')
    (hl : st.length = s.joints.length) (hl' : st'.length = s.joints.length) {a : Nat}
    (hs : ∀ i, i ≠ a → jointSlice params' i = jointSlice params i) :
    ∀ j, ¬ s.Anc j a → st'[j]? = st[j]? := by
  intro j
  induction j using Nat.strong_induction_on with
  | _ j ih =>
    intro hna
    by_cases hj : j < s.joints.length
    · have e : s.joints[j]? = some s.joints[j] := List.getElem?_eq_getElem _
      have e1 : st[j]? = some st[j] := List.getElem?_eq_getElem (by omega)
      have e2 : st'[j]? = some st'[j] := List.getElem?_eq_getElem (by omega)
      have hja : j ≠ a := by rintro rfl; exact hna .refl
      rw [e1, e2, h.eq j _ _ e e1, h'.eq j _ _ e e2, hs j hja]
      rcases root_or_parent j hj with hp | ⟨p, hr, hp⟩
      · rw [hp]; rfl
      · rw [hp]
        have : ¬ s.Anc p a := fun hc => hna ((anc_iff_parent hr).mpr (Or.inr hc))
        simp only [Option.bind_some]
        rw [ih p (parentRel_lt hv hr) this]
    · rw [List.getElem?_eq_none (by omega), List.getElem?_eq_none (by omega)]

/-- The transform of a descendant relative to joint `a` does not depend on the parameters of `a`. -/
theorem world_factor {s : Skeleton ℝ} (hv : s.Valid)
    (hpre : ∀ jt ∈ s.joints, jt.preRotation.normSq = 1) {params : List ℝ} {cd : Bool}
    {st : List JointState} (h : FKGood s params cd st)
    (hl : st.length = s.joints.length) {a : Nat} :
    ∀ j, j < s.joints.length → s.Anc j a →
    ∃ R : Transform ℝ, R.rotation.normSq = 1 ∧
      ∀ params' st', FKGood s params' cd st' → st'.length = s.joints.length →
        (∀ i, i ≠ a → jointSlice params' i = jointSlice params i) →
        worldOf st' (some j) = worldOf st' (some a) * R := by
  intro j
  induction j using Nat.strong_induction_on with
  | _ j ih =>
    intro hj hanc
    by_cases hja : j = a
    · subst hja
      exact ⟨Transform.one, by simp [Transform.one], fun _ _ _ _ _ => (Transform.mul_one' _).symm⟩
    · rcases root_or_parent j hj with hp | ⟨p, hr, hp⟩
      · rw [anc_iff_root hj hp] at hanc; exact absurd hanc.symm hja
      · have hpa : s.Anc p a := by
          rcases (anc_iff_parent hr).mp hanc with hc | hc
          · exact absurd hc.symm hja
          · exact hc
        have hpj := parentRel_lt hv hr
        obtain ⟨R, hR, hR2⟩ := ih p hpj (hpj.trans hj) hpa
        have e : s.joints[j]? = some s.joints[j] := List.getElem?_eq_getElem _
        have e1 : st[j]? = some st[j] := List.getElem?_eq_getElem (by omega)
        obtain ⟨l1, _⟩ := h.local_unit hpre e1
        refine ⟨R * st[j].localTransform, Transform.normSq_mul hR l1, ?_⟩
        intro params' st' h' hl' hs
        have e2 : st'[j]? = some st'[j] := List.getElem?_eq_getElem (by omega)
        have hloc : st'[j].localTransform = st[j].localTransform := by
          rw [h.eq j _ _ e e1, h'.eq j _ _ e e2, hs j hja]
          have : ∀ (ps ps' : Option JointState) (jt : Joint ℝ) (v : JointVec),
              (JointState.set jt v ps' cd).localTransform =
                (JointState.set jt v ps cd).localTransform := by
            intro ps ps' jt v
            ext1
            · rw [JointState.set_localRotation, JointState.set_localRotation]
            · cases ps <;> cases ps' <;> rfl
            · cases ps <;> cases ps' <;> rfl
          exact this _ _ _ _
        rw [h'.worldOf_eq hv e e2, hp, hR2 params' st' h' hl' hs, hloc]
        exact Transform.mul_assoc' (h'.worldOf_unit hv hpre _).1 hR _

theorem localTransform_of_parts (jt : Joint ℝ) (v : JointVec) (ps : Option JointState) (cd : Bool) :
    (JointState.set jt v ps cd).localTransform =
      ⟨jt.preRotation * Quat.angleAxis (v 5) Vec3.unitZ * Quat.angleAxis (v 4) Vec3.unitY *
        Quat.angleAxis (v 3) Vec3.unitX, jt.translationOffset + ⟨v 0, v 1, v 2⟩,
        (2 : ℝ) ^ (v 6)⟩ := by
  ext1
  · exact JointState.set_localRotation _ _ _ _
  · cases ps <;> rfl
  · cases ps <;> rfl

/-- Transform of an optional parent state. -/
noncomputable def parentT : Option JointState → Transform ℝ
  | some ps => ps.transform
  | none => Transform.one

theorem set_transform (jt : Joint ℝ) (v : JointVec) (ps : Option JointState) (cd : Bool) :
    (JointState.set jt v ps cd).transform =
      parentT ps * (JointState.set jt v ps cd).localTransform := by
  cases ps <;> rfl

theorem set_translationAxis (jt : Joint ℝ) (v : JointVec) (ps : Option JointState) (i : Fin 3) :
    (JointState.set jt v ps true).translationAxis i = (parentT ps).toLinear.col i := by
  cases ps with
  | some ps => rfl
  | none =>
    simp only [JointState.set, parentT, if_true]
    congr 1
    ext <;> simp [Mat3.one, Transform.toLinear, Transform.toRotationMatrix, Transform.one, Mat3.smul,
      Quat.toMat, Quat.one]

theorem set_rotationAxis (jt : Joint ℝ) (v : JointVec) (ps : Option JointState) :
    (JointState.set jt v ps true).rotationAxis 2 =
      ((parentT ps).rotation * jt.preRotation).rotate Vec3.unitZ ∧
    (JointState.set jt v ps true).rotationAxis 1 =
      ((parentT ps).rotation * (jt.preRotation * Quat.angleAxis (v 5) Vec3.unitZ)).rotate
        Vec3.unitY ∧
    (JointState.set jt v ps true).rotationAxis 0 =
      ((parentT ps).rotation * (jt.preRotation * Quat.angleAxis (v 5) Vec3.unitZ *
        Quat.angleAxis (v 4) Vec3.unitY)).rotate Vec3.unitX := by
  cases ps <;> exact ⟨rfl, rfl, rfl⟩

theorem rotate_deriv {P A Q B : Quat ℝ} (hP : P.normSq = 1) (hA : A.normSq = 1) (hQ : Q.normSq = 1)
    (hB : B.normSq = 1) (c : ℝ) (axis y : Vec3 ℝ) :
    P.rotate (c • A.rotate (axis.cross (Q.rotate (B.rotate y)))) =
      ((P * A).rotate axis).cross (P.rotate (c • (A * Q * B).rotate y)) := by
  rw [Quat.rotate_mul (by rw [Quat.normSq_mul, hA, hQ, one_mul]) hB, Quat.rotate_mul hA hQ,
    Quat.rotate_mul hP hA, Quat.cross_rotate hP]
  congr 1
  have : ∀ (u w : Vec3 ℝ) (c : ℝ), u.cross (c • w) = c • u.cross w := by
    intro u w c; ext <;> simp <;> ring
  rw [this, Quat.cross_rotate hA]

theorem joint_deriv {jt : Joint ℝ} (hpre : jt.preRotation.normSq = 1) (v : JointVec)
    (ps : Option JointState) (hps : (parentT ps).rotation.normSq = 1) (y : Vec3 ℝ) (k : Fin 7)
    (t : ℝ) :
    ∃ d, reportedDerivative (JointState.set jt (Function.update v k t) ps true) k
        ((JointState.set jt (Function.update v k t) ps true).transform.transformPoint y) = some d ∧
      HasVecDerivAt (fun u =>
        (JointState.set jt (Function.update v k u) ps true).transform.transformPoint y) d t := by
  have hu : ∀ u : JointVec, (JointState.set jt u ps true).localTransform.rotation.normSq = 1 :=
    fun u => JointState.set_local_unit hpre _ _ _
  have hpt : ∀ u : JointVec, (JointState.set jt u ps true).transform.transformPoint y =
      (parentT ps).transformPoint ((JointState.set jt u ps true).localTransform.transformPoint y) := by
    intro u
    rw [set_transform, Transform.transformPoint_mul hps (hu u)]
  have hdiff : ∀ u : JointVec, (JointState.set jt u ps true).transform.transformPoint y -
      (JointState.set jt u ps true).transform.translation =
      (parentT ps).rotation.rotate ((parentT ps).scale •
        (JointState.set jt u ps true).localTransform.rotation.rotate
          ((JointState.set jt u ps true).localTransform.scale • y)) := by
    intro u
    rw [hpt, set_transform]
    simp only [Transform.transformPoint, Transform.mul_translation, smul_add, Quat.rotate_add]
    abel
  have hx : ∀ a, (Quat.angleAxis a Vec3.unitX).normSq = 1 := fun a => normSq_rotationAxis a 0
  have hy : ∀ a, (Quat.angleAxis a Vec3.unitY).normSq = 1 := fun a => normSq_rotationAxis a 1
  have hz : ∀ a, (Quat.angleAxis a Vec3.unitZ).normSq = 1 := fun a => normSq_rotationAxis a 2
  have hmul : ∀ {a b : Quat ℝ}, a.normSq = 1 → b.normSq = 1 → (a * b).normSq = 1 := by
    intro a b ha hb; rw [Quat.normSq_mul, ha, hb, one_mul]
  have hclean : (JointState.set jt (Function.update v k t) ps true).derivDirty = false := by
    cases ps <;> rfl
  obtain ⟨ax2, ax1, ax0⟩ := set_rotationAxis jt (Function.update v k t) ps
  have hcol : ∀ i : Fin 3, (parentT ps).rotation.rotate ((parentT ps).scale • rotationAxisOf i) =
      (parentT ps).toLinear.col i := by
    intro i
    rw [← Transform.toLinear_mulVec]
    fin_cases i <;> ext <;>
      simp [rotationAxisOf, Mat3.mulVec, Mat3.col, Vec3.unitX, Vec3.unitY, Vec3.unitZ]
  have hlocal : ∀ u : JointVec, (JointState.set jt u ps true).localTransform.transformPoint y =
      (jt.translationOffset + ⟨u 0, u 1, u 2⟩) + (jt.preRotation * Quat.angleAxis (u 5) Vec3.unitZ *
        Quat.angleAxis (u 4) Vec3.unitY * Quat.angleAxis (u 3) Vec3.unitX).rotate
          ((2 : ℝ) ^ (u 6) • y) := by
    intro u; rw [localTransform_of_parts]; rfl
  have hk : k = 0 ∨ k = 1 ∨ k = 2 ∨ k = 3 ∨ k = 4 ∨ k = 5 ∨ k = 6 := by
    fin_cases k <;> simp
  have trans : ∀ i : Fin 3, HasVecDerivAt (fun u => (JointState.set jt (Function.update v k u) ps
      true).localTransform.transformPoint y) (rotationAxisOf i) t →
      HasVecDerivAt (fun u =>
        (JointState.set jt (Function.update v k u) ps true).transform.transformPoint y)
        ((JointState.set jt (Function.update v k t) ps true).translationAxis i) t := by
    intro i h
    rw [set_translationAxis, ← hcol]
    exact HasVecDerivAt.congr' (HasVecDerivAt.transformPoint (parentT ps) h) (fun u => hpt _)
  have rot : ∀ (i : Fin 3) (A B : Quat ℝ) (off z : Vec3 ℝ), A.normSq = 1 → B.normSq = 1 →
      (JointState.set jt (Function.update v k t) ps true).rotationAxis i =
        ((parentT ps).rotation * A).rotate (rotationAxisOf i) →
      (∀ u, (JointState.set jt (Function.update v k u) ps true).localTransform.transformPoint y =
        off + (A * Quat.angleAxis u (rotationAxisOf i) * B).rotate z) →
      (JointState.set jt (Function.update v k t) ps true).localTransform.rotation.rotate
          ((JointState.set jt (Function.update v k t) ps true).localTransform.scale • y) =
        (A * Quat.angleAxis t (rotationAxisOf i) * B).rotate z →
      HasVecDerivAt (fun u =>
        (JointState.set jt (Function.update v k u) ps true).transform.transformPoint y)
        (((JointState.set jt (Function.update v k t) ps true).rotationAxis i).cross
          ((JointState.set jt (Function.update v k t) ps true).transform.transformPoint y -
          (JointState.set jt (Function.update v k t) ps true).transform.translation)) t := by
    intro i A B off z hA hB hax hloc hz
    rw [hdiff, hax, hz, ← rotate_deriv hps hA (normSq_rotationAxis t i) hB]
    refine HasVecDerivAt.congr' (HasVecDerivAt.transformPoint (parentT ps) ?_) (fun u => hpt _)
    refine HasVecDerivAt.congr' (HasVecDerivAt.const_add off
      ((hasDeriv_angleAxis i (B.rotate z) t).rotate A)) (fun u => ?_)
    rw [hloc, Quat.rotate_mul (hmul hA (normSq_rotationAxis u i)) hB,
      Quat.rotate_mul hA (normSq_rotationAxis u i)]
  rcases hk with rfl | rfl | rfl | rfl | rfl | rfl | rfl
  · refine ⟨_, by simp only [reportedDerivative, JointState.getTranslationDerivative, hclean]; rfl,
      trans 0 ?_⟩
    simp only [hlocal]
    refine ⟨?_, ?_, ?_⟩ <;> simp [rotationAxisOf, Vec3.unitX, Function.update]
    · exact (hasDerivAt_id t).const_add _
    · exact hasDerivAt_const _ _
    · exact hasDerivAt_const _ _
  · refine ⟨_, by simp only [reportedDerivative, JointState.getTranslationDerivative, hclean]; rfl,
      trans 1 ?_⟩
    simp only [hlocal]
    refine ⟨?_, ?_, ?_⟩ <;> simp [rotationAxisOf, Vec3.unitY, Function.update]
    · exact hasDerivAt_const _ _
    · exact (hasDerivAt_id t).const_add _
    · exact hasDerivAt_const _ _
  · refine ⟨_, by simp only [reportedDerivative, JointState.getTranslationDerivative, hclean]; rfl,
      trans 2 ?_⟩
    simp only [hlocal]
    refine ⟨?_, ?_, ?_⟩ <;> simp [rotationAxisOf, Vec3.unitZ, Function.update]
    · exact hasDerivAt_const _ _
    · exact hasDerivAt_const _ _
    · exact (hasDerivAt_id t).const_add _
  · refine ⟨_, by simp only [reportedDerivative, JointState.getRotationDerivative, hclean]; rfl,
      rot 0 (jt.preRotation * Quat.angleAxis (v 5) Vec3.unitZ * Quat.angleAxis (v 4) Vec3.unitY)
        Quat.one (jt.translationOffset + ⟨v 0, v 1, v 2⟩) ((2 : ℝ) ^ (v 6) • y)
        (hmul (hmul hpre (hz _)) (hy _)) Quat.normSq_one ?_ ?_ ?_⟩
    · rw [ax0]; rfl
    · intro u; rw [hlocal, Quat.mul_one']; rfl
    · rw [localTransform_of_parts, Quat.mul_one']; simp [Function.update]; rfl
  · refine ⟨_, by simp only [reportedDerivative, JointState.getRotationDerivative, hclean]; rfl,
      rot 1 (jt.preRotation * Quat.angleAxis (v 5) Vec3.unitZ) (Quat.angleAxis (v 3) Vec3.unitX)
        (jt.translationOffset + ⟨v 0, v 1, v 2⟩) ((2 : ℝ) ^ (v 6) • y)
        (hmul hpre (hz _)) (hx _) ?_ ?_ ?_⟩
    · rw [ax1]; rfl
    · intro u; rw [hlocal]; rfl
    · rw [localTransform_of_parts]; rfl
  · refine ⟨_, by simp only [reportedDerivative, JointState.getRotationDerivative, hclean]; rfl,
      rot 2 jt.preRotation (Quat.angleAxis (v 4) Vec3.unitY * Quat.angleAxis (v 3) Vec3.unitX)
        (jt.translationOffset + ⟨v 0, v 1, v 2⟩) ((2 : ℝ) ^ (v 6) • y)
        hpre (hmul (hy _) (hx _)) ?_ ?_ ?_⟩
    · rw [ax2]; rfl
    · intro u; rw [hlocal, ← Quat.mul_assoc']; rfl
    · rw [localTransform_of_parts, ← Quat.mul_assoc']; rfl
  · refine ⟨_, by simp only [reportedDerivative]; rfl, ?_⟩
    simp only [JointState.getScaleDerivative]
    rw [hdiff]
    have hd : HasDerivAt (fun u : ℝ => (2 : ℝ) ^ u) ((2 : ℝ) ^ t * Real.log 2) t :=
      (Real.hasStrictDerivAt_const_rpow two_pos t).hasDerivAt
    have hvec : HasVecDerivAt (fun u => (2 : ℝ) ^ u • y) (Real.log 2 • ((2 : ℝ) ^ t • y)) t := by
      refine ⟨?_, ?_, ?_⟩
      · exact hasDerivAt_congr (hd.mul_const y.x) (fun u => rfl) (by simp; ring)
      · exact hasDerivAt_congr (hd.mul_const y.y) (fun u => rfl) (by simp; ring)
      · exact hasDerivAt_congr (hd.mul_const y.z) (fun u => rfl) (by simp; ring)
    have hfin := HasVecDerivAt.congr' (HasVecDerivAt.transformPoint (parentT ps)
      ((hvec.rotate (jt.preRotation * Quat.angleAxis (v 5) Vec3.unitZ *
        Quat.angleAxis (v 4) Vec3.unitY * Quat.angleAxis (v 3) Vec3.unitX)).const_add
        (jt.translationOffset + ⟨v 0, v 1, v 2⟩)))
      (g := fun u => (JointState.set jt (Function.update v 6 u) ps true).transform.transformPoint y)
      (fun u => by rw [hpt, hlocal]; rfl)
    convert hfin using 1
    rw [localTransform_of_parts]
    simp only [Function.update_self, Quat.rotate_smul, smul_smul]
    have h5 : Function.update v 6 t 5 = v 5 := by simp [Function.update]
    have h4 : Function.update v 6 t 4 = v 4 := by simp [Function.update]
    have h3 : Function.update v 6 t 3 = v 3 := by simp [Function.update]
    rw [h5, h4, h3]
    congr 1
    ring

end Momentum
