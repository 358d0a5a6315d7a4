import Verif.Model.SkeletonState
import Verif.Lemmas.Skeleton
import Verif.Lemmas.Transform

namespace Momentum
open Skeleton

/-- Joint `j`'s state is what `JointState.set` computes from its parent's state. -/
structure FKGood (s : Skeleton ℝ) (params : List ℝ) (cd : Bool) (states : List JointState) : Prop where
  le : states.length ≤ s.joints.length
  eq : ∀ j jt st, s.joints[j]? = some jt → states[j]? = some st →
    st = JointState.set jt (jointSlice params j) (jt.parent.bind (states[·]?)) cd

theorem FKGood.step {s : Skeleton ℝ} (hv : s.Valid) {params : List ℝ} {cd : Bool}
    {acc : List JointState} (h : FKGood s params cd acc) {jt : Joint ℝ}
    (hj : s.joints[acc.length]? = some jt) :
    ∃ acc', skeletonStep params cd acc jt = some acc' ∧ FKGood s params cd acc' ∧
      acc'.length = acc.length + 1 := by
  have hlt : acc.length < s.joints.length := by
    by_contra hc
    simp [List.getElem?_eq_none (not_lt.mp hc)] at hj
  have main : ∀ new, new = JointState.set jt (jointSlice params acc.length)
      (jt.parent.bind (acc[·]?)) cd → FKGood s params cd (acc ++ [new]) := by
    intro new hnew
    refine ⟨by simp; omega, ?_⟩
    intro j jt' st hjt hst
    have stable : ∀ p, p < acc.length → (acc ++ [new])[p]? = acc[p]? := fun p hp =>
      List.getElem?_append_left hp
    have hjlt : j < acc.length + 1 := by
      by_contra hc
      rw [List.getElem?_eq_none (by simp; omega)] at hst; cases hst
    have hpar : jt'.parent.bind ((acc ++ [new])[·]?) = jt'.parent.bind (acc[·]?) := by
      cases hp : jt'.parent with
      | none => rfl
      | some p =>
        have := hv j jt' p hjt hp
        simp only [Option.bind_some]
        exact stable p (by omega)
    rw [hpar]
    rcases Nat.lt_succ_iff_lt_or_eq.mp hjlt with hj' | hj'
    · rw [stable j hj'] at hst
      exact h.eq j jt' st hjt hst
    · subst hj'
      rw [hj] at hjt; cases hjt
      simp at hst
      rw [← hst, hnew]
  unfold skeletonStep
  cases hp : jt.parent with
  | none =>
    refine ⟨_, rfl, main _ ?_, by simp⟩
    rw [hp]; rfl
  | some p =>
    have hpl : p < acc.length := hv _ jt p hj hp
    simp only [List.getElem?_eq_getElem hpl, Option.map_some]
    refine ⟨_, rfl, main _ ?_, by simp⟩
    rw [hp]
    simp [hpl]

theorem skeletonState_fold {s : Skeleton ℝ} (hv : s.Valid) {params : List ℝ} {cd : Bool} :
    ∀ (rest done : List (Joint ℝ)) (acc : List JointState), s.joints = done ++ rest →
      acc.length = done.length → FKGood s params cd acc →
      ∃ r, rest.foldlM (skeletonStep params cd) acc = some r ∧ FKGood s params cd r ∧
        r.length = s.joints.length := by
  intro rest
  induction rest with
  | nil =>
    intro done acc h1 h2 h3
    exact ⟨acc, rfl, h3, by simp [h1, h2]⟩
  | cons jt rest ih =>
    intro done acc h1 h2 h3
    have hj : s.joints[acc.length]? = some jt := by simp [h1, h2]
    obtain ⟨acc', e1, e2, e3⟩ := h3.step hv hj
    obtain ⟨r, f1, f2, f3⟩ := ih (done ++ [jt]) acc' (by simp [h1]) (by simp [e3, h2]) e2
    refine ⟨r, ?_, f2, f3⟩
    rw [List.foldlM_cons, e1]
    exact f1

theorem skeletonState_good {s : Skeleton ℝ} (hv : s.Valid) {params : List ℝ} (cd : Bool)
    (hl : params.length = s.joints.length * 7) :
    ∃ r, skeletonState s params cd = some r ∧ FKGood s params cd r ∧
      r.length = s.joints.length := by
  unfold skeletonState
  rw [if_pos hl]
  refine skeletonState_fold hv s.joints [] [] rfl rfl ⟨by simp, ?_⟩
  intro j jt st _ h; simp at h

/-- The same facts about any successfully computed state. -/
theorem skeletonState_some {s : Skeleton ℝ} (hv : s.Valid) {params : List ℝ} {cd : Bool}
    {states : List JointState} (h : skeletonState s params cd = some states) :
    FKGood s params cd states ∧ states.length = s.joints.length ∧
      params.length = s.joints.length * 7 := by
  have hl : params.length = s.joints.length * 7 := by
    by_contra hc
    simp [skeletonState, hc] at h
  obtain ⟨r, h1, h2, h3⟩ := skeletonState_good hv cd hl
  rw [h] at h1; cases h1
  exact ⟨h2, h3, hl⟩

theorem Quat.normSq_angleAxis (a : ℝ) {v : Vec3 ℝ} (hv : v.x * v.x + v.y * v.y + v.z * v.z = 1) :
    (Quat.angleAxis a v).normSq = 1 := by
  simp only [Quat.normSq, Quat.angleAxis]
  have := Real.sin_sq_add_cos_sq (a / 2)
  linear_combination this + Real.sin (a / 2) ^ 2 * hv

theorem normSq_rotationAxis (a : ℝ) (i : Fin 3) :
    (Quat.angleAxis a (rotationAxisOf i)).normSq = 1 := by
  apply Quat.normSq_angleAxis
  fin_cases i <;> simp [rotationAxisOf, Vec3.unitX, Vec3.unitY, Vec3.unitZ]

theorem JointState.set_localRotation (jt : Joint ℝ) (p : JointVec) (ps : Option JointState)
    (cd : Bool) : (JointState.set jt p ps cd).localTransform.rotation =
      jt.preRotation * Quat.angleAxis (p 5) Vec3.unitZ * Quat.angleAxis (p 4) Vec3.unitY *
        Quat.angleAxis (p 3) Vec3.unitX := by
  cases ps <;> rfl

theorem JointState.set_local_unit {jt : Joint ℝ} (h : jt.preRotation.normSq = 1) (p : JointVec)
    (ps : Option JointState) (cd : Bool) :
    (JointState.set jt p ps cd).localTransform.rotation.normSq = 1 := by
  rw [JointState.set_localRotation]
  simp only [Quat.normSq_mul, h]
  have h0 := normSq_rotationAxis (p 3) 0
  have h1 := normSq_rotationAxis (p 4) 1
  have h2 := normSq_rotationAxis (p 5) 2
  simp only [rotationAxisOf] at h0 h1 h2
  rw [h0, h1, h2]; norm_num

theorem JointState.set_local_scale_pos (jt : Joint ℝ) (p : JointVec)
    (ps : Option JointState) (cd : Bool) :
    0 < (JointState.set jt p ps cd).localTransform.scale := by
  cases ps <;> exact Real.rpow_pos_of_pos two_pos _

/-- World transform of a computed state: parent's world transform times local transform. -/
theorem FKGood.world {s : Skeleton ℝ} {params : List ℝ} {cd : Bool}
    {states : List JointState} (h : FKGood s params cd states)
    {j : Nat} {jt : Joint ℝ} {st : JointState} (hj : s.joints[j]? = some jt)
    (hst : states[j]? = some st) :
    st.transform = (match jt.parent.bind (states[·]?) with
      | some ps => ps.transform
      | none => Transform.one) * st.localTransform := by
  have := h.eq j jt st hj hst
  rw [this]
  cases jt.parent.bind (states[·]?) <;> rfl

theorem FKGood.local_unit {s : Skeleton ℝ} {params : List ℝ} {cd : Bool}
    {states : List JointState} (h : FKGood s params cd states)
    (hpre : ∀ jt ∈ s.joints, jt.preRotation.normSq = 1) {j : Nat} {st : JointState}
    (hst : states[j]? = some st) :
    st.localTransform.rotation.normSq = 1 ∧ st.localTransform.scale ≠ 0 := by
  have hlt : j < states.length := by
    by_contra hc
    simp [List.getElem?_eq_none (not_lt.mp hc)] at hst
  have hj : s.joints[j]? = some (s.joints[j]'(by have := h.le; omega)) :=
    List.getElem?_eq_getElem _
  rw [h.eq j _ st hj hst]
  exact ⟨JointState.set_local_unit (hpre _ (List.getElem_mem _)) _ _ _,
    (JointState.set_local_scale_pos _ _ _ _).ne'⟩

/-- World transform of an optional joint (the world frame for `none`). -/
noncomputable def worldOf (states : List JointState) : Option Nat → Transform ℝ
  | none => Transform.one
  | some j => match states[j]? with
    | some st => st.transform
    | none => Transform.one

theorem getElem?_lt {α : Type*} {l : List α} {j : Nat} {a : α} (h : l[j]? = some a) :
    j < l.length := by
  by_contra hc
  simp [List.getElem?_eq_none (not_lt.mp hc)] at h

section
variable {s : Skeleton ℝ} {params : List ℝ} {cd : Bool} {states : List JointState}

theorem FKGood.worldOf_eq (hv : s.Valid) (h : FKGood s params cd states)
    {j : Nat} {jt : Joint ℝ} {st : JointState} (hj : s.joints[j]? = some jt)
    (hst : states[j]? = some st) :
    worldOf states (some j) = worldOf states jt.parent * st.localTransform := by
  have e := h.world hj hst
  simp only [worldOf, hst]
  rw [e]
  cases hp : jt.parent with
  | none => rfl
  | some p =>
    have hlt := hv j jt p hj hp
    have := getElem?_lt hst
    have hpl : p < states.length := by omega
    simp [hpl]

theorem FKGood.worldOf_unit (hv : s.Valid) (h : FKGood s params cd states)
    (hpre : ∀ jt ∈ s.joints, jt.preRotation.normSq = 1) (j : Option Nat) :
    (worldOf states j).rotation.normSq = 1 ∧ (worldOf states j).scale ≠ 0 := by
  cases j with
  | none => simp [worldOf, Transform.one]
  | some j =>
    induction j using Nat.strong_induction_on with
    | _ j ih =>
      cases hst : states[j]? with
      | none => simp [worldOf, hst, Transform.one]
      | some st =>
        have hlt := getElem?_lt hst
        have hj : s.joints[j]? = some (s.joints[j]'(by have := h.le; omega)) :=
          List.getElem?_eq_getElem _
        rw [h.worldOf_eq hv hj hst]
        obtain ⟨l1, l2⟩ := h.local_unit hpre hst
        cases hp : (s.joints[j]'(by have := h.le; omega)).parent with
        | none => simp [worldOf, Transform.one, Quat.normSq_mul, l1, l2]
        | some p =>
          obtain ⟨i1, i2⟩ := ih p (hv j _ p hj hp)
          exact ⟨Transform.normSq_mul i1 l1, mul_ne_zero i2 l2⟩

/-- Loop invariant of `transformAtoB`. -/
structure AtoBInv (s : Skeleton ℝ) (states : List JointState) (a b : Option Nat) (st : AtoBState) :
    Prop where
  ra : ∀ x, st.ancA = some x → x < s.joints.length
  rb : ∀ x, st.ancB = some x → x < s.joints.length
  ua : st.aTo.rotation.normSq = 1
  ub : st.bTo.rotation.normSq = 1
  sb : st.bTo.scale ≠ 0
  wa : worldOf states st.ancA * st.aTo = worldOf states a
  wb : worldOf states st.ancB * st.bTo = worldOf states b

def optMeasure : Option Nat → Nat
  | none => 0
  | some x => x + 1

theorem AtoBInv.stepA (hv : s.Valid) (h : FKGood s params cd states)
    (hlen : states.length = s.joints.length)
    (hpre : ∀ jt ∈ s.joints, jt.preRotation.normSq = 1) {a b : Option Nat} {st : AtoBState}
    (hi : AtoBInv s states a b st) {x : Nat} (hx : st.ancA = some x) :
    ∃ js p, states[x]? = some js ∧ s.parentOf x = some p ∧ optMeasure p < optMeasure (some x) ∧
      AtoBInv s states a b { st with ancA := p, aTo := js.localTransform * st.aTo } := by
  have hxl := hi.ra x hx
  have hxs : x < states.length := by omega
  have hj : s.joints[x]? = some s.joints[x] := List.getElem?_eq_getElem _
  have hst : states[x]? = some states[x] := List.getElem?_eq_getElem _
  obtain ⟨l1, l2⟩ := h.local_unit hpre hst
  refine ⟨_, _, hst, parentOf_eq x hxl, ?_, ?_⟩
  · cases hp : s.joints[x].parent with
    | none => simp [optMeasure]
    | some p => have := hv x _ p hj hp; simp [optMeasure]; omega
  · refine ⟨?_, hi.rb, ?_, hi.ub, hi.sb, ?_, hi.wb⟩
    · intro y hy; have := hv x _ y hj hy; omega
    · exact Transform.normSq_mul l1 hi.ua
    · rw [← hi.wa, hx, h.worldOf_eq hv hj hst]
      exact (Transform.mul_assoc' (h.worldOf_unit hv hpre _).1 l1 _).symm

theorem AtoBInv.stepB (hv : s.Valid) (h : FKGood s params cd states)
    (hlen : states.length = s.joints.length)
    (hpre : ∀ jt ∈ s.joints, jt.preRotation.normSq = 1) {a b : Option Nat} {st : AtoBState}
    (hi : AtoBInv s states a b st) {x : Nat} (hx : st.ancB = some x) :
    ∃ js p, states[x]? = some js ∧ s.parentOf x = some p ∧ optMeasure p < optMeasure (some x) ∧
      AtoBInv s states a b { st with ancB := p, bTo := js.localTransform * st.bTo } := by
  have hxl := hi.rb x hx
  have hxs : x < states.length := by omega
  have hj : s.joints[x]? = some s.joints[x] := List.getElem?_eq_getElem _
  have hst : states[x]? = some states[x] := List.getElem?_eq_getElem _
  obtain ⟨l1, l2⟩ := h.local_unit hpre hst
  refine ⟨_, _, hst, parentOf_eq x hxl, ?_, ?_⟩
  · cases hp : s.joints[x].parent with
    | none => simp [optMeasure]
    | some p => have := hv x _ p hj hp; simp [optMeasure]; omega
  · refine ⟨hi.ra, ?_, hi.ua, ?_, mul_ne_zero l2 hi.sb, hi.wa, ?_⟩
    · intro y hy; have := hv x _ y hj hy; omega
    · exact Transform.normSq_mul l1 hi.ub
    · rw [← hi.wb, hx, h.worldOf_eq hv hj hst]
      exact (Transform.mul_assoc' (h.worldOf_unit hv hpre _).1 l1 _).symm

theorem transformAtoBLoop_spec (hv : s.Valid) (h : FKGood s params cd states)
    (hlen : states.length = s.joints.length)
    (hpre : ∀ jt ∈ s.joints, jt.preRotation.normSq = 1) {a b : Option Nat} :
    ∀ n st, optMeasure st.ancA + optMeasure st.ancB ≤ n → AtoBInv s states a b st →
      ∃ r, transformAtoBLoop s states st = some r ∧ r.ancA = r.ancB ∧ AtoBInv s states a b r := by
  intro n
  induction n with
  | zero =>
    intro st hn hi
    obtain ⟨aa, bb, ta, tb⟩ := st
    have ha : aa = none := by cases aa <;> simp [optMeasure] at hn ⊢
    have hb : bb = none := by cases bb <;> simp [optMeasure] at hn ⊢
    subst ha; subst hb
    rw [transformAtoBLoop]
    exact ⟨_, rfl, rfl, hi⟩
  | succ n ih =>
    intro st hn hi
    have doB : ∀ x, st.ancB = some x → ∃ js p, states[x]? = some js ∧ s.parentOf x = some p ∧
        ∃ r, transformAtoBLoop s states { st with ancB := p, bTo := js.localTransform * st.bTo }
          = some r ∧ r.ancA = r.ancB ∧ AtoBInv s states a b r := by
      intro x hx
      obtain ⟨js, p, e1, e2, e3, e4⟩ := hi.stepB hv h hlen hpre hx
      rw [hx] at hn
      exact ⟨js, p, e1, e2, ih _ (by simp only; omega) e4⟩
    have doA : ∀ x, st.ancA = some x → ∃ js p, states[x]? = some js ∧ s.parentOf x = some p ∧
        ∃ r, transformAtoBLoop s states { st with ancA := p, aTo := js.localTransform * st.aTo }
          = some r ∧ r.ancA = r.ancB ∧ AtoBInv s states a b r := by
      intro x hx
      obtain ⟨js, p, e1, e2, e3, e4⟩ := hi.stepA hv h hlen hpre hx
      rw [hx] at hn
      exact ⟨js, p, e1, e2, ih _ (by simp only; omega) e4⟩
    obtain ⟨aa, bb, ta, tb⟩ := st
    rw [transformAtoBLoop]
    cases aa with
    | none =>
      cases bb with
      | none => exact ⟨_, rfl, rfl, hi⟩
      | some y =>
        obtain ⟨js, p, e1, e2, r, e3⟩ := doB y rfl
        refine ⟨r, ?_, e3.2⟩
        simpa [e1, e2] using e3.1
    | some x =>
      cases bb with
      | none =>
        obtain ⟨js, p, e1, e2, r, e3⟩ := doA x rfl
        refine ⟨r, ?_, e3.2⟩
        simpa [e1, e2] using e3.1
      | some y =>
        simp only
        split_ifs with h1 h2
        · obtain ⟨js, p, e1, e2, r, e3⟩ := doB y rfl
          refine ⟨r, ?_, e3.2⟩
          simpa [e1, e2] using e3.1
        · obtain ⟨js, p, e1, e2, r, e3⟩ := doA x rfl
          refine ⟨r, ?_, e3.2⟩
          simpa [e1, e2] using e3.1
        · have : x = y := by omega
          subst this
          exact ⟨_, rfl, rfl, hi⟩

theorem transformAtoB_spec (hv : s.Valid) (h : FKGood s params cd states)
    (hlen : states.length = s.joints.length)
    (hpre : ∀ jt ∈ s.joints, jt.preRotation.normSq = 1) {a b : Option Nat}
    (ha : ∀ x ∈ a, x < s.joints.length) (hb : ∀ x ∈ b, x < s.joints.length) :
    transformAtoB a b s states = some ((worldOf states b).inverse * worldOf states a) := by
  have h0 : AtoBInv s states a b ⟨a, b, Transform.one, Transform.one⟩ :=
    ⟨ha, hb, by simp [Transform.one], by simp [Transform.one], by simp [Transform.one],
      Transform.mul_one' _, Transform.mul_one' _⟩
  obtain ⟨r, h1, h2, h3⟩ := transformAtoBLoop_spec hv h hlen hpre _ _ le_rfl h0
  unfold transformAtoB
  rw [h1]
  simp only [Option.bind_some, h2, if_true]
  obtain ⟨w1, w2⟩ := h.worldOf_unit hv hpre r.ancB
  have hwa : worldOf states r.ancB * r.aTo = worldOf states a := by rw [← h2]; exact h3.wa
  rw [← hwa, ← h3.wb]
  have hWb := Transform.normSq_mul w1 h3.ub
  have hs : (worldOf states r.ancB * r.bTo).scale ≠ 0 := mul_ne_zero w2 h3.sb
  congr 1
  have hmid : r.aTo = (r.bTo * (worldOf states r.ancB * r.bTo).inverse) *
      (worldOf states r.ancB * r.aTo) := by
    have e1 : r.bTo * (worldOf states r.ancB * r.bTo).inverse =
        (worldOf states r.ancB).inverse := by
      have : (worldOf states r.ancB).inverse * (worldOf states r.ancB * r.bTo) *
          (worldOf states r.ancB * r.bTo).inverse = (worldOf states r.ancB).inverse := by
        rw [Transform.mul_assoc' (Transform.normSq_inverse w1) hWb, Transform.mul_inverse hWb hs,
          Transform.mul_one']
      rw [← Transform.mul_assoc' (Transform.normSq_inverse w1) w1, Transform.inverse_mul w1 w2,
        Transform.one_mul'] at this
      exact this
    rw [e1, ← Transform.mul_assoc' (Transform.normSq_inverse w1) w1, Transform.inverse_mul w1 w2,
        Transform.one_mul']
  conv_lhs => rw [hmid]
  rw [← Transform.mul_assoc' (Transform.normSq_inverse h3.ub)
      (Transform.normSq_mul h3.ub (Transform.normSq_inverse hWb)),
    ← Transform.mul_assoc' (Transform.normSq_inverse h3.ub) h3.ub,
    Transform.inverse_mul h3.ub h3.sb, Transform.one_mul']

end

end Momentum
