import Verif.Lemmas.ConstraintError
import Verif.Props.ParameterTransform
import Verif.Props.GeneralizedLoss

/-!
# Skeleton states along a motion of one model parameter, and sums over constraints
-/

namespace Momentum
open Skeleton

theorem set_derivDirty (jt : Joint ℝ) (v : JointVec) (ps : Option JointState) (cd : Bool) :
    (JointState.set jt v ps cd).derivDirty = !cd := by
  cases ps <;> rfl

/-- The transforms do not depend on whether derivatives were asked for. -/
theorem worldOf_cd {s : Skeleton ℝ} (hv : s.Valid) {θ : List ℝ} {cd cd' : Bool} {st st' : List JointState}
    (h : FKGood s θ cd st) (h' : FKGood s θ cd' st') (hl : st.length = s.joints.length)
    (hl' : st'.length = s.joints.length) : ∀ j, worldOf st (some j) = worldOf st' (some j) := by
  intro j
  induction j using Nat.strong_induction_on with
  | _ j ih =>
    by_cases hj : j < s.joints.length
    · have e : s.joints[j]? = some s.joints[j] := List.getElem?_eq_getElem _
      have e1 : st[j]? = some st[j] := List.getElem?_eq_getElem (by omega)
      have e2 : st'[j]? = some st'[j] := List.getElem?_eq_getElem (by omega)
      rw [h.worldOf_eq hv e e1, h'.worldOf_eq hv e e2, h.eq j _ _ e e1, h'.eq j _ _ e e2, localTransform_of_parts,
        localTransform_of_parts]
      congr 1
      cases hp : s.joints[j].parent with
      | none => rfl
      | some p => exact ih p (hv j _ p e hp)
    · simp only [worldOf]
      rw [List.getElem?_eq_none (by omega), List.getElem?_eq_none (by omega)]

theorem hasDerivAt_list_sum {α : Type} (l : List α) (f : α → ℝ → ℝ) (f' : α → ℝ) (t : ℝ)
    (h : ∀ x ∈ l, HasDerivAt (f x) (f' x) t) : HasDerivAt (fun u => (l.map fun x => f x u).sum) ((l.map f').sum) t := by
  induction l with
  | nil => exact hasDerivAt_const _ _
  | cons x l ih =>
    simp only [List.map_cons, List.sum_cons]
    exact (h x List.mem_cons_self).add (ih fun y hy => h y (List.mem_cons_of_mem _ hy))

/-- Joint parameters along a motion of model parameter `i`. -/
theorem apply_curve (pt : ParameterTransform ℝ) (hwf : pt.transform.WF) (hoffs : pt.offsets.length = pt.transform.rows)
    {p : List ℝ} (hp : p.length = pt.transform.cols) {i : Nat} (hi : i < pt.transform.cols) :
    ∃ θ : ℝ → List ℝ, (∀ u, pt.apply (p.set i u) = some (θ u)) ∧ (∀ u, (θ u).length = pt.transform.rows) ∧
      ∀ r t, HasDerivAt (fun u => (θ u).getD r 0) (pt.transform.coeff r i) t := by
  have hex : ∀ u, ∃ q, pt.apply (p.set i u) = some q := by
    intro u
    unfold ParameterTransform.apply
    rw [if_pos (by rw [List.length_set]; exact hp), if_pos hoffs]
    exact ⟨_, rfl⟩
  choose θ hθ using hex
  have hc := fun u => (C13_apply_affine pt hwf (p.set i u) (θ u)).1 (hθ u)
  refine ⟨θ, hθ, fun u => (hc u).2.2.1, fun r t => ?_⟩
  by_cases hr : r < pt.transform.rows
  · have hval : ∀ u, (θ u).getD r 0 = ∑ j ∈ Finset.range pt.transform.cols, pt.transform.coeff r j *
        (if j = i then u else p.getD j 0) + pt.offsets.getD r 0 := by
      intro u
      rw [List.getD_eq_getElem?_getD, (hc u).2.2.2 r hr, Option.getD_some]
      congr 1
      refine Finset.sum_congr rfl fun j _ => ?_
      congr 1
      by_cases hj : j = i
      · subst hj
        rw [if_pos rfl, List.getD_eq_getElem?_getD, List.getElem?_set_self (by omega), Option.getD_some]
      · rw [if_neg hj, List.getD_eq_getElem?_getD, List.getElem?_set_ne (fun h => hj h.symm), List.getD_eq_getElem?_getD]
    have hfun : (fun u => (θ u).getD r 0) = fun u => ∑ j ∈ Finset.range pt.transform.cols, pt.transform.coeff r j *
        (if j = i then u else p.getD j 0) + pt.offsets.getD r 0 := funext hval
    rw [hfun]
    have hs : HasDerivAt (fun u => ∑ j ∈ Finset.range pt.transform.cols, pt.transform.coeff r j *
        (if j = i then u else p.getD j 0)) (∑ j ∈ Finset.range pt.transform.cols, pt.transform.coeff r j *
        (if j = i then 1 else 0)) t := by
      apply HasDerivAt.fun_sum
      intro j _
      apply HasDerivAt.const_mul
      by_cases hj : j = i
      · simp only [if_pos hj]; exact hasDerivAt_id t
      · simp only [if_neg hj]; exact hasDerivAt_const _ _
    refine (hs.add_const (pt.offsets.getD r 0)).congr_deriv ?_
    rw [Finset.sum_eq_single i]
    · simp
    · intro j _ hj; simp [hj]
    · intro h; exact absurd (Finset.mem_range.2 hi) h
  · have h0 : pt.transform.coeff r i = 0 := by
      unfold SparseMat.coeff
      rw [List.filter_eq_nil_iff.2, List.map_nil, List.sum_nil]
      intro e he
      have := (hwf e he).1
      simp only [Bool.and_eq_true, beq_iff_eq, not_and]
      intro h; omega
    rw [h0]
    have hfun : (fun u => (θ u).getD r 0) = fun _ => 0 := by
      funext u
      rw [List.getD_eq_getElem?_getD, List.getElem?_eq_none (by rw [(hc u).2.2.1]; omega)]; rfl
    rw [hfun]
    exact hasDerivAt_const _ _

namespace ConstraintError
variable {m nv : Nat}

theorem placed_world {np : Nat} {st : List JointState} {j : Nat} (hj : j < st.length) (src : Fin nv → Vec3 ℝ) :
    placed np (stateAt st j).transform src = placed np (worldOf st (some j)) src := by
  have e : st[j]? = some st[j] := List.getElem?_eq_getElem hj
  rw [stateAt_eq e]
  simp only [worldOf, e]

/-- The vectors of a constraint move with their velocity. -/
theorem placed_curve {s : Skeleton ℝ} (hv : s.Valid) (hpre : ∀ jt ∈ s.joints, jt.preRotation.normSq = 1) {θ : ℝ → List ℝ}
    {S : ℝ → List JointState} (hG : ∀ u, FKGood s (θ u) true (S u)) (hlen : ∀ u, (S u).length = s.joints.length) {t : ℝ}
    {θ' : Nat → ℝ} (hθ : ∀ i, HasDerivAt (fun u => (θ u).getD i 0) (θ' i) t) {j : Nat} {l : List Nat}
    (hc : Chain s (some j) l) (np : Nat) (src : Fin nv → Vec3 ℝ) (k : Fin nv) :
    HasVecDerivAt (fun u => placed np (worldOf (S u) (some j)) src k)
      (velocity (S t) l (decide (k.val < np)) θ' (placed np (worldOf (S t) (some j)) src k)) t := by
  unfold placed
  by_cases hk : k.val < np
  · simp only [hk, if_true, decide_true, velocity_point]
    exact chain_vel hv hpre hG hlen hθ hc (src k)
  · simp only [hk, if_false, decide_false, velocity_axis]
    exact chain_spin hv hpre hG hlen hθ hc (src k)

/-- The part of one constraint in the error. -/
noncomputable def errorTerm (E : ConstraintError m nv) (st : List JointState) (c : Constraint m nv) : ℝ :=
  if c.weight = 0 then 0 else c.weight * E.loss.value (sqNormFn (c.eval (stateAt st c.parent)).f)

theorem getError_eq (E : ConstraintError m nv) {st : List JointState} (h : ∀ c ∈ E.constraints, c.parent < st.length) :
    E.getError st = some (E.weight * (E.constraints.map (E.errorTerm st)).sum) := by
  obtain ⟨s', e1, e2⟩ := foldlM_track (E.errorStep st) (fun (_ : Unit) x => x) (fun _ c => E.errorTerm st c) E.constraints (by
    intro c hc s
    unfold errorStep errorTerm
    by_cases h0 : c.weight = 0
    · exact ⟨s, by simp [h0], fun _ => by simp [h0]⟩
    · have e : st[c.parent]? = some (st[c.parent]'(h c hc)) := List.getElem?_eq_getElem (h c hc)
      rw [if_pos h0, e]
      exact ⟨_, rfl, fun _ => by rw [if_neg h0, stateAt_eq e]⟩) 0
  unfold getError
  rw [e1]
  show some (E.weight * s') = _
  rw [e2 (), zero_add]

/-- The derivative of one component of `f` when enabled model parameter `i` moves at unit speed. -/
noncomputable def dF (E : ConstraintError m nv) (st : List JointState) (chain : List Nat) (r : EvalResult m nv) (i : Nat)
    (b : Fin m) : ℝ :=
  ∑ k, (r.dfdv k b).dot (velocity st chain (decide (k.val < E.numPos)) (E.rates i) (r.v k))

theorem isZeroRows_false {prec : ℝ} {M : Fin m → Vec3 ℝ}
    (h : ∃ i, prec < |(M i).x| ∨ prec < |(M i).y| ∨ prec < |(M i).z|) : isZeroRows prec M = false := by
  unfold isZeroRows
  rw [decide_eq_false_iff_not]
  intro hc
  obtain ⟨i, hi⟩ := h
  obtain ⟨h1, h2, h3⟩ := hc i
  rcases hi with hi | hi | hi
  · exact absurd h1 (not_le.2 hi)
  · exact absurd h2 (not_le.2 hi)
  · exact absurd h3 (not_le.2 hi)

theorem isZeroFn_false {prec : ℝ} {f : Fin m → ℝ} (h : ∃ i, prec < |f i|) : isZeroFn prec f = false := by
  unfold isZeroFn
  rw [decide_eq_false_iff_not]
  intro hc
  obtain ⟨i, hi⟩ := h
  exact absurd (hc i) (not_le.2 hi)

theorem NotNegligible.rows {E : ConstraintError m nv} {r : EvalResult m nv} (h : E.NotNegligible r) (k : Fin nv)
    (hz : isZeroRows E.precision (r.dfdv k) = true) : ∀ i, r.dfdv k i = 0 := by
  rcases h.2 k with h0 | h1
  · exact h0
  · rw [isZeroRows_false h1] at hz; cases hz

theorem rates_active {E : ConstraintError m nv} {pt : ParameterTransform ℝ} (hE : E.Valid pt) (i r : Nat)
    (h : E.rates i r ≠ 0) : E.activeJointParams[r]? = some true := by
  unfold rates at h
  by_cases he : E.enabledParameters.mem i = true
  · rw [if_pos he, hE.transform] at h
    exact hE.active r i he h
  · rw [if_neg he] at h; exact absurd rfl h

/-- What `getGradient` computes. -/
theorem getGradient_eq (E : ConstraintError m nv) {pt : ParameterTransform ℝ} (hE : E.Valid pt) (h0 : E.loss.value 0 = 0)
    {st : List JointState} (hst : st.length = E.skeleton.joints.length) (hd : ∀ js ∈ st, js.derivDirty = false)
    (hn : ∀ c ∈ E.constraints, c.weight ≠ 0 → E.NotNegligible (c.eval (stateAt st c.parent))) (chain : Nat → List Nat)
    (hch : ∀ c ∈ E.constraints, Chain E.skeleton (some c.parent) (chain c.parent)) (gradient : Nat → ℝ) :
    ∃ g, E.getGradient st gradient = some (E.weight * (E.constraints.map (E.errorTerm st)).sum, g) ∧
      ∀ i, g i = gradient i + (E.constraints.map fun c => if c.weight = 0 then 0 else
        ∑ b, 2 * (c.weight * E.weight) * E.loss.deriv (sqNormFn (c.eval (stateAt st c.parent)).f) *
          (c.eval (stateAt st c.parent)).f b * E.dF st (chain c.parent) (c.eval (stateAt st c.parent)) i b).sum := by
  obtain ⟨s', e1, e2⟩ := foldlM_track (E.gradStep st) (fun (o : Option Nat) s => match o with | none => s.1 | some i => s.2 i)
    (fun o c => match o with
      | none => E.weight * E.errorTerm st c
      | some i => if c.weight = 0 then 0 else
          ∑ b, 2 * (c.weight * E.weight) * E.loss.deriv (sqNormFn (c.eval (stateAt st c.parent)).f) *
            (c.eval (stateAt st c.parent)).f b * E.dF st (chain c.parent) (c.eval (stateAt st c.parent)) i b)
    E.constraints (by
      intro c hc s
      unfold gradStep
      by_cases hw : c.weight = 0
      · refine ⟨s, by rw [if_pos hw], fun o => ?_⟩
        cases o <;> simp [hw, errorTerm]
      · rw [if_neg hw]
        have hpar : c.parent < st.length := by rw [hst]; exact hE.parents c hc
        have e : st[c.parent]? = some st[c.parent] := List.getElem?_eq_getElem hpar
        have es := stateAt_eq e
        have hng := hn c hc hw
        simp only [e, Option.bind_eq_bind, Option.bind_some]
        by_cases hz : isZeroFn E.precision (c.eval st[c.parent]).f = true
        · rw [if_pos hz]
          have hf : (c.eval (stateAt st c.parent)).f = 0 := by
            rcases hng.1 with h | h
            · exact h
            · rw [es] at h; rw [isZeroFn_false h] at hz; cases hz
          refine ⟨s, rfl, fun o => ?_⟩
          cases o with
          | none =>
            simp only [errorTerm, if_neg hw, hf]
            have : sqNormFn (0 : Fin m → ℝ) = 0 := by simp [sqNormFn]
            rw [this, h0]; ring
          | some i => simp [hf, if_neg hw]
        · rw [if_neg hz]
          have htr := E.gradEmit_tracks (by rw [hE.transform]; exact hE.wf) (by rw [hE.transform]; exact hE.cols)
            (fun b => 2 * (c.weight * E.weight) * E.loss.deriv (sqNormFn (c.eval st[c.parent]).f) * (c.eval st[c.parent]).f b)
            pt.transform.rows
          obtain ⟨g', w1, w2⟩ := E.walkUp_track hE.skeleton htr hE.activeLength hE.rows (rates_active hE) hst hd
            (c.eval st[c.parent]) (fun k hk => by rw [es] at hng; exact hng.rows k hk) (hch c hc) s.2
          rw [w1]
          refine ⟨_, rfl, fun o => ?_⟩
          cases o with
          | none => simp only [errorTerm, if_neg hw, es]; ring
          | some i =>
            simp only [if_neg hw, es]
            rw [w2 i]
            rfl) (0, fun _ => 0)
  refine ⟨fun i => gradient i + s'.2 i, ?_, fun i => ?_⟩
  · unfold getGradient
    rw [e1]
    show some (s'.1, _) = _
    have := e2 none
    simp only [zero_add] at this
    rw [this, list_sum_map_mul]
  · have := e2 (some i)
    simp only [zero_add] at this
    show gradient i + s'.2 i = _
    rw [this]

/-- Square root of the weight times the derivative of the loss. -/
noncomputable abbrev rootDeriv (E : ConstraintError m nv) (c : Constraint m nv) (r : EvalResult m nv) : ℝ :=
  E.rowScale c r.f

/-- What `getJacobian` computes from matrices of zeros. -/
theorem getJacobian_eq (E : ConstraintError m nv) {pt : ParameterTransform ℝ} (hE : E.Valid pt)
    {st : List JointState} (hst : st.length = E.skeleton.joints.length) (hd : ∀ js ∈ st, js.derivDirty = false)
    (hn : ∀ c ∈ E.constraints, c.weight ≠ 0 → (∀ k, isZeroRows E.precision ((c.eval (stateAt st c.parent)).dfdv k) = true →
      ∀ i, (c.eval (stateAt st c.parent)).dfdv k i = 0))
    (ht : ∀ c ∈ E.constraints, E.rootDeriv c (c.eval (stateAt st c.parent)) < E.tiny →
      E.rootDeriv c (c.eval (stateAt st c.parent)) = 0) (chain : Nat → List Nat)
    (hch : ∀ c ∈ E.constraints, Chain E.skeleton (some c.parent) (chain c.parent)) :
    ∃ J, E.getJacobian st (fun _ _ => 0) (fun _ => 0) = some J ∧ J.rows = m * E.constraints.length ∧
      J.error = E.weight * (E.constraints.map (E.errorTerm st)).sum ∧
      ∀ (n : Nat) (c : Constraint m nv), E.constraints[n]? = some c → ∀ b : Fin m,
        J.residual (m * n + b) = (if c.weight = 0 then 0 else
          E.rootDeriv c (c.eval (stateAt st c.parent)) * (c.eval (stateAt st c.parent)).f b) ∧
        ∀ i, J.e i (m * n + b) = (if c.weight = 0 then 0 else
          E.rootDeriv c (c.eval (stateAt st c.parent)) * E.dF st (chain c.parent) (c.eval (stateAt st c.parent)) i b) := by
  have gen : ∀ l : List (Constraint m nv), (∀ c ∈ l, c ∈ E.constraints) →
      ∃ J, l.zipIdx.foldlM (E.jacStep st) ⟨0, m * E.constraints.length, fun _ _ => 0, fun _ => 0⟩ = some J ∧
      J.rows = m * E.constraints.length ∧ J.error = E.weight * (l.map (E.errorTerm st)).sum ∧
      (∀ (n : Nat) (c : Constraint m nv), l[n]? = some c → ∀ b : Fin m,
        J.residual (m * n + b) = (if c.weight = 0 then 0 else
          E.rootDeriv c (c.eval (stateAt st c.parent)) * (c.eval (stateAt st c.parent)).f b) ∧
        ∀ i, J.e i (m * n + b) = (if c.weight = 0 then 0 else
          E.rootDeriv c (c.eval (stateAt st c.parent)) * E.dF st (chain c.parent) (c.eval (stateAt st c.parent)) i b)) ∧
      ∀ t, m * l.length ≤ t → J.residual t = 0 ∧ ∀ i, J.e i t = 0 := by
    intro l
    induction l using List.reverseRecOn with
    | nil => intro _; exact ⟨_, rfl, rfl, by simp, by simp, fun t _ => ⟨rfl, fun _ => rfl⟩⟩
    | append_singleton l c ih =>
      intro hl
      obtain ⟨J, j1, j2, j3, j4, j5⟩ := ih fun c hc => hl c (by simp [hc])
      have hc : c ∈ E.constraints := hl c (by simp)
      rw [List.zipIdx_append, List.foldlM_append, j1]
      simp only [List.zipIdx_singleton, Option.bind_eq_bind, Option.bind_some, List.foldlM_cons, List.foldlM_nil, zero_add,
        List.map_append, List.map_cons, List.map_nil, List.sum_append, List.sum_cons, List.sum_nil, add_zero,
        List.length_append, List.length_cons, List.length_nil]
      -- it is enough to describe the new matrices
      suffices h : ∃ J', E.jacStep st J (c, l.length) = some J' ∧ J'.rows = J.rows ∧
          J'.error = J.error + E.weight * E.errorTerm st c ∧
          (∀ t, (∀ b : Fin m, m * l.length + b.val ≠ t) → J'.residual t = J.residual t ∧ ∀ i, J'.e i t = J.e i t) ∧
          (∀ b : Fin m, J'.residual (m * l.length + b) = (if c.weight = 0 then J.residual (m * l.length + b) else
            E.rootDeriv c (c.eval (stateAt st c.parent)) * (c.eval (stateAt st c.parent)).f b) ∧
            ∀ i, J'.e i (m * l.length + b) = J.e i (m * l.length + b) + (if c.weight = 0 then 0 else
              E.rootDeriv c (c.eval (stateAt st c.parent)) *
                E.dF st (chain c.parent) (c.eval (stateAt st c.parent)) i b)) by
        obtain ⟨J', k1, k2, k3, k4, k5⟩ := h
        refine ⟨J', by rw [k1]; rfl, by rw [k2, j2], by rw [k3, j3]; ring, ?_, ?_⟩
        · intro n c' hn' b
          by_cases hlt : n < l.length
          · rw [List.getElem?_append_left hlt] at hn'
            have := k4 (m * n + b) (fun b' => by
              have h1 : m * (n + 1) ≤ m * l.length := Nat.mul_le_mul_left m hlt
              have := b.isLt
              rw [Nat.mul_add, Nat.mul_one] at h1
              omega)
            rw [this.1]
            refine ⟨(j4 n c' hn' b).1, fun i => ?_⟩
            rw [this.2, (j4 n c' hn' b).2]
          · have hnl : n = l.length := by
              have := getElem?_lt hn'
              simp at this; omega
            subst hnl
            simp at hn'
            subst hn'
            have hz := j5 (m * l.length + b) (by omega)
            obtain ⟨k6, k7⟩ := k5 b
            rw [hz.1] at k6
            refine ⟨k6, fun i => ?_⟩
            rw [k7, hz.2, zero_add]
        · intro t htt
          rw [Nat.mul_add, Nat.mul_one] at htt
          have := k4 t (fun b => by have := b.isLt; omega)
          rw [this.1]
          have hz := j5 t (by omega)
          exact ⟨hz.1, fun i => by rw [this.2, hz.2]⟩
      unfold jacStep
      by_cases hw : c.weight = 0
      · simp only [hw, if_true]
        exact ⟨J, rfl, rfl, by simp [errorTerm, hw], fun t _ => ⟨rfl, fun _ => rfl⟩, fun b => ⟨rfl, fun i => by simp⟩⟩
      · simp only [hw, if_false]
        have hpar : c.parent < st.length := by rw [hst]; exact hE.parents c hc
        have e : st[c.parent]? = some st[c.parent] := List.getElem?_eq_getElem hpar
        have es := stateAt_eq e
        have hz := hn c hc hw
        have htc := ht c hc
        simp only [e, Option.bind_eq_bind, Option.bind_some]
        rw [es] at hz htc ⊢
        have herr : E.weight * E.errorTerm st c = c.weight * E.weight * E.loss.value (sqNormFn (c.eval st[c.parent]).f) := by
          unfold errorTerm; rw [if_neg hw, es]; ring
        rw [herr]
        unfold rootDeriv rowScale at htc ⊢
        change _ < _ → Real.sqrt (c.weight * E.weight * E.loss.deriv (sqNormFn (c.eval st[c.parent]).f)) = 0 at htc
        simp only [show ∑ b, (c.eval st[c.parent]).f b * (c.eval st[c.parent]).f b = sqNormFn (c.eval st[c.parent]).f from rfl] at htc ⊢
        generalize hdd : Real.sqrt (c.weight * E.weight * E.loss.deriv (sqNormFn (c.eval st[c.parent]).f)) = d at htc ⊢
        have hd0 : 0 ≤ d := by rw [← hdd]; exact Real.sqrt_nonneg _
        have hres : ∀ b : Fin m, (if h : m * l.length ≤ m * l.length + b.val ∧ m * l.length + b.val < m * l.length + m then
            d * (c.eval st[c.parent]).f ⟨m * l.length + b.val - m * l.length, by omega⟩ else J.residual (m * l.length + b)) =
            d * (c.eval st[c.parent]).f b := by
          intro b
          have := b.isLt
          rw [dif_pos (by omega)]
          congr 2
          exact Fin.ext (by simp only []; omega)
        have hres' : ∀ t, (∀ b : Fin m, m * l.length + b.val ≠ t) → (if h : m * l.length ≤ t ∧ t < m * l.length + m then
            d * (c.eval st[c.parent]).f ⟨t - m * l.length, by omega⟩ else J.residual t) = J.residual t := by
          intro t hbt
          rw [dif_neg]
          intro h
          exact hbt ⟨t - m * l.length, by omega⟩ (by simp only []; omega)
        by_cases hti : |d - 0| < E.tiny
        · rw [if_pos hti]
          rw [sub_zero, abs_of_nonneg hd0] at hti
          have h0 := htc hti
          refine ⟨_, rfl, rfl, rfl, fun t hbt => ⟨hres' t hbt, fun _ => rfl⟩, fun b => ⟨hres b, fun i => ?_⟩⟩
          rw [h0]; ring
        · rw [if_neg hti]
          by_cases hall : ∀ k, isZeroRows E.precision ((c.eval st[c.parent]).dfdv k) = true
          · rw [if_pos hall]
            refine ⟨_, rfl, rfl, rfl, fun t hbt => ⟨hres' t hbt, fun _ => rfl⟩, fun b => ⟨hres b, fun i => ?_⟩⟩
            have : E.dF st (chain c.parent) (c.eval st[c.parent]) i b = 0 := by
              unfold dF
              refine Finset.sum_eq_zero fun k _ => ?_
              rw [hz k (hall k) b]; simp [Vec3.dot]
            rw [this]; ring
          · rw [if_neg hall]
            have htr := E.jacEmit_tracks (by rw [hE.transform]; exact hE.wf) (by rw [hE.transform]; exact hE.cols)
              d l.length pt.transform.rows
            obtain ⟨g', w1, w2⟩ := E.walkUp_track hE.skeleton htr hE.activeLength hE.rows
              (fun it => rates_active hE it.1) hst hd (c.eval st[c.parent]) hz (hch c hc) J.e
            simp only [w1, Option.bind_some]
            refine ⟨_, rfl, rfl, rfl, fun t hbt => ⟨hres' t hbt, fun i => ?_⟩, fun b => ⟨hres b, fun i => ?_⟩⟩
            · show g' i t = J.e i t
              have h1 := w2 (i, t)
              simp only at h1
              rw [h1, Finset.sum_eq_zero, add_zero]
              intro b _
              rw [if_neg (hbt b), zero_mul]
            · show g' i (m * l.length + b) = J.e i (m * l.length + b) + _
              have h1 := w2 (i, m * l.length + b)
              simp only at h1
              rw [h1, Finset.sum_eq_single b]
              · rw [if_pos rfl]; rfl
              · intro b' _ hne
                rw [if_neg (fun h => hne (Fin.ext (by omega))), zero_mul]
              · intro h; exact absurd (Finset.mem_univ _) h
  obtain ⟨J, j1, j2, j3, j4, -⟩ := gen E.constraints fun _ h => h
  exact ⟨J, j1, j2, j3, j4⟩

end ConstraintError
end Momentum
