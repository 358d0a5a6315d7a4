import Verif.Lemmas.CollisionError
import Verif.Lemmas.StateError
import Verif.Props.Skeleton

/-!
# What the collision error function computes
-/

namespace Momentum
open Skeleton

/-! ## Walks up to the common ancestor -/

theorem chainWalkTo_eq {α σ : Type} {skel : Skeleton ℝ} {active : List Bool} {st : List JointState}
    {dofs : JointState → List (Nat × Option α)} {emit : Nat → α → σ → Option σ} {c : Nat} {o : Option Nat} {l : List Nat}
    (h : PathTo skel (some c) o l) : ∀ s, chainWalkTo skel active st dofs emit (some c) o s =
      chainWalk skel active st dofs emit (some c) o s := by
  induction h with
  | nil => intro s; rw [chainWalkTo.eq_def, chainWalk.eq_def]; simp
  | @cons j jt l hne hj _ ih =>
    intro s
    rw [chainWalkTo.eq_def, chainWalk.eq_def]
    simp only [hne, if_false, hj]
    cases st[j]? with
    | none => rfl
    | some js =>
      simp only
      cases (dofs js).foldlM (activeStep active emit (j * 7)) s with
      | none => rfl
      | some s' => exact ih s'

/-- The joints from one below an ancestor. -/
theorem path_exists {s : Skeleton ℝ} (hv : s.Valid) {c : Nat} : ∀ j, j < s.joints.length → s.Anc j c → ∃ l,
    PathTo s (some c) (some j) l ∧ ∀ lc, Chain s (some c) lc → Chain s (some j) (l ++ lc) := by
  intro j
  induction j using Nat.strong_induction_on with
  | _ j ih =>
    intro hj ha
    by_cases hjc : j = c
    · subst hjc; exact ⟨[], .nil, fun lc h => h⟩
    · rcases root_or_parent j hj with hp | ⟨p, hr, hp⟩
      · rw [anc_iff_root hj hp] at ha; exact absurd ha.symm hjc
      · have hpj := parentRel_lt hv hr
        rcases (anc_iff_parent hr).1 ha with h | h
        · exact absurd h.symm hjc
        · obtain ⟨l, l1, l2⟩ := ih p hpj (hpj.trans hj) h
          have e : s.joints[j]? = some s.joints[j] := List.getElem?_eq_getElem _
          refine ⟨j :: l, .cons (by simpa using hjc) e (by rw [hp]; exact l1), fun lc h => .cons e (by rw [hp]; exact l2 lc h)⟩

/-- The joints from `j` up to below `c`. -/
noncomputable def pathUp (s : Skeleton ℝ) (c j : Nat) : List Nat := Classical.epsilon fun l =>
  PathTo s (some c) (some j) l ∧ ∀ lc, Chain s (some c) lc → Chain s (some j) (l ++ lc)

theorem pathUp_spec {s : Skeleton ℝ} (hv : s.Valid) {c j : Nat} (hj : j < s.joints.length) (h : s.Anc j c) :
    PathTo s (some c) (some j) (pathUp s c j) ∧ ∀ lc, Chain s (some c) lc → Chain s (some j) (pathUp s c j ++ lc) :=
  Classical.epsilon_spec (path_exists hv j hj h)

/-! ## One pair -/

/-- The values in `pairDofs` when the derivatives are up to date. -/
noncomputable def pairDv (pos direction : Vec3 ℝ) (wgt : ℝ) (js : JointState) : List (Nat × ℝ) :=
  let posd := pos - js.transform.translation
  let t (d : Fin 3) : ℝ := direction.dot (js.translationAxis d) * wgt
  let r (d : Fin 3) : ℝ := direction.dot ((js.rotationAxis d).cross posd) * wgt
  [(0, t 0), (3, r 0), (1, t 1), (4, r 1), (2, t 2), (5, r 2), (6, direction.dot (Real.log 2 • posd) * wgt)]

theorem pairDofs_eq (pos direction : Vec3 ℝ) (wgt : ℝ) {js : JointState} (h : js.derivDirty = false) :
    CollisionError.pairDofs pos direction wgt js = (pairDv pos direction wgt js).map fun d => (d.1, some d.2) := by
  simp [CollisionError.pairDofs, pairDv, JointState.getRotationDerivative, JointState.getTranslationDerivative,
    JointState.getScaleDerivative, h]

theorem rowDofs_eq (pos direction : Vec3 ℝ) (wgt : ℝ) {js : JointState} (h : js.derivDirty = false) :
    CollisionError.rowDofs pos direction wgt js =
      ((pairDv pos direction wgt js).map fun d => (d.1, fun _ : Fin 1 => d.2)).map fun d => (d.1, some d.2) := by
  unfold CollisionError.rowDofs
  rw [pairDofs_eq pos direction wgt h, List.map_map, List.map_map]; rfl

theorem pairDv_lt {pos direction : Vec3 ℝ} {wgt : ℝ} {js : JointState} {d : Nat × ℝ} (h : d ∈ pairDv pos direction wgt js) :
    d.1 < 7 := by
  simp [pairDv] at h
  rcases h with h | h | h | h | h | h | h <;> subst h <;> simp

theorem pairDv_sum (pos direction : Vec3 ℝ) (wgt : ℝ) (js : JointState) (w : Nat → ℝ) (a : Nat) :
    dofSum (fun v => v) w a (pairDv pos direction wgt js) = wgt * direction.dot (jointVel js (ratesOf w a) pos) := by
  rw [jointVel_split]
  simp only [dofSum, pairDv, List.map_cons, List.map_nil, List.sum_cons, List.sum_nil]
  generalize (js.rotationAxis 0).cross (pos - js.transform.translation) = r0
  generalize (js.rotationAxis 1).cross (pos - js.transform.translation) = r1
  generalize (js.rotationAxis 2).cross (pos - js.transform.translation) = r2
  generalize Real.log 2 • (pos - js.transform.translation) = sc
  simp [Vec3.dot]
  ring

theorem pairDv_chain (pos direction : Vec3 ℝ) (wgt : ℝ) (st : List JointState) (w : Nat → ℝ) (l : List Nat) :
    (l.map fun a => dofSum (fun v => v) w a (pairDv pos direction wgt (stateAt st a))).sum =
      wgt * direction.dot (posVel st l w pos) := by
  simp only [pairDv_sum, posVel]
  induction l with
  | nil => simp [Vec3.dot]
  | cons a l ih => simp only [List.map_cons, List.sum_cons, ih]; simp [Vec3.dot]; ring

theorem posVel_append (st : List JointState) (l l' : List Nat) (w : Nat → ℝ) (pos : Vec3 ℝ) :
    posVel st (l ++ l') w pos = posVel st l w pos + posVel st l' w pos := by
  unfold posVel; rw [List.map_append, List.sum_append]

/-- A chain that carries both points and does not scale does not change their distance. -/
theorem posVel_common (st : List JointState) (w : Nat → ℝ) (p q : Vec3 ℝ) : ∀ l : List Nat, (∀ a ∈ l, w (7 * a + 6) = 0) →
    (p - q).dot (posVel st l w p - posVel st l w q) = 0 := by
  intro l
  induction l with
  | nil => intro _; simp [posVel, Vec3.dot]
  | cons a l ih =>
    intro h
    have ih := ih fun a' ha' => h a' (by simp [ha'])
    have e : posVel st (a :: l) w p - posVel st (a :: l) w q =
        (jointSpin (stateAt st a) (ratesOf w a)).cross (p - q) + (posVel st l w p - posVel st l w q) := by
      have h6 : ratesOf w a 6 = 0 := h a (by simp)
      simp only [posVel, List.map_cons, List.sum_cons, jointVel, h6]
      ext <;> simp <;> ring
    rw [e]
    have e2 : (p - q).dot ((jointSpin (stateAt st a) (ratesOf w a)).cross (p - q) + (posVel st l w p - posVel st l w q)) =
        (p - q).dot ((jointSpin (stateAt st a) (ratesOf w a)).cross (p - q)) +
          (p - q).dot (posVel st l w p - posVel st l w q) := by
      simp only [Vec3.dot, Vec3.add_x, Vec3.add_y, Vec3.add_z]; ring
    rw [e2, ih, add_zero]
    simp [Vec3.dot]; ring

namespace CollisionError

/-- The rate at which half the squared distance of the closest points changes, as the callbacks compute it. -/
noncomputable def pairRate (E : CollisionError) (st : List JointState) (w : Nat → ℝ) (h : Nat × Nat × OverlapInfo) : ℝ :=
  match E.pairData h.1 h.2.1 h.2.2 with
  | some (jA, jB, some c, pI, pJ) =>
    (pI - pJ).dot (posVel st (pathUp E.skeleton c jA) w pI - posVel st (pathUp E.skeleton c jB) w pJ)
  | _ => 0

/-- What a pair adds to the gradient. -/
noncomputable def pairGrad (E : CollisionError) (st : List JointState) (w : Nat → ℝ) (h : Nat × Nat × OverlapInfo) : ℝ :=
  -2 * kCollisionWeight * E.weight * (h.2.2.overlap / h.2.2.distance) * E.pairRate st w h

/-- What a pair writes into its row. -/
noncomputable def pairRow (E : CollisionError) (st : List JointState) (w : Nat → ℝ) (h : Nat × Nat × OverlapInfo) : ℝ :=
  -(2 * (1 / h.2.2.distance) * Real.sqrt (kCollisionWeight * E.weight)) * E.pairRate st w h

/-- What the callbacks need of a pair. -/
def Linked (E : CollisionError) (h : Nat × Nat × OverlapInfo) : Prop :=
  ∃ jA jB c pI pJ, E.pairData h.1 h.2.1 h.2.2 = some (jA, jB, some c, pI, pJ) ∧ jA < E.skeleton.joints.length ∧
    jB < E.skeleton.joints.length ∧ E.skeleton.Anc jA c ∧ E.skeleton.Anc jB c

section
variable {E : CollisionError} {pt : ParameterTransform ℝ} (hF : E.Fits pt) {st : List JointState}
  (hst : st.length = E.skeleton.joints.length) (hcl : ∀ js ∈ st, js.derivDirty = false)

include hF hst hcl in
theorem gradPair_track {h : Nat × Nat × OverlapInfo} (hl : E.Linked h) (s : ℝ × (Nat → ℝ)) :
    ∃ s', E.gradPair st s h.1 h.2.1 h.2.2 = some s' ∧ s'.1 = s.1 + E.pairError h.2.2 ∧
      ∀ i, E.enabledParameters.mem i = true → s'.2 i = s.2 i + E.pairGrad st (fun r => pt.transform.coeff r i) h := by
  obtain ⟨jA, jB, c, pI, pJ, hd, hA, hB, aA, aB⟩ := hl
  obtain ⟨pA, -⟩ := pathUp_spec hF.skeleton hA aA
  obtain ⟨pB, -⟩ := pathUp_spec hF.skeleton hB aB
  have hem := gradScatter_emits (A := E.transform) (by rw [hF.transform]; exact hF.wf) pt.transform.rows
    (fun i : {i // E.enabledParameters.mem i = true} => i.1)
  have hact : ∀ (i : {i // E.enabledParameters.mem i = true}) r, E.transform.coeff r i.1 ≠ 0 →
      E.activeJointParams[r]? = some true := fun i r h => hF.active r i.1 i.2 (by rw [← hF.transform]; exact h)
  obtain ⟨g1, e1, f1⟩ := chainWalk_track hem hF.activeLength hF.rows hact hst
    (dofs := pairDofs pI (pI - pJ) (-2 * kCollisionWeight * E.weight * (h.2.2.overlap / h.2.2.distance)))
    (dv := pairDv pI (pI - pJ) (-2 * kCollisionWeight * E.weight * (h.2.2.overlap / h.2.2.distance)))
    (fun js hj => pairDofs_eq _ _ _ (hcl js hj)) (fun js _ d hd => pairDv_lt hd) pA s.2
  obtain ⟨g2, e2, f2⟩ := chainWalk_track hem hF.activeLength hF.rows hact hst
    (dofs := pairDofs pJ (pI - pJ) (-(-2 * kCollisionWeight * E.weight * (h.2.2.overlap / h.2.2.distance))))
    (dv := pairDv pJ (pI - pJ) (-(-2 * kCollisionWeight * E.weight * (h.2.2.overlap / h.2.2.distance))))
    (fun js hj => pairDofs_eq _ _ _ (hcl js hj)) (fun js _ d hd => pairDv_lt hd) pB g1
  refine ⟨(s.1 + E.pairError h.2.2, g2), ?_, rfl, ?_⟩
  · unfold gradPair
    rw [hd]
    simp only [Option.bind_eq_bind, Option.bind_some]
    rw [chainWalkTo_eq pA, e1, Option.bind_some, chainWalkTo_eq pB, e2, Option.bind_some]
  · intro i hi
    have k1 := f1 ⟨i, hi⟩
    have k2 := f2 ⟨i, hi⟩
    simp only [pairDv_chain] at k1 k2
    simp only
    rw [k2, k1]
    unfold pairGrad pairRate
    rw [hd, hF.transform]
    simp only [Vec3.dot, Vec3.sub_x, Vec3.sub_y, Vec3.sub_z]
    ring

include hF hst hcl in
theorem jacPair_track {n : Nat} {h : Nat × Nat × OverlapInfo} (hl : E.Linked h) (s : JacobianResult) (hn : s.rows < n) :
    ∃ s', E.jacPair st n s h.1 h.2.1 h.2.2 = some s' ∧ s'.error = s.error + E.pairError h.2.2 ∧ s'.rows = s.rows + 1 ∧
      s'.residual = Function.update s.residual s.rows (h.2.2.overlap * Real.sqrt (kCollisionWeight * E.weight)) ∧
      ∀ i, E.enabledParameters.mem i = true → ∀ t, s'.e i t = s.e i t +
        if t = s.rows then E.pairRow st (fun r => pt.transform.coeff r i) h else 0 := by
  obtain ⟨jA, jB, c, pI, pJ, hd, hA, hB, aA, aB⟩ := hl
  obtain ⟨pA, -⟩ := pathUp_spec hF.skeleton hA aA
  obtain ⟨pB, -⟩ := pathUp_spec hF.skeleton hB aB
  have hem := jacScatter_emits (m := 1) (A := E.transform) (by rw [hF.transform]; exact hF.wf) s.rows pt.transform.rows
    (fun i : {i // E.enabledParameters.mem i = true} => i.1)
  have hact : ∀ (i : {i // E.enabledParameters.mem i = true} × Nat) r, E.transform.coeff r i.1.1 ≠ 0 →
      E.activeJointParams[r]? = some true := fun i r h => hF.active r i.1.1 i.1.2 (by rw [← hF.transform]; exact h)
  set fac := 2 * (1 / h.2.2.distance) * Real.sqrt (kCollisionWeight * E.weight) with hfac
  obtain ⟨g1, e1, f1⟩ := chainWalk_track hem hF.activeLength hF.rows hact hst
    (dofs := rowDofs pI (pI - pJ) (-fac))
    (dv := fun js => (pairDv pI (pI - pJ) (-fac) js).map fun d => (d.1, fun _ : Fin 1 => d.2))
    (fun js hj => rowDofs_eq _ _ _ (hcl js hj)) (fun js _ d hd => by
      obtain ⟨d', h1, rfl⟩ := List.mem_map.1 hd; exact pairDv_lt h1) pA s.e
  obtain ⟨g2, e2, f2⟩ := chainWalk_track hem hF.activeLength hF.rows hact hst
    (dofs := rowDofs pJ (pI - pJ) fac)
    (dv := fun js => (pairDv pJ (pI - pJ) fac js).map fun d => (d.1, fun _ : Fin 1 => d.2))
    (fun js hj => rowDofs_eq _ _ _ (hcl js hj)) (fun js _ d hd => by
      obtain ⟨d', h1, rfl⟩ := List.mem_map.1 hd; exact pairDv_lt h1) pB g1
  have hrow : ∀ (i t : Nat) (pos : Vec3 ℝ) (f : ℝ) (l : List Nat),
      (l.map fun a => dofSum (fun jc : Fin 1 → ℝ => if h : s.rows ≤ t ∧ t < s.rows + 1 then jc ⟨t - s.rows, by omega⟩ else 0)
        (fun r => E.transform.coeff r i) a
        ((pairDv pos (pI - pJ) f (stateAt st a)).map fun d => (d.1, fun _ : Fin 1 => d.2))).sum =
      if t = s.rows then f * (pI - pJ).dot (posVel st l (fun r => E.transform.coeff r i) pos) else 0 := by
    intro i t pos f l
    by_cases ht : t = s.rows
    · rw [if_pos ht, ← pairDv_chain]
      congr 1
      refine List.map_congr_left fun a _ => ?_
      unfold dofSum
      rw [List.map_map]
      congr 1
      refine List.map_congr_left fun d _ => ?_
      simp only [Function.comp]
      rw [dif_pos (by omega)]
    · rw [if_neg ht]
      apply List.sum_eq_zero
      intro x hx
      obtain ⟨a, _, rfl⟩ := List.mem_map.1 hx
      unfold dofSum
      apply List.sum_eq_zero
      intro y hy
      obtain ⟨d, _, rfl⟩ := List.mem_map.1 hy
      simp only
      rw [dif_neg (by omega), zero_mul]
  refine ⟨⟨s.error + E.pairError h.2.2, s.rows + 1, g2, Function.update s.residual s.rows
    (h.2.2.overlap * Real.sqrt (kCollisionWeight * E.weight))⟩, ?_, rfl, rfl, rfl, ?_⟩
  · unfold jacPair
    rw [hd]
    simp only [Option.bind_eq_bind, Option.bind_some]
    rw [if_pos hn, chainWalkTo_eq pA, e1, Option.bind_some, chainWalkTo_eq pB, e2, Option.bind_some]
  · intro i hi t
    have k1 := f1 (⟨i, hi⟩, t)
    have k2 := f2 (⟨i, hi⟩, t)
    simp only [hrow] at k1 k2
    simp only
    rw [k2, k1]
    unfold pairRow pairRate
    rw [hd, ← hF.transform]
    by_cases ht : t = s.rows
    · rw [if_pos ht, if_pos ht, if_pos ht]
      simp only [Vec3.dot, Vec3.sub_x, Vec3.sub_y, Vec3.sub_z]
      rw [← hfac]
      ring
    · rw [if_neg ht, if_neg ht, if_neg ht]; ring

include hF hst hcl in
theorem gradFold (H : List (Nat × Nat × OverlapInfo)) (hl : ∀ h ∈ H, E.Linked h) : ∀ s : ℝ × (Nat → ℝ),
    ∃ s', H.foldlM (fun s h => E.gradPair st s h.1 h.2.1 h.2.2) s = some s' ∧
      s'.1 = s.1 + (H.map fun h => E.pairError h.2.2).sum ∧
      ∀ i, E.enabledParameters.mem i = true →
        s'.2 i = s.2 i + (H.map (E.pairGrad st fun r => pt.transform.coeff r i)).sum := by
  induction H with
  | nil => intro s; exact ⟨s, rfl, by simp, by simp⟩
  | cons h H ih =>
    intro s
    obtain ⟨s1, e1, a1, b1⟩ := gradPair_track hF hst hcl (hl h (by simp)) s
    obtain ⟨s2, e2, a2, b2⟩ := ih (fun h' hh => hl h' (by simp [hh])) s1
    refine ⟨s2, ?_, ?_, ?_⟩
    · rw [List.foldlM_cons, e1]; exact e2
    · rw [a2, a1, List.map_cons, List.sum_cons, add_assoc]
    · intro i hi; rw [b2 i hi, b1 i hi, List.map_cons, List.sum_cons, add_assoc]

include hF hst hcl in
theorem jacFold {n : Nat} (H : List (Nat × Nat × OverlapInfo)) (hl : ∀ h ∈ H, E.Linked h) : ∀ s : JacobianResult,
    s.rows + H.length ≤ n →
    ∃ s', H.foldlM (fun s h => E.jacPair st n s h.1 h.2.1 h.2.2) s = some s' ∧
      s'.error = s.error + (H.map fun h => E.pairError h.2.2).sum ∧ s'.rows = s.rows + H.length ∧
      (∀ t, (t < s.rows ∨ s.rows + H.length ≤ t) → s'.residual t = s.residual t ∧
        ∀ i, E.enabledParameters.mem i = true → s'.e i t = s.e i t) ∧
      ∀ k h, H[k]? = some h → s'.residual (s.rows + k) = h.2.2.overlap * Real.sqrt (kCollisionWeight * E.weight) ∧
        ∀ i, E.enabledParameters.mem i = true →
          s'.e i (s.rows + k) = s.e i (s.rows + k) + E.pairRow st (fun r => pt.transform.coeff r i) h := by
  induction H with
  | nil => intro s _; exact ⟨s, rfl, by simp, by simp, by simp, by simp⟩
  | cons h H ih =>
    intro s hn
    simp only [List.length_cons] at hn
    obtain ⟨s1, e1, a1, b1, c1, d1⟩ := jacPair_track hF hst hcl (hl h (by simp)) s (n := n) (by omega)
    obtain ⟨s2, e2, a2, b2, c2, d2⟩ := ih (fun h' hh => hl h' (by simp [hh])) s1 (by omega)
    refine ⟨s2, ?_, ?_, ?_, ?_, ?_⟩
    · rw [List.foldlM_cons, e1]; exact e2
    · rw [a2, a1, List.map_cons, List.sum_cons, add_assoc]
    · rw [b2, b1, List.length_cons]; omega
    · intro t ht
      simp only [List.length_cons] at ht
      obtain ⟨r1, r2⟩ := c2 t (by omega)
      refine ⟨?_, fun i hi => ?_⟩
      · rw [r1, c1, Function.update_of_ne (by omega)]
      · rw [r2 i hi, d1 i hi, if_neg (by omega), add_zero]
    · intro k h' hk
      cases k with
      | zero =>
        simp at hk; subst hk
        obtain ⟨r1, r2⟩ := c2 (s.rows + 0) (by omega)
        refine ⟨?_, fun i hi => ?_⟩
        · rw [r1, c1, Nat.add_zero, Function.update_self]
        · rw [r2 i hi, d1 i hi, if_pos (by omega)]
      | succ k =>
        have := d2 k h' (by simpa using hk)
        rw [b1, show s.rows + 1 + k = s.rows + (k + 1) by omega] at this
        obtain ⟨r1, r2⟩ := this
        refine ⟨r1, fun i hi => ?_⟩
        rw [r2 i hi, d1 i hi, if_neg (by omega), add_zero]

end

/-! ## The pairs that take part -/

section
variable {skel : Skeleton ℝ} {tol eps : ℝ} {g : List (TaperedCapsule ℝ)} {rest : List (CapsuleState ℝ)} {E : CollisionError}
  {st : List JointState}

theorem mem_hits {h : Nat × Nat × OverlapInfo} (hK : E.Kept skel tol eps g rest) (hh : h ∈ E.hits) :
    (h.1, h.2.1) ∈ E.order ∧ h.1 < g.length ∧ h.2.1 < g.length ∧ h.1 ≠ h.2.1 ∧
    Watched skel tol eps g rest (min h.1 h.2.1) (max h.1 h.2.1) ∧
    ∃ ca cb, E.collisionState[h.1]? = some ca ∧ E.collisionState[h.2.1]? = some cb ∧ overlaps tol eps ca cb = true ∧
      overlapInfo tol ca cb = some h.2.2 := by
  unfold hits at hh
  rw [List.mem_filterMap] at hh
  obtain ⟨⟨a, b⟩, h1, h2⟩ := hh
  unfold hit at h2
  rw [Option.map_eq_some_iff] at h2
  obtain ⟨r, h3, rfl⟩ := h2
  have hap := allPairs_distinct hK.ids
  obtain ⟨ha, hb, hab⟩ := (hap.mem a b).1 (Or.inl h1)
  have h4 : E.narrowPhase a b = some (some r) := by
    cases hn : E.narrowPhase a b with
    | none => rw [hn] at h3; cases h3
    | some o => rw [hn] at h3; simpa using h3
  unfold narrowPhase at h4
  by_cases hex : E.excluded a b = true
  · rw [if_pos hex] at h4; cases h4
  · rw [if_neg hex] at h4
    simp only [Option.bind_eq_bind, Option.bind_eq_some_iff] at h4
    obtain ⟨ca, k1, cb, k2, k3⟩ := h4
    by_cases ho : overlaps E.tol E.eps ca cb = true
    · rw [if_pos ho] at k3
      rw [hK.tol_eq, hK.eps_eq] at ho
      rw [hK.tol_eq] at k3
      exact ⟨h1, ha, hb, hab, (excluded_iff hK hab ha hb).1 (by simpa using hex), ca, cb, k1, k2, ho, Option.some.inj k3⟩
    · rw [if_neg ho] at k3; cases k3

theorem watched_common (hK : E.Kept skel tol eps g rest) {a b : Nat} (hab : a ≠ b)
    (hw : Watched skel tol eps g rest (min a b) (max a b)) :
    ∃ ga gb c, g[a]? = some ga ∧ g[b]? = some gb ∧ skel.Anc ga.parent c ∧ skel.Anc gb.parent c := by
  have hlt : min a b < max a b := by omega
  obtain ⟨ga, gb, c, h1, h2, h3, h4⟩ := hK.common _ _ hlt hw
  rcases lt_or_gt_of_ne hab with h | h
  · rw [min_eq_left h.le] at h1; rw [max_eq_right h.le] at h2
    exact ⟨ga, gb, c, h1, h2, h3, h4⟩
  · rw [min_eq_right h.le] at h1; rw [max_eq_left h.le] at h2
    exact ⟨gb, ga, c, h2, h1, h4, h3⟩

theorem pairData_hit (hv : skel.Valid) (hpar : ∀ tc ∈ g, tc.parent < skel.joints.length) (hK : E.Kept skel tol eps g rest)
    {h : Nat × Nat × OverlapInfo} (hh : h ∈ E.hits) : ∃ ga gb c ca cb, g[h.1]? = some ga ∧ g[h.2.1]? = some gb ∧
      E.collisionState[h.1]? = some ca ∧ E.collisionState[h.2.1]? = some cb ∧ overlaps tol eps ca cb = true ∧
      overlapInfo tol ca cb = some h.2.2 ∧ skel.Anc ga.parent c ∧ skel.Anc gb.parent c ∧
      E.pairData h.1 h.2.1 h.2.2 = some (ga.parent, gb.parent, some c, ca.origin + h.2.2.s • ca.direction,
        cb.origin + h.2.2.t • cb.direction) := by
  obtain ⟨_, ha, hb, hab, hw, ca, cb, k1, k2, k3, k4⟩ := mem_hits hK hh
  obtain ⟨ga, gb, c, g1, g2, c1, c2⟩ := watched_common hK hab hw
  have p1 := hpar ga (List.mem_of_getElem? g1)
  have p2 := hpar gb (List.mem_of_getElem? g2)
  obtain ⟨c', hc, a1, a2, _⟩ := C07_commonAncestor_partial skel hv _ _ p1 p2 ⟨c, c1, c2⟩
  refine ⟨ga, gb, c', ca, cb, g1, g2, k1, k2, k3, k4, a1, a2, ?_⟩
  unfold pairData
  rw [hK.geometry, g1, g2]
  simp only [Option.bind_eq_bind, Option.bind_some]
  rw [hK.skeleton_eq, hc]
  simp only [Option.bind_some, k1, k2]

theorem linked_of_hit (hv : skel.Valid) (hpar : ∀ tc ∈ g, tc.parent < skel.joints.length) (hK : E.Kept skel tol eps g rest)
    {h : Nat × Nat × OverlapInfo} (hh : h ∈ E.hits) : E.Linked h := by
  obtain ⟨ga, gb, c, ca, cb, g1, g2, _, _, _, _, a1, a2, hd⟩ := pairData_hit hv hpar hK hh
  unfold Linked
  rw [hK.skeleton_eq]
  exact ⟨_, _, _, _, _, hd, hpar ga (List.mem_of_getElem? g1), hpar gb (List.mem_of_getElem? g2), a1, a2⟩

/-- A pair in increasing order. -/
def sortPair (p : Nat × Nat) : Nat × Nat := (min p.1 p.2, max p.1 p.2)

theorem sort_nodup {O : List (Nat × Nat)} (h : O.Pairwise fun p q => p ≠ q ∧ p ≠ q.swap) : (O.map sortPair).Nodup := by
  rw [List.Nodup, List.pairwise_map]
  refine h.imp ?_
  rintro ⟨a, b⟩ ⟨c, d⟩ ⟨h1, h2⟩ e
  simp only [sortPair, Prod.mk.injEq, ne_eq, Prod.swap_prod_mk] at e h1 h2
  omega

theorem allPairs_perm {n : Nat} {O : List (Nat × Nat)} (h : AllPairs n O) : (O.map sortPair).Perm (allIJ n) := by
  rw [List.perm_ext_iff_of_nodup (sort_nodup h.once) (nodup_allIJ n)]
  rintro ⟨i, j⟩
  rw [mem_allIJ, List.mem_map]
  constructor
  · rintro ⟨⟨a, b⟩, h1, h2⟩
    obtain ⟨ha, hb, hab⟩ := (h.mem a b).1 (Or.inl h1)
    simp only [sortPair, Prod.mk.injEq] at h2
    omega
  · rintro ⟨h1, h2⟩
    rcases (h.mem i j).2 ⟨by omega, h2, by omega⟩ with hm | hm
    · exact ⟨_, hm, by simp [sortPair]; omega⟩
    · exact ⟨_, hm, by simp [sortPair]; omega⟩

open Classical in
theorem hits_length_le (hK : E.Kept skel tol eps g rest) : E.hits.length ≤ E.jacobianSize := by
  rw [hK.size]
  have hap := allPairs_distinct hK.ids
  have hsub : (E.hits.map fun h => (h.1, h.2.1)).Sublist E.order := by
    unfold hits
    have : ∀ O : List (Nat × Nat), ((O.filterMap E.hit).map fun h => (h.1, h.2.1)).Sublist O := by
      intro O
      induction O with
      | nil => simp
      | cons p O ih =>
        rw [List.filterMap_cons]
        cases hp : E.hit p with
        | none => exact ih.cons p
        | some h =>
          have : (h.1, h.2.1) = p := by
            unfold hit at hp
            rw [Option.map_eq_some_iff] at hp
            obtain ⟨r, _, rfl⟩ := hp; rfl
          simp only [List.map_cons, this]
          exact ih.cons_cons p
    exact this _
  have hnd : ((E.hits.map fun h => (h.1, h.2.1)).map sortPair).Nodup := sort_nodup (hap.once.sublist hsub)
  have hss : (E.hits.map fun h => (h.1, h.2.1)).map sortPair ⊆
      (allIJ g.length).filter fun p => Watched skel tol eps g rest p.1 p.2 := by
    intro p hp
    rw [List.map_map, List.mem_map] at hp
    obtain ⟨h, h1, rfl⟩ := hp
    obtain ⟨_, ha, hb, hab, hw, _⟩ := mem_hits hK h1
    rw [List.mem_filter]
    refine ⟨?_, decide_eq_true hw⟩
    simp only [Function.comp, sortPair]
    rw [mem_allIJ]; omega
  have := (hnd.subperm hss).length_le
  simpa using this

end
end CollisionError
end Momentum
