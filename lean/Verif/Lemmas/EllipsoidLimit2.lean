import Verif.Lemmas.EllipsoidLimit

/-!
# Ellipsoid limits: error, gradient and Jacobian
-/

namespace Momentum
open Skeleton

theorem posVel_eq_zero (st : List JointState) (w : Nat → ℝ) (p : Vec3 ℝ) (l : List Nat) (h : ∀ a ∈ l, ∀ k < 7, w (7 * a + k) = 0) :
    posVel st l w p = 0 := by
  unfold posVel
  apply List.sum_eq_zero
  intro x hx
  obtain ⟨a, ha, rfl⟩ := List.mem_map.1 hx
  have h := h a ha
  rw [jointVel_split, mul_comm a 7, h 0 (by omega), h 1 (by omega), h 2 (by omega), h 3 (by omega), h 4 (by omega),
    h 5 (by omega), h 6 (by omega)]
  simp

/-- The columns in `columnDofs` when the derivatives are up to date. -/
noncomputable def columnDv (pos : Vec3 ℝ) (jwgt : ℝ) (js : JointState) : List (Nat × (Fin 3 → ℝ)) :=
  let posd := pos - js.transform.translation
  let t (d : Fin 3) : Fin 3 → ℝ := (jwgt • js.translationAxis d).toFn
  let r (d : Fin 3) : Fin 3 → ℝ := (jwgt • (js.rotationAxis d).cross posd).toFn
  [(0, t 0), (3, r 0), (1, t 1), (4, r 1), (2, t 2), (5, r 2), (6, (jwgt • (Real.log 2 • posd)).toFn)]

theorem columnDofs_eq (pos : Vec3 ℝ) (jwgt : ℝ) {js : JointState} (h : js.derivDirty = false) :
    EllipsoidLimits.columnDofs pos jwgt js = (columnDv pos jwgt js).map fun d => (d.1, some d.2) := by
  simp [EllipsoidLimits.columnDofs, columnDv, JointState.getRotationDerivative, JointState.getTranslationDerivative,
    JointState.getScaleDerivative, h]

theorem columnDv_lt {pos : Vec3 ℝ} {jwgt : ℝ} {js : JointState} {d : Nat × (Fin 3 → ℝ)} (h : d ∈ columnDv pos jwgt js) :
    d.1 < 7 := by
  simp [columnDv] at h
  rcases h with h | h | h | h | h | h | h <;> subst h <;> simp

theorem toFn_add' (a b : Vec3 ℝ) (k : Fin 3) : (a + b).toFn k = a.toFn k + b.toFn k := by fin_cases k <;> rfl
theorem toFn_smul' (r : ℝ) (a : Vec3 ℝ) (k : Fin 3) : (r • a).toFn k = r * a.toFn k := by fin_cases k <;> rfl

theorem columnDv_sum (pos : Vec3 ℝ) (jwgt : ℝ) (js : JointState) (w : Nat → ℝ) (a : Nat) (k : Fin 3) :
    dofSum (fun v : Fin 3 → ℝ => v k) w a (columnDv pos jwgt js) = jwgt * (jointVel js (ratesOf w a) pos).toFn k := by
  rw [jointVel_split]
  simp only [dofSum, columnDv, List.map_cons, List.map_nil, List.sum_cons, List.sum_nil, toFn_add', toFn_smul']
  ring

theorem columnDv_chain (pos : Vec3 ℝ) (jwgt : ℝ) (st : List JointState) (w : Nat → ℝ) (l : List Nat) (k : Fin 3) :
    (l.map fun a => dofSum (fun v : Fin 3 → ℝ => v k) w a (columnDv pos jwgt (stateAt st a))).sum =
      jwgt * (posVel st l w pos).toFn k := by
  simp only [columnDv_sum, posVel]
  induction l with
  | nil => fin_cases k <;> simp [Vec3.toFn]
  | cons a l ih => simp only [List.map_cons, List.sum_cons, ih, toFn_add']; ring

namespace EllipsoidLimits

/-- What one limit adds to the error. -/
noncomputable def limitError (E : EllipsoidLimits) (st : List JointState) (c : EllipsoidLimit) : ℝ :=
  (c.diffIn st).sqNorm * kEllipsoidWeight * (kLimitWeight * E.weight) * c.weight

/-- The error. -/
noncomputable def total (E : EllipsoidLimits) (st : List JointState) : ℝ := (E.limits.map (E.limitError st)).sum

/-- The weight of a limit in the Jacobian. -/
noncomputable def jwgt (E : EllipsoidLimits) (c : EllipsoidLimit) : ℝ :=
  Real.sqrt (kLimitWeight * kEllipsoidWeight * E.weight * c.weight)

/-- The joints a limit looks at. -/
noncomputable def walk (s : Skeleton ℝ) (c : EllipsoidLimit) : List Nat := Classical.epsilon fun l =>
  PathUntil s (some c.ellipsoidParent) (some c.parent) l ∧
    (s.Anc c.parent c.ellipsoidParent → ∀ lc, Chain s (some c.ellipsoidParent) lc → Chain s (some c.parent) (l ++ lc)) ∧
      (¬s.Anc c.parent c.ellipsoidParent → Chain s (some c.parent) l)

theorem walk_spec {s : Skeleton ℝ} (hv : s.Valid) {c : EllipsoidLimit} (h : c.parent < s.joints.length) :
    PathUntil s (some c.ellipsoidParent) (some c.parent) (walk s c) ∧
    (s.Anc c.parent c.ellipsoidParent → ∀ lc, Chain s (some c.ellipsoidParent) lc → Chain s (some c.parent) (walk s c ++ lc)) ∧
      (¬s.Anc c.parent c.ellipsoidParent → Chain s (some c.parent) (walk s c)) :=
  Classical.epsilon_spec (until_exists hv _ _ h)

/-- What a limit adds to the gradient. -/
noncomputable def limitGrad (E : EllipsoidLimits) (st : List JointState) (w : Nat → ℝ) (c : EllipsoidLimit) : ℝ :=
  2 * kEllipsoidWeight * c.weight * (kLimitWeight * E.weight) *
    (c.diffIn st).dot (posVel st (walk E.skeleton c) w (c.pointIn st))

section
variable {E : EllipsoidLimits} {st : List JointState} {θ : List ℝ} {cd : Bool} (hv : E.skeleton.Valid)
  (hpre : ∀ jt ∈ E.skeleton.joints, jt.preRotation.normSq = 1) (hG : FKGood E.skeleton θ cd st)
  (hst : st.length = E.skeleton.joints.length)

include hv hpre hG hst in
theorem evaluate_good {c : EllipsoidLimit} (hc : c.Wellformed E.skeleton) :
    evaluate c st = some (c.pointIn st, c.diffIn st) :=
  EllipsoidLimit.evaluate_eq (by rw [hst]; exact hc.parent) (by rw [hst]; exact hc.ellipsoidParent) hc.inverse
    (hG.worldOf_unit hv hpre _).1 (hG.worldOf_unit hv hpre _).2

include hv hpre hG hst in
theorem getError_eq (hW : ∀ c ∈ E.limits, c.Wellformed E.skeleton) : E.getError st = some (E.total st) := by
  have key : ∀ (l : List EllipsoidLimit), (∀ c ∈ l, c.Wellformed E.skeleton) → ∀ x : ℝ, l.foldlM (errorStep st) x =
      some (x + (l.map fun c => (c.diffIn st).sqNorm * kEllipsoidWeight * c.weight).sum) := by
    intro l
    induction l with
    | nil => intro _ x; simp
    | cons c l ih =>
      intro h x
      rw [List.foldlM_cons]
      have e : errorStep st x c = some (x + (c.diffIn st).sqNorm * kEllipsoidWeight * c.weight) := by
        unfold errorStep; rw [evaluate_good hv hpre hG hst (h c (by simp))]; rfl
      rw [e]
      refine (ih (fun c' h' => h c' (by simp [h'])) _).trans ?_
      rw [List.map_cons, List.sum_cons, add_assoc]
  unfold getError
  rw [key _ hW, Option.map_some, zero_add, total]
  congr 1
  unfold limitError
  have : ∀ l : List EllipsoidLimit, (l.map fun c => (c.diffIn st).sqNorm * kEllipsoidWeight * c.weight).sum * kLimitWeight * E.weight =
      (l.map fun c => (c.diffIn st).sqNorm * kEllipsoidWeight * (kLimitWeight * E.weight) * c.weight).sum := by
    intro l
    induction l with
    | nil => simp
    | cons c l ih => simp only [List.map_cons, List.sum_cons]; rw [← ih]; ring
  exact this _
end

section
variable {E : EllipsoidLimits} {pt : ParameterTransform ℝ} (hF : E.Fits pt) {st : List JointState} {θ : List ℝ}
  (hG : FKGood E.skeleton θ true st) (hst : st.length = E.skeleton.joints.length)

include hF hG hst in
theorem gradStep_track {c : EllipsoidLimit} (hc : c.Wellformed E.skeleton) (s : ℝ × (Nat → ℝ)) :
    ∃ s', E.gradStep st s c = some s' ∧ s'.1 = s.1 + E.limitError st c ∧
      ∀ i, E.enabledParameters.mem i = true → s'.2 i = s.2 i + E.limitGrad st (fun r => pt.transform.coeff r i) c := by
  have hcl := ErrorBase.clean_of_good hG hst
  have hem := gradScatter_emits (A := E.transform) (by rw [hF.transform]; exact hF.wf) pt.transform.rows
    (fun i : {i // E.enabledParameters.mem i = true} => i.1)
  have hact : ∀ (i : {i // E.enabledParameters.mem i = true}) r, E.transform.coeff r i.1 ≠ 0 →
      E.activeJointParams[r]? = some true := fun i r h => hF.active r i.1 i.2 (by rw [← hF.transform]; exact h)
  obtain ⟨g1, e1, f1⟩ := chainWalkTo_track hem hF.activeLength hF.rows hact hst
    (dofs := CollisionError.pairDofs (c.pointIn st) (c.diffIn st) (2 * kEllipsoidWeight * c.weight * (kLimitWeight * E.weight)))
    (dv := pairDv (c.pointIn st) (c.diffIn st) (2 * kEllipsoidWeight * c.weight * (kLimitWeight * E.weight)))
    (fun js hj => pairDofs_eq _ _ _ (hcl js hj)) (fun js _ d hd => pairDv_lt hd) (walk_spec hF.skeleton hc.parent).1 s.2
  refine ⟨(s.1 + E.limitError st c, g1), ?_, rfl, fun i hi => ?_⟩
  · unfold gradStep
    rw [evaluate_good hF.skeleton hF.unit hG hst hc]
    simp only [Option.bind_eq_bind, Option.bind_some]
    rw [e1, Option.bind_some]; rfl
  · have := f1 ⟨i, hi⟩
    simp only [pairDv_chain] at this
    simp only
    rw [this, hF.transform]; rfl

include hF hG hst in
theorem getGradient_eq (hW : ∀ c ∈ E.limits, c.Wellformed E.skeleton) (g0 : Nat → ℝ) :
    ∃ g, E.getGradient st g0 = some (E.total st, g) ∧ ∀ i, E.enabledParameters.mem i = true →
      g i = g0 i + (E.limits.map (E.limitGrad st fun r => pt.transform.coeff r i)).sum := by
  have key : ∀ (l : List EllipsoidLimit), (∀ c ∈ l, c.Wellformed E.skeleton) → ∀ s : ℝ × (Nat → ℝ),
      ∃ s', l.foldlM (E.gradStep st) s = some s' ∧ s'.1 = s.1 + (l.map (E.limitError st)).sum ∧
      ∀ i, E.enabledParameters.mem i = true →
        s'.2 i = s.2 i + (l.map (E.limitGrad st fun r => pt.transform.coeff r i)).sum := by
    intro l
    induction l with
    | nil => intro _ s; exact ⟨s, rfl, by simp, by simp⟩
    | cons c l ih =>
      intro h s
      obtain ⟨s1, e1, a1, b1⟩ := gradStep_track hF hG hst (h c (by simp)) s
      obtain ⟨s2, e2, a2, b2⟩ := ih (fun c' h' => h c' (by simp [h'])) s1
      refine ⟨s2, ?_, ?_, ?_⟩
      · rw [List.foldlM_cons, e1]; exact e2
      · rw [a2, a1, List.map_cons, List.sum_cons, add_assoc]
      · intro i hi; rw [b2 i hi, b1 i hi, List.map_cons, List.sum_cons, add_assoc]
  obtain ⟨⟨x, g⟩, h1, h2, h3⟩ := key _ hW (0, g0)
  refine ⟨g, ?_, h3⟩
  unfold getGradient
  rw [h1]; simp only [zero_add] at h2; rw [h2]; rfl

include hF hG hst in
theorem jacStep_track {c : EllipsoidLimit} (hc : c.Wellformed E.skeleton) (s : JacobianResult) :
    ∃ s', E.jacStep st s c = some s' ∧ s'.error = s.error + E.jwgt c * E.jwgt c * (c.diffIn st).sqNorm ∧ s'.rows = s.rows + 3 ∧
      (∀ t, (t < s.rows ∨ s.rows + 3 ≤ t) → s'.residual t = s.residual t ∧
        ∀ i, E.enabledParameters.mem i = true → s'.e i t = s.e i t) ∧
      ∀ b : Fin 3, s'.residual (s.rows + b) = E.jwgt c * (c.diffIn st).toFn b ∧
        ∀ i, E.enabledParameters.mem i = true → s'.e i (s.rows + b) = s.e i (s.rows + b) +
          E.jwgt c * (posVel st (walk E.skeleton c) (fun r => pt.transform.coeff r i) (c.pointIn st)).toFn b := by
  have hcl := ErrorBase.clean_of_good hG hst
  have hem := jacScatter_emits (m := 3) (A := E.transform) (by rw [hF.transform]; exact hF.wf) s.rows pt.transform.rows
    (fun i : {i // E.enabledParameters.mem i = true} => i.1)
  have hact : ∀ (i : {i // E.enabledParameters.mem i = true} × Nat) r, E.transform.coeff r i.1.1 ≠ 0 →
      E.activeJointParams[r]? = some true := fun i r h => hF.active r i.1.1 i.1.2 (by rw [← hF.transform]; exact h)
  obtain ⟨g1, e1, f1⟩ := chainWalkTo_track hem hF.activeLength hF.rows hact hst
    (dofs := columnDofs (c.pointIn st) (E.jwgt c)) (dv := columnDv (c.pointIn st) (E.jwgt c))
    (fun js hj => columnDofs_eq _ _ (hcl js hj)) (fun js _ d hd => columnDv_lt hd) (walk_spec hF.skeleton hc.parent).1 s.e
  refine ⟨⟨s.error + E.jwgt c * E.jwgt c * (c.diffIn st).sqNorm, s.rows + 3, g1, fun t =>
    if h : s.rows ≤ t ∧ t < s.rows + 3 then (E.jwgt c • c.diffIn st).toFn ⟨t - s.rows, by omega⟩ else s.residual t⟩,
    ?_, rfl, rfl, fun t ht => ⟨dif_neg (by omega), fun i hi => ?_⟩, fun b => ⟨?_, fun i hi => ?_⟩⟩
  · unfold jacStep
    rw [evaluate_good hF.skeleton hF.unit hG hst hc]
    simp only [Option.bind_eq_bind, Option.bind_some]
    have : Real.sqrt (kLimitWeight * kEllipsoidWeight * E.weight * c.weight) = E.jwgt c := rfl
    rw [this, e1, Option.bind_some]
  · have := f1 (⟨i, hi⟩, t)
    simp only at this ⊢
    rw [this]
    refine add_eq_left.2 (List.sum_eq_zero ?_)
    intro x hx
    obtain ⟨a, _, rfl⟩ := List.mem_map.1 hx
    unfold dofSum
    apply List.sum_eq_zero
    intro y hy
    obtain ⟨d, _, rfl⟩ := List.mem_map.1 hy
    simp only
    rw [dif_neg (by omega), zero_mul]
  · simp only
    rw [dif_pos ⟨by omega, by have := b.2; omega⟩, ← toFn_smul']
    congr 1
    ext; simp
  · have := f1 (⟨i, hi⟩, s.rows + b)
    simp only at this
    simp only
    rw [this, ← columnDv_chain, hF.transform]
    congr 2
    refine List.map_congr_left fun a _ => ?_
    unfold dofSum
    congr 1
    refine List.map_congr_left fun d _ => ?_
    have hb : s.rows ≤ s.rows + b.1 ∧ s.rows + b.1 < s.rows + 3 := ⟨by omega, by have := b.2; omega⟩
    simp only
    rw [dif_pos hb]
    have hbb : (⟨s.rows + b.1 - s.rows, by omega⟩ : Fin 3) = b := by ext; simp
    rw [hbb]

include hF hG hst in
theorem getJacobian_eq (hW : ∀ c ∈ E.limits, c.Wellformed E.skeleton) (J0 : Nat → Nat → ℝ) (r0 : Nat → ℝ) :
    ∃ s, E.getJacobian st J0 r0 = some s ∧
      s.error = (E.limits.map fun c => E.jwgt c * E.jwgt c * (c.diffIn st).sqNorm).sum ∧ s.rows = 3 * E.limits.length ∧
      ∀ k c, E.limits[k]? = some c → ∀ b : Fin 3, s.residual (3 * k + b) = E.jwgt c * (c.diffIn st).toFn b ∧
        ∀ i, E.enabledParameters.mem i = true → s.e i (3 * k + b) = J0 i (3 * k + b) +
          E.jwgt c * (posVel st (walk E.skeleton c) (fun r => pt.transform.coeff r i) (c.pointIn st)).toFn b := by
  have key : ∀ (l : List EllipsoidLimit), (∀ c ∈ l, c.Wellformed E.skeleton) → ∀ s : JacobianResult,
      ∃ s', l.foldlM (E.jacStep st) s = some s' ∧
      s'.error = s.error + (l.map fun c => E.jwgt c * E.jwgt c * (c.diffIn st).sqNorm).sum ∧
      s'.rows = s.rows + 3 * l.length ∧
      (∀ t < s.rows, s'.residual t = s.residual t ∧ ∀ i, E.enabledParameters.mem i = true → s'.e i t = s.e i t) ∧
      ∀ k c, l[k]? = some c → ∀ b : Fin 3, s'.residual (s.rows + (3 * k + b)) = E.jwgt c * (c.diffIn st).toFn b ∧
        ∀ i, E.enabledParameters.mem i = true → s'.e i (s.rows + (3 * k + b)) = s.e i (s.rows + (3 * k + b)) +
          E.jwgt c * (posVel st (walk E.skeleton c) (fun r => pt.transform.coeff r i) (c.pointIn st)).toFn b := by
    intro l
    induction l with
    | nil => intro _ s; exact ⟨s, rfl, by simp, by simp, by simp, by simp⟩
    | cons c l ih =>
      intro h s
      obtain ⟨s1, e1, a1, b1, c1, d1⟩ := jacStep_track hF hG hst (h c (by simp)) s
      obtain ⟨s2, e2, a2, b2, c2, d2⟩ := ih (fun c' h' => h c' (by simp [h'])) s1
      refine ⟨s2, ?_, ?_, ?_, fun t ht => ?_, ?_⟩
      · rw [List.foldlM_cons, e1]; exact e2
      · rw [a2, a1, List.map_cons, List.sum_cons, add_assoc]
      · rw [b2, b1, List.length_cons]; omega
      · obtain ⟨r1, r2⟩ := c2 t (by omega)
        obtain ⟨q1, q2⟩ := c1 t (Or.inl ht)
        exact ⟨r1.trans q1, fun i hi => (r2 i hi).trans (q2 i hi)⟩
      · intro k c' hk b
        cases k with
        | zero =>
          simp at hk; subst hk
          obtain ⟨r1, r2⟩ := c2 (s.rows + b) (by have := b.2; omega)
          obtain ⟨q1, q2⟩ := d1 b
          simp only [mul_zero, zero_add]
          exact ⟨r1.trans q1, fun i hi => (r2 i hi).trans (q2 i hi)⟩
        | succ k =>
          have := d2 k c' (by simpa using hk) b
          rw [b1, show s.rows + 3 + (3 * k + (b : ℕ)) = s.rows + (3 * (k + 1) + b) by omega] at this
          obtain ⟨r1, r2⟩ := this
          refine ⟨r1, fun i hi => ?_⟩
          rw [r2 i hi, (c1 _ (Or.inr (by omega))).2 i hi]
  obtain ⟨s, h1, h2, h3, -, h4⟩ := key _ hW ⟨0, 0, J0, r0⟩
  refine ⟨s, h1, by simpa using h2, by simpa using h3, fun k c hk b => ?_⟩
  have := h4 k c hk b
  simpa using this
end

/-! ## Along a motion -/

section
variable {s : Skeleton ℝ} (hv : s.Valid) (hpre : ∀ jt ∈ s.joints, jt.preRotation.normSq = 1) {θ : ℝ → List ℝ}
  {S : ℝ → List JointState} (hG : ∀ u, FKGood s (θ u) true (S u)) (hlen : ∀ u, (S u).length = s.joints.length) {t : ℝ}
  {θ' : Nat → ℝ} (hθ : ∀ i, HasDerivAt (fun u => (θ u).getD i 0) (θ' i) t)

include hv hpre hG hlen hθ in
/-- If the ellipsoid does not move, the limited point moves as the walk says. -/
theorem point_deriv {c : EllipsoidLimit} (hc : c.Wellformed s)
    (hfix : ∀ a, s.Anc c.ellipsoidParent a → ∀ k < 7, θ' (7 * a + k) = 0) :
    HasVecDerivAt (fun u => c.pointIn (S u)) (posVel (S t) (walk s c) θ' (c.pointIn (S t))) t := by
  obtain ⟨-, w2, w3⟩ := walk_spec hv hc.parent
  by_cases ha : s.Anc c.parent c.ellipsoidParent
  · obtain ⟨lc, hlc⟩ := chain_exists hv _ hc.ellipsoidParent
    have h := chain_vel hv hpre hG hlen hθ (w2 ha lc hlc) c.offset
    refine HasVecDerivAt.congr_deriv' h ?_
    show posVel (S t) (walk s c ++ lc) θ' _ = _
    rw [posVel_append, posVel_eq_zero _ _ _ lc fun a ha => hfix a (chain_anc hlc _ rfl a ha), add_zero]; rfl
  · exact chain_vel hv hpre hG hlen hθ (w3 ha) c.offset

include hv hpre hG hlen hθ in
/-- The radial velocity of the point, as the walk says. -/
theorem radial_deriv {c : EllipsoidLimit} (hc : c.Wellformed s)
    (hfix : (∀ a, s.Anc c.ellipsoidParent a → ∀ k < 7, θ' (7 * a + k) = 0) ∨
      (s.Anc c.parent c.ellipsoidParent ∧ ∀ a, s.Anc c.ellipsoidParent a → θ' (7 * a + 6) = 0)) :
    ∃ v, HasVecDerivAt (fun u => c.pointIn (S u) - c.centreIn (S u)) v t ∧
      (c.pointIn (S t) - c.centreIn (S t)).dot v =
        (c.pointIn (S t) - c.centreIn (S t)).dot (posVel (S t) (walk s c) θ' (c.pointIn (S t))) ∧
      HasDerivAt (fun u => (worldOf (S u) (some c.ellipsoidParent)).scale) 0 t := by
  obtain ⟨lc, hlc⟩ := chain_exists hv _ hc.ellipsoidParent
  have hcen := chain_vel hv hpre hG hlen hθ hlc (c.ellipsoid.apply 0)
  have h6 : ∀ a ∈ lc, θ' (7 * a + 6) = 0 := by
    intro a ha
    rcases hfix with h | ⟨_, h⟩
    · exact h a (chain_anc hlc _ rfl a ha) 6 (by omega)
    · exact h a (chain_anc hlc _ rfl a ha)
  have hscale := scale_deriv hv hG hlen hθ hlc h6
  rcases hfix with h | ⟨ha, -⟩
  · refine ⟨_, (point_deriv hv hpre hG hlen hθ hc h).sub hcen, ?_, hscale⟩
    have : (List.map (fun a => jointVel (stateAt (S t) a) (ratesOf θ' a)
        ((worldOf (S t) (some c.ellipsoidParent)).transformPoint (c.ellipsoid.apply 0))) lc).sum = 0 :=
      posVel_eq_zero (S t) θ' _ lc fun a ha => h a (chain_anc hlc _ rfl a ha)
    rw [this, sub_zero]
  · have hpt := chain_vel hv hpre hG hlen hθ ((walk_spec hv hc.parent).2.1 ha lc hlc) c.offset
    refine ⟨_, hpt.sub hcen, ?_, hscale⟩
    have e := posVel_common (S t) θ' (c.pointIn (S t)) (c.centreIn (S t)) lc h6
    show (c.pointIn (S t) - c.centreIn (S t)).dot (posVel (S t) (walk s c ++ lc) θ' (c.pointIn (S t)) -
      posVel (S t) lc θ' (c.centreIn (S t))) = _
    rw [posVel_append]
    simp only [Vec3.dot, Vec3.sub_x, Vec3.sub_y, Vec3.sub_z, Vec3.add_x, Vec3.add_y, Vec3.add_z] at e ⊢
    linarith

include hv hpre hG hlen hθ in
theorem diff_deriv {c : EllipsoidLimit} (hc : c.Wellformed s) {r : ℝ} (hb : c.IsBall r)
    (hne : c.pointIn (S t) ≠ c.centreIn (S t))
    (hfix : (∀ a, s.Anc c.ellipsoidParent a → ∀ k < 7, θ' (7 * a + k) = 0) ∨
      (s.Anc c.parent c.ellipsoidParent ∧ ∀ a, s.Anc c.ellipsoidParent a → θ' (7 * a + 6) = 0)) :
    HasDerivAt (fun u => (c.diffIn (S u)).sqNorm)
      (2 * (c.diffIn (S t)).dot (posVel (S t) (walk s c) θ' (c.pointIn (S t)))) t := by
  obtain ⟨v, hd, hdot, hs⟩ := radial_deriv hv hpre hG hlen hθ hc hfix
  have hu : ∀ u, (worldOf (S u) (some c.ellipsoidParent)).rotation.normSq = 1 := fun u => ((hG u).worldOf_unit hv hpre _).1
  have hsp : ∀ u, 0 < (worldOf (S u) (some c.ellipsoidParent)).scale := by
    intro u
    refine lt_of_le_of_ne ?_ (Ne.symm ((hG u).worldOf_unit hv hpre _).2)
    have hl : c.ellipsoidParent < (S u).length := by rw [hlen]; exact hc.ellipsoidParent
    have e2 : (S u)[c.ellipsoidParent]? = some (S u)[c.ellipsoidParent] := List.getElem?_eq_getElem _
    have := scale_nonneg_of_good hv (hG u) (hlen u) _ (List.getElem_mem hl)
    simpa only [worldOf, e2] using this
  have hsq : HasDerivAt (fun u => (c.pointIn (S u) - c.centreIn (S u)).sqNorm)
      (2 * (c.pointIn (S t) - c.centreIn (S t)).dot (posVel (S t) (walk s c) θ' (c.pointIn (S t)))) t := by
    refine (hd.dot hd).congr_deriv ?_
    rw [← hdot]; simp only [Vec3.dot]; ring
  obtain ⟨hpos, hdt⟩ := EllipsoidLimit.ball_diff hc.inverse hb (hu t) (hsp t) hne
  have hsqpos : 0 < (c.pointIn (S t) - c.centreIn (S t)).sqNorm := Real.sqrt_pos.1 hpos
  have hev : (fun u => (c.diffIn (S u)).sqNorm) =ᶠ[nhds t] fun u =>
      ((c.pointIn (S u) - c.centreIn (S u)).norm - (worldOf (S u) (some c.ellipsoidParent)).scale * r) ^ 2 := by
    filter_upwards [hsq.continuousAt.eventually (lt_mem_nhds hsqpos)] with u hu'
    have hne' : c.pointIn (S u) ≠ c.centreIn (S u) := by
      intro h
      rw [h, sub_self] at hu'
      simp [Vec3.sqNorm, Vec3.dot] at hu'
    obtain ⟨q1, q2⟩ := EllipsoidLimit.ball_diff hc.inverse hb (hu u) (hsp u) hne'
    rw [q2, sqNorm_smul']
    have : (c.pointIn (S u) - c.centreIn (S u)).sqNorm = (c.pointIn (S u) - c.centreIn (S u)).norm ^ 2 :=
      (Real.sq_sqrt hu'.le).symm
    rw [this, ← mul_pow]
    congr 1
    field_simp
  have hn : HasDerivAt (fun u => (c.pointIn (S u) - c.centreIn (S u)).norm) _ t := hsq.sqrt hsqpos.ne'
  refine (((hn.sub (hs.mul_const r)).pow 2).congr_of_eventuallyEq hev).congr_deriv ?_
  rw [hdt]
  have hsq' : Real.sqrt (c.pointIn (S t) - c.centreIn (S t)).sqNorm = (c.pointIn (S t) - c.centreIn (S t)).norm := rfl
  rw [hsq']
  simp only [Pi.sub_apply]
  generalize (c.pointIn (S t) - c.centreIn (S t)).norm = n at hpos ⊢
  have : ∀ (k : ℝ) (a b : Vec3 ℝ), (k • a).dot b = k * a.dot b := fun k a b => by simp [Vec3.dot]; ring
  rw [this]
  push_cast
  field_simp
  ring
end
end EllipsoidLimits
end Momentum
