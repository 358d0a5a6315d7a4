import Verif.Lemmas.DiffConstraints
import Mathlib.Tactic.FinCases

/-!
# Position and orientation constraints with Jets
-/

namespace Momentum
open Skeleton Finset

/-- An input of `k` numbers for each of the items. -/
theorem blocked_input {β α : Type} {set : List ℝ → Option β} {gradient : β → Option (Nat → ℝ)} {n : Nat} {v : Nat → ℝ} {k : Nat}
    (F : α → ℝ) (upd : α → (Fin k → ℝ) → α) (enc D : α → List ℝ) (henc : ∀ a, (enc a).length = k) (hD : ∀ a, (D a).length = k)
    (items : List α) (C : ℝ)
    (h : ∀ a ∈ items, ∀ j : Fin k, HasDerivAt (fun u => F (upd a (Function.update (fun j : Fin k => (enc a).getD j 0) j u)))
      ((D a).getD j 0) ((enc a).getD j 0))
    (hs : ∀ y : List ℝ, y.length = k * items.length → ∃ E g, set y = some E ∧ gradient E = some g ∧
      ∑ i ∈ range n, g i * v i = C + ((items.mapIdx fun i a => upd a fun j : Fin k => y.getD (k * i + j) 0).map F).sum) :
    IsInputDerivative set gradient n v (items.flatMap enc) (items.flatMap D) := by
  refine ⟨by rw [flatMap_length' enc henc, flatMap_length' D hD], fun c hc => ?_⟩
  refine ⟨_, fun u => ?_, (blocked_deriv F upd enc D henc hD items h hc).const_add C⟩
  obtain ⟨E, g, h1, h2, h3⟩ := hs ((items.flatMap enc).set c u) (by rw [List.length_set, flatMap_length' enc henc])
  exact ⟨E, g, h1, h2, h3.symm⟩

namespace DiffPosition

/-- The derivatives of half the squared distance in the degrees of freedom of a joint. -/
noncomputable def dv (pos diff : Vec3 ℝ) (js : JointState) : List (Nat × ℝ) :=
  let posd := pos - js.transform.translation
  [(0, diff.dot (js.translationAxis 0)), (3, diff.dot ((js.rotationAxis 0).cross posd)),
    (1, diff.dot (js.translationAxis 1)), (4, diff.dot ((js.rotationAxis 1).cross posd)),
    (2, diff.dot (js.translationAxis 2)), (5, diff.dot ((js.rotationAxis 2).cross posd)),
    (6, diff.dot (js.getScaleDerivative posd))]

theorem gradDofs_eq (pos diff : Vec3 ℝ) (wgt : ℝ) {js : JointState} (h : js.derivDirty = false) :
    gradDofs pos diff wgt js = (((dv pos diff js).map fun d => (d.1, d.2 * wgt)).map fun d => (d.1, some d.2)) := by
  simp [gradDofs, dv, JointState.getTranslationDerivative, JointState.getRotationDerivative, h]

theorem dv_lt {pos diff : Vec3 ℝ} {js : JointState} {wgt : ℝ} : ∀ d ∈ (dv pos diff js).map fun d => (d.1, d.2 * wgt), d.1 < 7 := by
  simp [dv]

/-- What constraint `c` adds to the product of the gradient with `v`. -/
noncomputable def part (E : DiffPosition) (st : List JointState) (ch : Nat → List Nat) (v : Nat → ℝ) (c : DiffPosConstraint) : ℝ :=
  let pos := (stateAt st c.parent).transform.transformPoint c.offset
  walkSum E.activeJointParams st (rowDot E.transform v) (ch c.parent)
    (fun js => (dv pos (pos - c.target) js).map fun d => (d.1, d.2 * (E.weight * c.weight * 2 * kDiffPositionWeight)))

theorem getGradient_dot {E : DiffPosition} {st : List JointState} {ch : Nat → List Nat} (h : E.Sound st ch)
    (hp : ∀ c ∈ E.constraints, c.parent < E.skeleton.joints.length) (v : Nat → ℝ) :
    ∃ e g, E.getGradient st (fun _ => 0) = some (e, g) ∧
      ∑ k ∈ range E.transform.cols, g k * v k = (E.constraints.map (E.part st ch v)).sum := by
  have key : ∀ (l : List DiffPosConstraint), (∀ c ∈ l, c.parent < E.skeleton.joints.length) → ∀ s : ℝ × (Nat → ℝ),
      ∃ s', l.foldlM (E.gradStep st) s = some s' ∧
        (∑ k ∈ range E.transform.cols, s'.2 k * v k) * E.weight =
          (∑ k ∈ range E.transform.cols, s.2 k * v k) * E.weight + (l.map (E.part st ch v)).sum := by
    intro l
    induction l with
    | nil => intro _ s; exact ⟨s, rfl, by simp⟩
    | cons c l ih =>
      intro hl s
      have hcp := hl c (by simp)
      have hst : st[c.parent]? = some (stateAt st c.parent) := by
        have : c.parent < st.length := by rw [h.length]; exact hcp
        rw [stateAt_eq (List.getElem?_eq_getElem this)]; exact List.getElem?_eq_getElem this
      have h1 : ∃ s1, E.gradStep st s c = some s1 ∧
          (∑ k ∈ range E.transform.cols, s1.2 k * v k) * E.weight =
            (∑ k ∈ range E.transform.cols, s.2 k * v k) * E.weight + E.part st ch v c := by
        unfold gradStep position
        rw [hst, Option.map_some, Option.bind_some]
        by_cases hw : c.weight = 0
        · rw [if_pos hw]
          refine ⟨s, rfl, ?_⟩
          unfold part
          rw [← walkSum_scale]; simp [hw]
        · rw [if_neg hw]
          obtain ⟨g', w1, w2⟩ := h.walk v (dofs := gradDofs _ _ (c.weight * 2 * kDiffPositionWeight))
            (fun js hjs => gradDofs_eq ((stateAt st c.parent).transform.transformPoint c.offset)
              ((stateAt st c.parent).transform.transformPoint c.offset - c.target) _ (h.clean js hjs))
            (fun js _ => dv_lt) hcp s.2
          rw [w1]
          refine ⟨_, rfl, ?_⟩
          show (∑ k ∈ range E.transform.cols, g' k * v k) * E.weight = _
          rw [w2, add_mul, walkSum_scale]
          unfold part
          congr 2
          funext js
          rw [List.map_map]
          refine List.map_congr_left fun d _ => ?_
          simp only [Function.comp, Prod.mk.injEq, true_and]; ring
      obtain ⟨s1, a1, a2⟩ := h1
      obtain ⟨s2, b1, b2⟩ := ih (fun x hx => hl x (by simp [hx])) s1
      refine ⟨s2, ?_, ?_⟩
      · rw [List.foldlM_cons, a1]; exact b1
      · rw [b2, a2, List.map_cons, List.sum_cons]; ring
  obtain ⟨s, e1, e2⟩ := key E.constraints hp (0, fun _ => 0)
  unfold getGradient
  rw [e1, Option.map_some]
  refine ⟨_, _, rfl, ?_⟩
  simp only [zero_add, zero_mul, Finset.sum_const_zero] at e2 ⊢
  rw [← e2, Finset.sum_mul]
  exact Finset.sum_congr rfl fun k _ => by ring

/-- The same values as Jets. -/
noncomputable def dj (pos diff : Vec3 Jet) (wgt : Jet) (js : JointState) : List (Nat × Jet) :=
  let posd := pos - js.transform.translation.toJet
  [(0, diff.dot (js.translationAxis 0).toJet * wgt), (3, diff.dot (rotationDerivativeJet js 0 posd) * wgt),
    (1, diff.dot (js.translationAxis 1).toJet * wgt), (4, diff.dot (rotationDerivativeJet js 1 posd) * wgt),
    (2, diff.dot (js.translationAxis 2).toJet * wgt), (5, diff.dot (rotationDerivativeJet js 2 posd) * wgt),
    (6, diff.dot (scaleDerivativeJet posd) * wgt)]

/-- `calculatePositionGradient_dot` follows what a constraint adds. -/
theorem gradientDot_tracks {E : DiffPosition} {st : List JointState} {ch : Nat → List Nat} (h : E.Sound st ch) {parent : Nat}
    (hp : parent < E.skeleton.joints.length) (v : Nat → ℝ) {o tg : ℝ → Vec3 ℝ} {w : ℝ → ℝ} {oj tj : Vec3 Jet} {wj : Jet} {t : ℝ}
    (ho : TracksV o oj t) (ht : TracksV tg tj t) (hw : Tracks w wj t) :
    ∃ r, E.gradientDot st parent wj oj tj v = some r ∧ Tracks (fun u => E.part st ch v ⟨o u, tg u, parent, w u⟩) r t := by
  have hst : st[parent]? = some (stateAt st parent) := by
    have : parent < st.length := by rw [h.length]; exact hp
    rw [stateAt_eq (List.getElem?_eq_getElem this)]; exact List.getElem?_eq_getElem this
  set T := (stateAt st parent).transform with hT
  set posj := T.toJet.transformPoint oj with hposj
  set W : Jet := .ofReal E.weight * wj * .ofReal 2 * .ofReal kDiffPositionWeight with hW
  have hpos : TracksV (fun u => T.transformPoint (o u)) posj t := ho.transformPoint T
  have hWt : Tracks (fun u => E.weight * w u * 2 * kDiffPositionWeight) W t :=
    (((Tracks.const _ _).mul hw).mul (Tracks.const _ _)).mul (Tracks.const _ _)
  refine ⟨walkSum E.activeJointParams st (fun r => Jet.ofReal (rowDot E.transform v r)) (ch parent) (dj posj (posj - tj) W), ?_, ?_⟩
  · unfold gradientDot
    rw [hst, Option.bind_some]
    refine h.walkJet v (fun js hjs => ?_) (fun js _ d hd => ?_) hp
    · simp [dotDofs, dj, JointState.getTranslationDerivative, h.clean js hjs]
      exact ⟨rfl, rfl, rfl, rfl, rfl, rfl, rfl⟩
    · revert d; simp [dj]
  · show Tracks (fun u => walkSum E.activeJointParams st (rowDot E.transform v) (ch parent) fun js =>
      (dv (T.transformPoint (o u)) (T.transformPoint (o u) - tg u) js).map fun d =>
        (d.1, d.2 * (E.weight * w u * 2 * kDiffPositionWeight))) _ t
    refine Tracks.walkSum fun js => ?_
    have hd := hpos.sub ht
    have hpd := hpos.sub (TracksV.const js.transform.translation t)
    have ct := fun i => (hd.dot (TracksV.const (js.translationAxis i) t)).mul hWt
    have cr := fun i => (hd.dot ((TracksV.const (js.rotationAxis i) t).cross hpd)).mul hWt
    have cs := (hd.dot (TracksV.smul (Tracks.const (Real.log 2) t) hpd)).mul hWt
    refine ⟨[(0, _, _), (3, _, _), (1, _, _), (4, _, _), (2, _, _), (5, _, _), (6, _, _)], fun u => rfl, rfl, ?_⟩
    simp only [List.mem_cons, List.not_mem_nil, or_false, forall_eq_or_imp, forall_eq]
    exact ⟨ct 0, cr 0, ct 1, cr 1, ct 2, cr 2, cs⟩

theorem isInputDerivative {E : DiffPosition} {st : List JointState} {ch : Nat → List Nat} (h : E.Sound st ch)
    (hp : ∀ c ∈ E.constraints, c.parent < E.skeleton.joints.length) (v : Nat → ℝ) {name : String} {x : List ℝ}
    (hx : E.getInput name = some x) : ∃ d, E.dGradientDot name st v = some d ∧
      IsInputDerivative (E.setInput name) (fun E' => (E'.getGradient st fun _ => 0).map (·.2)) E.transform.cols v x d := by
  have hg : ∀ cs : List DiffPosConstraint, (∀ c ∈ cs, c.parent < E.skeleton.joints.length) →
      ∃ g, (({ E with constraints := cs } : DiffPosition).getGradient st fun _ => 0).map (·.2) = some g ∧
        ∑ k ∈ range E.transform.cols, g k * v k = (cs.map (E.part st ch v)).sum := by
    intro cs hcs
    obtain ⟨e, g, h1, h2⟩ := getGradient_dot (E := { E with constraints := cs }) h hcs v
    exact ⟨g, by rw [h1]; rfl, h2⟩
  have hmap : ∀ (f : Nat → DiffPosConstraint → DiffPosConstraint), (∀ i c, (f i c).parent = c.parent) →
      ∀ c ∈ E.constraints.mapIdx f, c.parent < E.skeleton.joints.length := by
    intro f hf c hc
    obtain ⟨i, hi, rfl⟩ := List.mem_mapIdx.1 hc
    rw [hf]; exact hp _ (List.getElem_mem _)
  by_cases n1 : name = "weights"
  · subst n1
    simp only [getInput, if_true, Option.some.injEq] at hx
    have e1 : x = E.constraints.flatMap fun c => [c.weight] := by rw [← hx]; exact List.map_eq_flatMap
    refine ⟨E.constraints.flatMap fun c =>
      [((E.gradientDot st c.parent (.var c.weight true) c.offset.toJet c.target.toJet v).getD 0).snd], ?_, ?_⟩
    · unfold dGradientDot
      rw [if_pos (by decide), mapM_of_forall (g := fun c =>
        [((E.gradientDot st c.parent (.var c.weight true) c.offset.toJet c.target.toJet v).getD 0).snd])]
      · simp [List.flatMap]
      · intro c hc
        obtain ⟨r, r1, -⟩ := gradientDot_tracks h (hp c hc) v (TracksV.const c.offset c.weight) (TracksV.const c.target c.weight)
          (Tracks.var c.weight true c.weight fun _ => rfl)
        simp [constraintDot, r1]
    · subst e1
      refine blocked_input (k := 1) (E.part st ch v) (fun c f => { c with weight := f 0 }) _ _ (fun _ => rfl) (fun _ => rfl) _ 0 ?_ ?_
      · intro c hc j
        obtain ⟨r, r1, r2⟩ := gradientDot_tracks h (hp c hc) v (TracksV.const c.offset c.weight) (TracksV.const c.target c.weight)
          (Tracks.var c.weight true c.weight fun _ => rfl)
        fin_cases j
        simpa [r1] using r2.2
      · intro y hy
        obtain ⟨g, g1, g2⟩ := hg (E.constraints.mapIdx fun i c => { c with weight := y.getD i 0 }) (hmap _ fun _ _ => rfl)
        refine ⟨{ E with constraints := E.constraints.mapIdx fun i c => { c with weight := y.getD i 0 } }, g, ?_, g1, ?_⟩
        · simp [setInput, getInputSize, setInputImp]; omega
        · rw [g2]; simp
  by_cases n2 : name = "offsets"
  · subst n2
    simp only [getInput, if_neg n1, if_true, Option.some.injEq] at hx
    subst hx
    have ht := fun (c : DiffPosConstraint) (hc : c ∈ E.constraints) (k : Nat) (t : ℝ) h0 h1 h2 =>
      gradientDot_tracks h (hp c hc) v (TracksV.build c.offset k t h0 h1 h2) (TracksV.const c.target t) (Tracks.const c.weight t)
    set J : DiffPosConstraint → Nat → Option Jet := fun c k =>
      E.gradientDot st c.parent (.ofReal c.weight) (buildJetVec3 c.offset k) c.target.toJet v with hJ
    refine ⟨E.constraints.flatMap fun c => ([0, 1, 2] : List Nat).map fun k => ((J c k).getD 0).snd, ?_, ?_⟩
    · unfold dGradientDot
      rw [if_pos (by decide), mapM_of_forall (g := fun c => ([0, 1, 2] : List Nat).map fun k => ((J c k).getD 0).snd)]
      · simp [List.flatMap]
      · intro c hc
        obtain ⟨r0, a0, -⟩ := ht c hc 0 c.offset.x (by simp) (by simp) (by simp)
        obtain ⟨r1, a1, -⟩ := ht c hc 1 c.offset.y (by simp) (by simp) (by simp)
        obtain ⟨r2, a2, -⟩ := ht c hc 2 c.offset.z (by simp) (by simp) (by simp)
        simp [constraintDot, hJ, a0, a1, a2]
    · refine blocked_input (k := 3) (E.part st ch v) (fun c f => { c with offset := ⟨f 0, f 1, f 2⟩ }) _ _ (fun _ => rfl) (fun _ => rfl)
        _ 0 ?_ ?_
      · intro c hc j
        obtain ⟨r0, a0, b0⟩ := ht c hc 0 c.offset.x (by simp) (by simp) (by simp)
        obtain ⟨r1, a1, b1⟩ := ht c hc 1 c.offset.y (by simp) (by simp) (by simp)
        obtain ⟨r2, a2, b2⟩ := ht c hc 2 c.offset.z (by simp) (by simp) (by simp)
        fin_cases j
        · simpa [hJ, a0, Function.update] using b0.2
        · simpa [hJ, a1, Function.update] using b1.2
        · simpa [hJ, a2, Function.update] using b2.2
      · intro y hy
        obtain ⟨g, g1, g2⟩ := hg (E.constraints.mapIdx fun i c => { c with offset := listSegment3 y i }) (hmap _ fun _ _ => rfl)
        refine ⟨{ E with constraints := E.constraints.mapIdx fun i c => { c with offset := listSegment3 y i } }, g, ?_, g1, ?_⟩
        · simp [setInput, getInputSize, setInputImp]; omega
        · rw [g2, zero_add]; rfl
  by_cases n3 : name = "targets"
  · subst n3
    simp only [getInput, if_neg n1, if_neg n2, if_true, Option.some.injEq] at hx
    subst hx
    have ht := fun (c : DiffPosConstraint) (hc : c ∈ E.constraints) (k : Nat) (t : ℝ) h0 h1 h2 =>
      gradientDot_tracks h (hp c hc) v (TracksV.const c.offset t) (TracksV.build c.target k t h0 h1 h2) (Tracks.const c.weight t)
    set J : DiffPosConstraint → Nat → Option Jet := fun c k =>
      E.gradientDot st c.parent (.ofReal c.weight) c.offset.toJet (buildJetVec3 c.target k) v with hJ
    refine ⟨E.constraints.flatMap fun c => ([0, 1, 2] : List Nat).map fun k => ((J c k).getD 0).snd, ?_, ?_⟩
    · unfold dGradientDot
      rw [if_pos (by decide), mapM_of_forall (g := fun c => ([0, 1, 2] : List Nat).map fun k => ((J c k).getD 0).snd)]
      · simp [List.flatMap]
      · intro c hc
        obtain ⟨r0, a0, -⟩ := ht c hc 0 c.target.x (by simp) (by simp) (by simp)
        obtain ⟨r1, a1, -⟩ := ht c hc 1 c.target.y (by simp) (by simp) (by simp)
        obtain ⟨r2, a2, -⟩ := ht c hc 2 c.target.z (by simp) (by simp) (by simp)
        simp [constraintDot, hJ, a0, a1, a2]
    · refine blocked_input (k := 3) (E.part st ch v) (fun c f => { c with target := ⟨f 0, f 1, f 2⟩ }) _ _ (fun _ => rfl) (fun _ => rfl)
        _ 0 ?_ ?_
      · intro c hc j
        obtain ⟨r0, a0, b0⟩ := ht c hc 0 c.target.x (by simp) (by simp) (by simp)
        obtain ⟨r1, a1, b1⟩ := ht c hc 1 c.target.y (by simp) (by simp) (by simp)
        obtain ⟨r2, a2, b2⟩ := ht c hc 2 c.target.z (by simp) (by simp) (by simp)
        fin_cases j
        · simpa [hJ, a0, Function.update] using b0.2
        · simpa [hJ, a1, Function.update] using b1.2
        · simpa [hJ, a2, Function.update] using b2.2
      · intro y hy
        obtain ⟨g, g1, g2⟩ := hg (E.constraints.mapIdx fun i c => { c with target := listSegment3 y i }) (hmap _ fun _ _ => rfl)
        refine ⟨{ E with constraints := E.constraints.mapIdx fun i c => { c with target := listSegment3 y i } }, g, ?_, g1, ?_⟩
        · simp [setInput, getInputSize, setInputImp]; omega
        · rw [g2, zero_add]; rfl
  · simp [getInput, n1, n2, n3] at hx

end DiffPosition

end Momentum
