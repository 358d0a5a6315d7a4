import Verif.Lemmas.DiffConstraints2

/-!
# Orientation constraints with Jets
-/

namespace Momentum
open Skeleton Finset

namespace DiffOrientation

/-- The derivatives of half the squared distance of the matrices in the degrees of freedom of a joint. -/
noncomputable def dv (rot diff : Mat3 ℝ) (js : JointState) : List (Nat × ℝ) :=
  [(3, 2 * ((crossProductMatrix (js.rotationAxis 0)).mul rot).sumProd diff),
    (4, 2 * ((crossProductMatrix (js.rotationAxis 1)).mul rot).sumProd diff),
    (5, 2 * ((crossProductMatrix (js.rotationAxis 2)).mul rot).sumProd diff)]

theorem gradDofs_eq (rot diff : Mat3 ℝ) (wgt : ℝ) (js : JointState) :
    gradDofs rot diff wgt js = (((dv rot diff js).map fun d => (d.1, d.2 * wgt)).map fun d => (d.1, some d.2)) := by
  simp [gradDofs, dv]
  refine ⟨?_, ?_, ?_⟩ <;> ring

theorem dv_lt {rot diff : Mat3 ℝ} {js : JointState} {wgt : ℝ} : ∀ d ∈ (dv rot diff js).map fun d => (d.1, d.2 * wgt), d.1 < 7 := by
  simp [dv]

/-- What constraint `c` adds to the product of the gradient with `v`. -/
noncomputable def part (E : DiffOrientation) (st : List JointState) (ch : Nat → List Nat) (v : Nat → ℝ) (c : DiffRotConstraint) : ℝ :=
  let rot := ((stateAt st c.parent).transform.rotation * c.offset).toMat
  walkSum E.activeJointParams st (rowDot E.transform v) (ch c.parent)
    (fun js => (dv rot (rot.minus c.target.toMat) js).map fun d => (d.1, d.2 * (E.weight * kDiffOrientationWeight * c.weight)))

theorem getGradient_dot {E : DiffOrientation} {st : List JointState} {ch : Nat → List Nat} (h : E.Sound st ch)
    (hp : ∀ c ∈ E.constraints, c.parent < E.skeleton.joints.length) (v : Nat → ℝ) :
    ∃ e g, E.getGradient st (fun _ => 0) = some (e, g) ∧
      ∑ k ∈ range E.transform.cols, g k * v k = (E.constraints.map (E.part st ch v)).sum := by
  have key : ∀ (l : List DiffRotConstraint), (∀ c ∈ l, c.parent < E.skeleton.joints.length) → ∀ s : ℝ × (Nat → ℝ),
      ∃ s', l.foldlM (E.gradStep st) s = some s' ∧
        (∑ k ∈ range E.transform.cols, s'.2 k * v k) * E.weight =
          (∑ k ∈ range E.transform.cols, s.2 k * v k) * E.weight + (l.map (E.part st ch v)).sum := by
    intro l
    induction l with
    | nil => intro _ s; exact ⟨s, rfl, by simp⟩
    | cons c l ih =>
      intro hl s
      have hcp := hl c (by simp)
      have hst : st[c.parent]? = some (stateAt st c.parent) := by
        have : c.parent < st.length := by rw [h.length]; exact hcp
        rw [stateAt_eq (List.getElem?_eq_getElem this)]; exact List.getElem?_eq_getElem this
      have h1 : ∃ s1, E.gradStep st s c = some s1 ∧
          (∑ k ∈ range E.transform.cols, s1.2 k * v k) * E.weight =
            (∑ k ∈ range E.transform.cols, s.2 k * v k) * E.weight + E.part st ch v c := by
        unfold gradStep rotation
        rw [hst, Option.map_some, Option.bind_some]
        by_cases hw : c.weight = 0
        · rw [if_pos hw]
          refine ⟨s, rfl, ?_⟩
          unfold part
          rw [← walkSum_scale]; simp [hw]
        · rw [if_neg hw]
          obtain ⟨g', w1, w2⟩ := h.walk v (dofs := gradDofs _ _ (kDiffOrientationWeight * c.weight))
            (fun js _ => gradDofs_eq ((stateAt st c.parent).transform.rotation * c.offset).toMat
              (((stateAt st c.parent).transform.rotation * c.offset).toMat.minus c.target.toMat) _ js)
            (fun js _ => dv_lt) hcp s.2
          simp only
          rw [w1]
          refine ⟨_, rfl, ?_⟩
          show (∑ k ∈ range E.transform.cols, g' k * v k) * E.weight = _
          rw [w2, add_mul, walkSum_scale]
          unfold part
          congr 2
          funext js
          rw [List.map_map]
          refine List.map_congr_left fun d _ => ?_
          simp only [Function.comp, Prod.mk.injEq, true_and]; ring
      obtain ⟨s1, a1, a2⟩ := h1
      obtain ⟨s2, b1, b2⟩ := ih (fun x hx => hl x (by simp [hx])) s1
      refine ⟨s2, ?_, ?_⟩
      · rw [List.foldlM_cons, a1]; exact b1
      · rw [b2, a2, List.map_cons, List.sum_cons]; ring
  obtain ⟨s, e1, e2⟩ := key E.constraints hp (0, fun _ => 0)
  unfold getGradient
  rw [e1, Option.map_some]
  refine ⟨_, _, rfl, ?_⟩
  simp only [zero_add, zero_mul, Finset.sum_const_zero] at e2 ⊢
  rw [← e2, Finset.sum_mul]
  exact Finset.sum_congr rfl fun k _ => by ring

/-- The same values as Jets. -/
noncomputable def dj (rot diff : Mat3 Jet) (wgt : Jet) (js : JointState) : List (Nat × Jet) :=
  [(3, .ofReal 2 * wgt * ((crossMatJet (js.rotationAxis 0).toJet).mul rot).sumProd diff),
    (4, .ofReal 2 * wgt * ((crossMatJet (js.rotationAxis 1).toJet).mul rot).sumProd diff),
    (5, .ofReal 2 * wgt * ((crossMatJet (js.rotationAxis 2).toJet).mul rot).sumProd diff)]

/-- `calculateOrientationGradient_dot` follows what a constraint adds. -/
theorem gradientDot_tracks {E : DiffOrientation} {st : List JointState} {ch : Nat → List Nat} (h : E.Sound st ch) {parent : Nat}
    (hp : parent < E.skeleton.joints.length) (v : Nat → ℝ) {o tg : ℝ → Quat ℝ} {w : ℝ → ℝ} {oj tj : Quat Jet} {wj : Jet} {t : ℝ}
    (ho : TracksQ o oj t) (ht : TracksQ tg tj t) (hw : Tracks w wj t) :
    ∃ r, E.gradientDot st parent wj oj tj v = some r ∧ Tracks (fun u => E.part st ch v ⟨o u, tg u, parent, w u⟩) r t := by
  have hst : st[parent]? = some (stateAt st parent) := by
    have : parent < st.length := by rw [h.length]; exact hp
    rw [stateAt_eq (List.getElem?_eq_getElem this)]; exact List.getElem?_eq_getElem this
  set T := (stateAt st parent).transform.rotation with hT
  set rotj := (T.toJet * oj).toMat with hrotj
  set W : Jet := .ofReal E.weight * .ofReal kDiffOrientationWeight * wj with hW
  have hrot : TracksM (fun u => (T * o u).toMat) rotj t := ((TracksQ.const T t).mul ho).toMat
  have hWt : Tracks (fun u => E.weight * kDiffOrientationWeight * w u) W t :=
    ((Tracks.const _ _).mul (Tracks.const _ _)).mul hw
  refine ⟨walkSum E.activeJointParams st (fun r => Jet.ofReal (rowDot E.transform v r)) (ch parent)
    (dj rotj (rotj.minus tj.toMat) W), ?_, ?_⟩
  · unfold gradientDot
    rw [hst, Option.bind_some]
    refine h.walkJet v (fun js hjs => ?_) (fun js _ d hd => ?_) hp
    · rfl
    · revert d; simp [dj]
  · show Tracks (fun u => walkSum E.activeJointParams st (rowDot E.transform v) (ch parent) fun js =>
      (dv (T * o u).toMat ((T * o u).toMat.minus (tg u).toMat) js).map fun d =>
        (d.1, d.2 * (E.weight * kDiffOrientationWeight * w u))) _ t
    refine Tracks.walkSum fun js => ?_
    have cr := fun i => ((Tracks.const 2 t).mul hWt).mul (((TracksM.cross (js.rotationAxis i) t).mul hrot).sumProd (hrot.minus ht.toMat))
    let f : Fin 3 → ℝ → ℝ := fun i u => 2 * (E.weight * kDiffOrientationWeight * w u) *
      ((crossProductMatrix (js.rotationAxis i)).mul (T * o u).toMat).sumProd ((T * o u).toMat.minus (tg u).toMat)
    refine ⟨[(3, f 0, _), (4, f 1, _), (5, f 2, _)], fun u => ?_, rfl, ?_⟩
    · simp [dv, f]
      refine ⟨?_, ?_, ?_⟩ <;> ring
    · simp only [List.mem_cons, List.not_mem_nil, or_false, forall_eq_or_imp, forall_eq]
      exact ⟨cr 0, cr 1, cr 2⟩

theorem isInputDerivative {E : DiffOrientation} {st : List JointState} {ch : Nat → List Nat} (h : E.Sound st ch)
    (hp : ∀ c ∈ E.constraints, c.parent < E.skeleton.joints.length) (v : Nat → ℝ) {name : String} {x : List ℝ}
    (hx : E.getInput name = some x) (h1 : name = "offsets" → ∀ c ∈ E.constraints, 0 < c.offset.normSq)
    (h2 : name = "targets" → ∀ c ∈ E.constraints, 0 < c.target.normSq) : ∃ d, E.dGradientDot name st v = some d ∧
      IsInputDerivative (E.setInput name) (fun E' => (E'.getGradient st fun _ => 0).map (·.2)) E.transform.cols v x d := by
  have hg : ∀ cs : List DiffRotConstraint, (∀ c ∈ cs, c.parent < E.skeleton.joints.length) →
      ∃ g, (({ E with constraints := cs } : DiffOrientation).getGradient st fun _ => 0).map (·.2) = some g ∧
        ∑ k ∈ range E.transform.cols, g k * v k = (cs.map (E.part st ch v)).sum := by
    intro cs hcs
    obtain ⟨e, g, q1, q2⟩ := getGradient_dot (E := { E with constraints := cs }) h hcs v
    exact ⟨g, by rw [q1]; rfl, q2⟩
  have hmap : ∀ (f : Nat → DiffRotConstraint → DiffRotConstraint), (∀ i c, (f i c).parent = c.parent) →
      ∀ c ∈ E.constraints.mapIdx f, c.parent < E.skeleton.joints.length := by
    intro f hf c hc
    obtain ⟨i, hi, rfl⟩ := List.mem_mapIdx.1 hc
    rw [hf]; exact hp _ (List.getElem_mem _)
  by_cases n1 : name = "weights"
  · subst n1
    simp only [getInput, if_true, Option.some.injEq] at hx
    have e1 : x = E.constraints.flatMap fun c => [c.weight] := by rw [← hx]; exact List.map_eq_flatMap
    refine ⟨E.constraints.flatMap fun c =>
      [((E.gradientDot st c.parent (.var c.weight true) c.offset.toJet c.target.toJet v).getD 0).snd], ?_, ?_⟩
    · unfold dGradientDot
      rw [if_pos (by decide), mapM_of_forall (g := fun c =>
        [((E.gradientDot st c.parent (.var c.weight true) c.offset.toJet c.target.toJet v).getD 0).snd])]
      · simp [List.flatMap]
      · intro c hc
        obtain ⟨r, r1, -⟩ := gradientDot_tracks h (hp c hc) v (TracksQ.const c.offset c.weight) (TracksQ.const c.target c.weight)
          (Tracks.var c.weight true c.weight fun _ => rfl)
        simp [constraintDot, r1]
    · subst e1
      refine blocked_input (k := 1) (E.part st ch v) (fun c f => { c with weight := f 0 }) _ _ (fun _ => rfl) (fun _ => rfl) _ 0 ?_ ?_
      · intro c hc j
        obtain ⟨r, r1, r2⟩ := gradientDot_tracks h (hp c hc) v (TracksQ.const c.offset c.weight) (TracksQ.const c.target c.weight)
          (Tracks.var c.weight true c.weight fun _ => rfl)
        fin_cases j
        simpa [r1] using r2.2
      · intro y hy
        obtain ⟨g, g1, g2⟩ := hg (E.constraints.mapIdx fun i c => { c with weight := y.getD i 0 }) (hmap _ fun _ _ => rfl)
        refine ⟨{ E with constraints := E.constraints.mapIdx fun i c => { c with weight := y.getD i 0 } }, g, ?_, g1, ?_⟩
        · simp [setInput, getInputSize, setInputImp]; omega
        · rw [g2]; simp
  by_cases n2 : name = "offsets"
  · subst n2
    simp only [getInput, if_neg n1, if_true, Option.some.injEq] at hx
    subst hx
    have ht := fun (c : DiffRotConstraint) (hc : c ∈ E.constraints) (k : Nat) (t : ℝ) h0 h1 h2 h3 hn =>
      gradientDot_tracks h (hp c hc) v ((TracksQ.build c.offset k t h0 h1 h2 h3).normalized hn) (TracksQ.const c.target t) (Tracks.const c.weight t)
    set J : DiffRotConstraint → Nat → Option Jet := fun c k =>
      E.gradientDot st c.parent (.ofReal c.weight) (buildJetQuat c.offset k).normalizedJet c.target.toJet v with hJ
    refine ⟨E.constraints.flatMap fun c => ([0, 1, 2, 3] : List Nat).map fun k => ((J c k).getD 0).snd, ?_, ?_⟩
    · unfold dGradientDot
      rw [if_pos (by decide), mapM_of_forall (g := fun c => ([0, 1, 2, 3] : List Nat).map fun k => ((J c k).getD 0).snd)]
      · simp [List.flatMap]
      · intro c hc
        obtain ⟨r0, a0, -⟩ := ht c hc 0 c.offset.x (by simp) (by simp) (by simp) (by simp) (by simpa using h1 rfl c hc)
        obtain ⟨r1, a1, -⟩ := ht c hc 1 c.offset.y (by simp) (by simp) (by simp) (by simp) (by simpa using h1 rfl c hc)
        obtain ⟨r2, a2, -⟩ := ht c hc 2 c.offset.z (by simp) (by simp) (by simp) (by simp) (by simpa using h1 rfl c hc)
        obtain ⟨r3, a3, -⟩ := ht c hc 3 c.offset.w (by simp) (by simp) (by simp) (by simp) (by simpa using h1 rfl c hc)
        simp [constraintDot, hJ, a0, a1, a2, a3]
    · refine blocked_input (k := 4) (E.part st ch v) (fun c f => { c with offset := Quat.normalized ⟨f 3, f 0, f 1, f 2⟩ }) _ _ (fun _ => rfl) (fun _ => rfl)
        _ 0 ?_ ?_
      · intro c hc j
        obtain ⟨r0, a0, b0⟩ := ht c hc 0 c.offset.x (by simp) (by simp) (by simp) (by simp) (by simpa using h1 rfl c hc)
        obtain ⟨r1, a1, b1⟩ := ht c hc 1 c.offset.y (by simp) (by simp) (by simp) (by simp) (by simpa using h1 rfl c hc)
        obtain ⟨r2, a2, b2⟩ := ht c hc 2 c.offset.z (by simp) (by simp) (by simp) (by simp) (by simpa using h1 rfl c hc)
        obtain ⟨r3, a3, b3⟩ := ht c hc 3 c.offset.w (by simp) (by simp) (by simp) (by simp) (by simpa using h1 rfl c hc)
        fin_cases j
        · simpa [hJ, a0, Function.update, Quat.coeffs] using b0.2
        · simpa [hJ, a1, Function.update, Quat.coeffs] using b1.2
        · simpa [hJ, a2, Function.update, Quat.coeffs] using b2.2
        · simpa [hJ, a3, Function.update, Quat.coeffs] using b3.2
      · intro y hy
        obtain ⟨g, g1, g2⟩ := hg (E.constraints.mapIdx fun i c => { c with offset := (listSegment4 y i).normalized }) (hmap _ fun _ _ => rfl)
        refine ⟨{ E with constraints := E.constraints.mapIdx fun i c => { c with offset := (listSegment4 y i).normalized } }, g, ?_, g1, ?_⟩
        · simp [setInput, getInputSize, setInputImp]; omega
        · rw [g2, zero_add]; rfl
  by_cases n3 : name = "targets"
  · subst n3
    simp only [getInput, if_neg n1, if_neg n2, if_true, Option.some.injEq] at hx
    subst hx
    have ht := fun (c : DiffRotConstraint) (hc : c ∈ E.constraints) (k : Nat) (t : ℝ) h0 h1 h2 h3 hn =>
      gradientDot_tracks h (hp c hc) v (TracksQ.const c.offset t) ((TracksQ.build c.target k t h0 h1 h2 h3).normalized hn) (Tracks.const c.weight t)
    set J : DiffRotConstraint → Nat → Option Jet := fun c k =>
      E.gradientDot st c.parent (.ofReal c.weight) c.offset.toJet (buildJetQuat c.target k).normalizedJet v with hJ
    refine ⟨E.constraints.flatMap fun c => ([0, 1, 2, 3] : List Nat).map fun k => ((J c k).getD 0).snd, ?_, ?_⟩
    · unfold dGradientDot
      rw [if_pos (by decide), mapM_of_forall (g := fun c => ([0, 1, 2, 3] : List Nat).map fun k => ((J c k).getD 0).snd)]
      · simp [List.flatMap]
      · intro c hc
        obtain ⟨r0, a0, -⟩ := ht c hc 0 c.target.x (by simp) (by simp) (by simp) (by simp) (by simpa using h2 rfl c hc)
        obtain ⟨r1, a1, -⟩ := ht c hc 1 c.target.y (by simp) (by simp) (by simp) (by simp) (by simpa using h2 rfl c hc)
        obtain ⟨r2, a2, -⟩ := ht c hc 2 c.target.z (by simp) (by simp) (by simp) (by simp) (by simpa using h2 rfl c hc)
        obtain ⟨r3, a3, -⟩ := ht c hc 3 c.target.w (by simp) (by simp) (by simp) (by simp) (by simpa using h2 rfl c hc)
        simp [constraintDot, hJ, a0, a1, a2, a3]
    · refine blocked_input (k := 4) (E.part st ch v) (fun c f => { c with target := Quat.normalized ⟨f 3, f 0, f 1, f 2⟩ }) _ _ (fun _ => rfl) (fun _ => rfl)
        _ 0 ?_ ?_
      · intro c hc j
        obtain ⟨r0, a0, b0⟩ := ht c hc 0 c.target.x (by simp) (by simp) (by simp) (by simp) (by simpa using h2 rfl c hc)
        obtain ⟨r1, a1, b1⟩ := ht c hc 1 c.target.y (by simp) (by simp) (by simp) (by simp) (by simpa using h2 rfl c hc)
        obtain ⟨r2, a2, b2⟩ := ht c hc 2 c.target.z (by simp) (by simp) (by simp) (by simp) (by simpa using h2 rfl c hc)
        obtain ⟨r3, a3, b3⟩ := ht c hc 3 c.target.w (by simp) (by simp) (by simp) (by simp) (by simpa using h2 rfl c hc)
        fin_cases j
        · simpa [hJ, a0, Function.update, Quat.coeffs] using b0.2
        · simpa [hJ, a1, Function.update, Quat.coeffs] using b1.2
        · simpa [hJ, a2, Function.update, Quat.coeffs] using b2.2
        · simpa [hJ, a3, Function.update, Quat.coeffs] using b3.2
      · intro y hy
        obtain ⟨g, g1, g2⟩ := hg (E.constraints.mapIdx fun i c => { c with target := (listSegment4 y i).normalized }) (hmap _ fun _ _ => rfl)
        refine ⟨{ E with constraints := E.constraints.mapIdx fun i c => { c with target := (listSegment4 y i).normalized } }, g, ?_, g1, ?_⟩
        · simp [setInput, getInputSize, setInputImp]; omega
        · rw [g2, zero_add]; rfl
  · simp [getInput, n1, n2, n3] at hx

end DiffOrientation

end Momentum
