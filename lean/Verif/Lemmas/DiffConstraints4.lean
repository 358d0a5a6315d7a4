import Verif.Lemmas.DiffConstraints3
import Verif.Lemmas.StateError2

/-!
# Target states with Jets
-/

namespace Momentum
open Skeleton Finset

theorem Quat.normalized_normalized (q : Quat ℝ) : q.normalized.normalized = q.normalized := by
  by_cases h : 0 < q.normSq
  · have hs : 0 < Real.sqrt q.normSq := Real.sqrt_pos.2 h
    have hq : Real.sqrt q.normSq * Real.sqrt q.normSq = q.normSq := Real.mul_self_sqrt h.le
    have h1 : q.normalized.normSq = 1 := by
      unfold Quat.normalized
      rw [if_pos h]
      have e : (Quat.mk (q.w / Real.sqrt q.normSq) (q.x / Real.sqrt q.normSq) (q.y / Real.sqrt q.normSq)
          (q.z / Real.sqrt q.normSq)).normSq = q.normSq / (Real.sqrt q.normSq * Real.sqrt q.normSq) := by
        generalize Real.sqrt q.normSq = s at hs
        simp only [Quat.normSq]
        field_simp
      rw [e, hq, div_self h.ne']
    have hu : ∀ r : Quat ℝ, r.normSq = 1 → r.normalized = r := by
      intro r hr; unfold Quat.normalized; simp [hr]
    exact hu _ h1
  · have : q.normalized = q := by unfold Quat.normalized; rw [if_neg h]
    rw [this, this]

theorem Quat.normSq_pos_of_ne {q : Quat ℝ} (h : q ≠ ⟨0, 0, 0, 0⟩) : 0 < q.normSq := by
  rcases q with ⟨w, x, y, z⟩
  by_contra hn
  apply h
  simp only [Quat.normSq, not_lt] at hn
  have a1 := mul_self_nonneg w
  have a2 := mul_self_nonneg x
  have a3 := mul_self_nonneg y
  have a4 := mul_self_nonneg z
  have h1 : w = 0 := mul_self_eq_zero.1 (by linarith)
  have h2 : x = 0 := mul_self_eq_zero.1 (by linarith)
  have h3 : y = 0 := mul_self_eq_zero.1 (by linarith)
  have h4 : z = 0 := mul_self_eq_zero.1 (by linarith)
  rw [h1, h2, h3, h4]

theorem Quat.normalized_pos {q : Quat ℝ} (h : 0 < q.normSq) : 0 < q.normalized.normSq := by
  have hs : 0 < Real.sqrt q.normSq := Real.sqrt_pos.2 h
  unfold Quat.normalized
  rw [if_pos h]
  have e : (Quat.mk (q.w / Real.sqrt q.normSq) (q.x / Real.sqrt q.normSq) (q.y / Real.sqrt q.normSq)
      (q.z / Real.sqrt q.normSq)).normSq = q.normSq / (Real.sqrt q.normSq * Real.sqrt q.normSq) := by
    generalize Real.sqrt q.normSq = s at hs
    simp only [Quat.normSq]
    field_simp
  rw [e]
  exact div_pos h (mul_pos hs hs)

theorem TracksM.const (m : Quat ℝ) (t : ℝ) : TracksM (fun _ => m.toMat) m.toJet.toMat t := (TracksQ.const m t).toMat

namespace StateError

theorem flat_sum (a b : Mat3 ℝ) : ∑ i, a.flat i * b.flat i = a.sumProd b := by
  simp [Fin.sum_univ_succ, Mat3.flat, Mat3.col, Vec3.toFn, Fin.divNat, Fin.modNat, Mat3.sumProd]
  ring

/-- The derivatives in the degrees of freedom of a joint. -/
noncomputable def sdv (pos : Vec3 ℝ) (rot : Mat3 ℝ) (diff : Vec3 ℝ) (rotDiff : Mat3 ℝ) (pwgt rwgt : ℝ) (js : JointState) :
    List (Nat × ℝ) :=
  let posd := pos - js.transform.translation
  let r (d : Fin 3) : ℝ := 2 * diff.dot ((js.rotationAxis d).cross posd) * pwgt +
    2 * rwgt * ((crossProductMatrix (js.rotationAxis d)).mul rot).sumProd rotDiff
  [(0, 2 * diff.dot (js.translationAxis 0) * pwgt), (3, r 0), (1, 2 * diff.dot (js.translationAxis 1) * pwgt), (4, r 1),
    (2, 2 * diff.dot (js.translationAxis 2) * pwgt), (5, r 2), (6, 2 * diff.dot (js.getScaleDerivative posd) * pwgt)]

theorem gradDofs_sdv (pos : Vec3 ℝ) (rot : Mat3 ℝ) (diff : Vec3 ℝ) (rotDiff : Mat3 ℝ) (pwgt rwgt : ℝ) {js : JointState}
    (h : js.derivDirty = false) :
    gradDofs pos rot diff rotDiff pwgt rwgt js = (sdv pos rot diff rotDiff pwgt rwgt js).map fun d => (d.1, some d.2) := by
  simp [gradDofs, sdv, JointState.getTranslationDerivative, JointState.getRotationDerivative, h, flat_sum]

theorem sdv_lt {pos : Vec3 ℝ} {rot : Mat3 ℝ} {diff : Vec3 ℝ} {rotDiff : Mat3 ℝ} {pwgt rwgt : ℝ} {js : JointState} :
    ∀ d ∈ sdv pos rot diff rotDiff pwgt rwgt js, d.1 < 7 := by simp [sdv]

/-- What joint `i` adds to the product of the gradient with `v`. -/
noncomputable def part (E : StateError) (st : List JointState) (ch : Nat → List Nat) (v : Nat → ℝ) (i : Nat) (tr : Vec3 ℝ) (q : Quat ℝ)
    (pw rw : ℝ) : ℝ :=
  walkSum E.activeJointParams st (rowDot E.transform v) (ch i)
    (sdv (stateAt st i).transform.translation (stateAt st i).transform.rotation.toMat ((stateAt st i).transform.translation - tr)
      ((stateAt st i).transform.rotation.toMat.minus q.toMat) (kStatePositionWeight * E.posWgt * E.weight * pw)
      (kStateOrientationWeight * E.rotWgt * E.weight * rw))

/-- A joint with its target and its weights (position first). -/
noncomputable def partOf (E : StateError) (st : List JointState) (ch : Nat → List Nat) (v : Nat → ℝ) (a : Nat × Transform ℝ × ℝ × ℝ) : ℝ :=
  E.part st ch v a.1 a.2.1.translation a.2.1.rotation.normalized a.2.2.1 a.2.2.2

theorem walkSum_zero {active : List Bool} {st : List JointState} {w : Nat → ℝ} {l : List Nat} {dv : JointState → List (Nat × ℝ)}
    (h : ∀ js, ∀ d ∈ dv js, d.2 = 0) : walkSum active st w l dv = 0 := by
  unfold walkSum
  refine List.sum_eq_zero fun x hx => ?_
  obtain ⟨a, _, rfl⟩ := List.mem_map.1 hx
  refine List.sum_eq_zero fun y hy => ?_
  obtain ⟨d, hd, rfl⟩ := List.mem_map.1 hy
  rw [h _ d hd]; simp

/-- The part of the product that comes from the targets of the model parameters. -/
noncomputable def paramsPart (E : StateError) (p : List ℝ) (v : Nat → ℝ) : ℝ :=
  ∑ k ∈ range E.transform.cols, 2 * ((E.pdiff p).getD []).getD k 0 * E.weight * v k

theorem getGradient_dot {E : StateError} {st : List JointState} {ch : Nat → List Nat} (h : E.Sound st ch) (hE : E.Sized)
    {p : List ℝ} (hp : p.length = E.transform.cols) (hn : 0 < E.skeleton.joints.length) (v : Nat → ℝ) :
    ∃ e g, E.getGradient p st (fun _ => 0) = some (e, g) ∧
      ∑ k ∈ range E.transform.cols, g k * v k = E.paramsPart p v +
        ((List.range E.skeleton.joints.length).map fun i => E.partOf st ch v (i, E.tgt i, E.pw' i, E.rw' i)).sum := by
  have key : ∀ (l : List Nat), (∀ i ∈ l, i < E.skeleton.joints.length) → ∀ s : ℝ × (Nat → ℝ),
      ∃ s', l.foldlM (E.gradStep st) s = some s' ∧
        ∑ k ∈ range E.transform.cols, s'.2 k * v k =
          ∑ k ∈ range E.transform.cols, s.2 k * v k + (l.map fun i => E.partOf st ch v (i, E.tgt i, E.pw' i, E.rw' i)).sum := by
    intro l
    induction l with
    | nil => intro _ s; exact ⟨s, rfl, by simp⟩
    | cons i l ih =>
      intro hl s
      have hi := hl i (by simp)
      have hst : st[i]? = some (stateAt st i) := by
        have : i < st.length := by rw [h.length]; exact hi
        rw [stateAt_eq (List.getElem?_eq_getElem this)]; exact List.getElem?_eq_getElem this
      have e1 : E.targetState[i]? = some (E.tgt i) := by
        simp [tgt, List.getElem?_eq_getElem (show i < E.targetState.length by rw [hE.state]; exact hi)]
      have e2 : E.targetRotationWeights[i]? = some (E.rw' i) := by
        simp [rw', List.getElem?_eq_getElem (show i < E.targetRotationWeights.length by rw [hE.rot]; exact hi)]
      have e3 : E.targetPositionWeights[i]? = some (E.pw' i) := by
        simp [pw', List.getElem?_eq_getElem (show i < E.targetPositionWeights.length by rw [hE.pos]; exact hi)]
      have hd : E.jointData st i = some (E.tgt i, stateAt st i, E.rw' i, E.pw' i) := by
        simp [jointData, hst, e1, e2, e3]
      have h1 : ∃ s1, E.gradStep st s i = some s1 ∧
          ∑ k ∈ range E.transform.cols, s1.2 k * v k =
            ∑ k ∈ range E.transform.cols, s.2 k * v k + E.partOf st ch v (i, E.tgt i, E.pw' i, E.rw' i) := by
        unfold gradStep
        rw [hd]
        simp only [Option.bind_eq_bind, Option.bind_some]
        by_cases hw : E.rw' i = 0 ∧ E.pw' i = 0
        · rw [if_pos hw]
          refine ⟨s, rfl, ?_⟩
          unfold partOf part
          rw [walkSum_zero, add_zero]
          intro js d hd
          simp only [hw.1, hw.2, mul_zero] at hd
          revert d
          simp [sdv]
        · rw [if_neg hw]
          obtain ⟨g', w1, w2⟩ := h.walk v (dofs := gradDofs (stateAt st i).transform.translation (stateAt st i).transform.rotation.toMat
              (posDiff (E.tgt i) (stateAt st i)) (rotDiff (E.tgt i) (stateAt st i)) (kStatePositionWeight * E.posWgt * E.weight * E.pw' i)
              (kStateOrientationWeight * E.rotWgt * E.weight * E.rw' i))
            (fun js hjs => gradDofs_sdv _ _ _ _ _ _ (h.clean js hjs)) (fun js _ => sdv_lt) hi s.2
          rw [w1]
          exact ⟨_, rfl, w2⟩
      obtain ⟨s1, a1, a2⟩ := h1
      obtain ⟨s2, b1, b2⟩ := ih (fun x hx => hl x (by simp [hx])) s1
      refine ⟨s2, ?_, ?_⟩
      · rw [List.foldlM_cons, a1]; exact b1
      · rw [b2, a2, List.map_cons, List.sum_cons]; ring
  unfold getGradient
  rw [if_neg (by
    have := h.length
    cases st with
    | nil => simp at this; omega
    | cons => simp), if_neg (by
    unfold mismatch
    rw [hE.state, h.length, hE.params, hp]; simp)]
  have hpd : ∃ q, E.pdiff p = some q := by
    unfold pdiff
    rw [hE.weights, hp, if_pos rfl]; exact ⟨_, rfl⟩
  obtain ⟨q, hq⟩ := hpd
  rw [hq]
  simp only [Option.bind_eq_bind, Option.bind_some]
  obtain ⟨s, e1, e2⟩ := key (List.range E.skeleton.joints.length) (fun i hi => by simpa using hi)
    (0 + sqNormList q * E.weight, fun k => 0 + 2 * q.getD k 0 * E.weight)
  refine ⟨s.1, s.2, e1, ?_⟩
  rw [e2]
  simp [paramsPart, hq]

/-- The same values as Jets. -/
noncomputable def sdj (pos : Vec3 ℝ) (rot : Mat3 Jet) (diff : Vec3 Jet) (rotDiff : Mat3 Jet) (pwgt rwgt : Jet) (js : JointState) :
    List (Nat × Jet) :=
  let posd := pos - js.transform.translation
  let r (d : Fin 3) : Jet := .ofReal 2 * diff.dot ((js.rotationAxis d).cross posd).toJet * pwgt +
    .ofReal 2 * rwgt * ((crossMatJet (js.rotationAxis d).toJet).mul rot).sumProd rotDiff
  [(0, .ofReal 2 * diff.dot (js.translationAxis 0).toJet * pwgt), (3, r 0), (1, .ofReal 2 * diff.dot (js.translationAxis 1).toJet * pwgt),
    (4, r 1), (2, .ofReal 2 * diff.dot (js.translationAxis 2).toJet * pwgt), (5, r 2),
    (6, .ofReal 2 * diff.dot (js.getScaleDerivative posd).toJet * pwgt)]

theorem gradientDot_tracks {E : StateError} {st : List JointState} {ch : Nat → List Nat} (h : E.Sound st ch) {i : Nat}
    (hi : i < E.skeleton.joints.length) (v : Nat → ℝ) {tr : ℝ → Vec3 ℝ} {q : ℝ → Quat ℝ} {pw rw : ℝ → ℝ} {tj : Vec3 Jet} {qj : Quat Jet}
    {pj rj : Jet} {t : ℝ} (ht : TracksV tr tj t) (hq : TracksQ q qj t) (hpw : Tracks pw pj t) (hrw : Tracks rw rj t) :
    ∃ r, E.gradientDot st i tj qj pj rj v = some r ∧ Tracks (fun u => E.part st ch v i (tr u) (q u) (pw u) (rw u)) r t := by
  have hst : st[i]? = some (stateAt st i) := by
    have : i < st.length := by rw [h.length]; exact hi
    rw [stateAt_eq (List.getElem?_eq_getElem this)]; exact List.getElem?_eq_getElem this
  set T := (stateAt st i).transform with hT
  set R : Jet := .ofReal kStateOrientationWeight * .ofReal E.rotWgt * .ofReal E.weight * rj with hR
  set P : Jet := .ofReal kStatePositionWeight * .ofReal E.posWgt * .ofReal E.weight * pj with hP
  have hRt : Tracks (fun u => kStateOrientationWeight * E.rotWgt * E.weight * rw u) R t :=
    (((Tracks.const _ _).mul (Tracks.const _ _)).mul (Tracks.const _ _)).mul hrw
  have hPt : Tracks (fun u => kStatePositionWeight * E.posWgt * E.weight * pw u) P t :=
    (((Tracks.const _ _).mul (Tracks.const _ _)).mul (Tracks.const _ _)).mul hpw
  refine ⟨walkSum E.activeJointParams st (fun r => Jet.ofReal (rowDot E.transform v r)) (ch i)
    (sdj T.translation T.rotation.toJet.toMat (T.translation.toJet - tj) (T.rotation.toJet.toMat.minus qj.toMat) P R), ?_, ?_⟩
  · unfold gradientDot
    rw [if_pos h.length, hst, Option.bind_some]
    refine h.walkJet v (fun js hjs => ?_) (fun js _ d hd => ?_) hi
    · simp [dotDofs, sdj, JointState.getTranslationDerivative, JointState.getRotationDerivative, h.clean js hjs]
      exact ⟨rfl, rfl, rfl, rfl, rfl, rfl, rfl⟩
    · revert d; simp [sdj]
  · show Tracks (fun u => walkSum E.activeJointParams st (rowDot E.transform v) (ch i)
      (sdv T.translation T.rotation.toMat (T.translation - tr u) (T.rotation.toMat.minus (q u).toMat)
        (kStatePositionWeight * E.posWgt * E.weight * pw u) (kStateOrientationWeight * E.rotWgt * E.weight * rw u))) _ t
    refine Tracks.walkSum fun js => ?_
    have hd : TracksV (fun u => T.translation - tr u) (T.translation.toJet - tj) t := (TracksV.const T.translation t).sub ht
    have ct := fun w : Vec3 ℝ => ((Tracks.const 2 t).mul (hd.dot (TracksV.const w t))).mul hPt
    have cr := fun i => ((Tracks.const 2 t).mul hRt).mul (((TracksM.cross (js.rotationAxis i) t).mul (TracksM.const T.rotation t)).sumProd
      ((TracksM.const T.rotation t).minus hq.toMat))
    refine ⟨[(0, _, _), (3, _, _), (1, _, _), (4, _, _), (2, _, _), (5, _, _), (6, _, _)], fun u => rfl, rfl, ?_⟩
    simp only [List.mem_cons, List.not_mem_nil, or_false, forall_eq_or_imp, forall_eq]
    exact ⟨ct _, (ct _).add (cr 0), ct _, (ct _).add (cr 1), ct _, (ct _).add (cr 2), ct _⟩

/-- The joints with their targets and weights. -/
noncomputable def items (E : StateError) : List (Nat × Transform ℝ × ℝ × ℝ) :=
  (List.range E.skeleton.joints.length).map fun i => (i, E.tgt i, E.pw' i, E.rw' i)

theorem items_mem {E : StateError} : ∀ a ∈ E.items, a.1 < E.skeleton.joints.length ∧ a = (a.1, E.tgt a.1, E.pw' a.1, E.rw' a.1) := by
  intro a ha
  obtain ⟨i, hi, rfl⟩ := List.mem_map.1 ha
  exact ⟨by simpa using hi, rfl⟩

theorem items_length {E : StateError} : E.items.length = E.skeleton.joints.length := by simp [items]

theorem items_mapIdx {E : StateError} (f : Nat → Nat × Transform ℝ × ℝ × ℝ → Nat × Transform ℝ × ℝ × ℝ) :
    E.items.mapIdx f = (List.range E.skeleton.joints.length).map fun i => f i (i, E.tgt i, E.pw' i, E.rw' i) := by
  apply List.ext_getElem (by simp [items])
  intro i h1 h2
  simp [items]

theorem Sized.tgt {E : StateError} (hE : E.Sized) : ∀ i < E.skeleton.joints.length, E.targetState[i]? = some (E.tgt i) := fun i hi => by
  simp [StateError.tgt, List.getElem?_eq_getElem (show i < E.targetState.length by rw [hE.state]; exact hi)]

theorem Sized.rw {E : StateError} (hE : E.Sized) : ∀ i < E.skeleton.joints.length, E.targetRotationWeights[i]? = some (E.rw' i) :=
  fun i hi => by
    simp [rw', List.getElem?_eq_getElem (show i < E.targetRotationWeights.length by rw [hE.rot]; exact hi)]

theorem Sized.pw {E : StateError} (hE : E.Sized) : ∀ i < E.skeleton.joints.length, E.targetPositionWeights[i]? = some (E.pw' i) :=
  fun i hi => by
    simp [pw', List.getElem?_eq_getElem (show i < E.targetPositionWeights.length by rw [hE.pos]; exact hi)]

theorem setInput_pos {E : StateError} {y : List ℝ} (h : y.length = E.skeleton.joints.length)
    (h2 : E.targetRotationWeights.length = E.skeleton.joints.length) :
    E.setInput "targetPositionWeights" y = some { E with targetPositionWeights := y } := by
  unfold setInput getInputSize setInputImp
  rw [if_pos (Or.inl rfl), Option.bind_some, if_pos h, if_pos rfl, if_pos ⟨h, h2⟩]

theorem setInput_rot {E : StateError} {y : List ℝ} (h : y.length = E.skeleton.joints.length)
    (h2 : E.targetPositionWeights.length = E.skeleton.joints.length) :
    E.setInput "targetRotationWeights" y = some { E with targetRotationWeights := y } := by
  unfold setInput getInputSize setInputImp
  rw [if_pos (Or.inr rfl), Option.bind_some, if_pos h, if_neg (by decide), if_pos rfl, if_pos ⟨h2, h⟩]

theorem setInput_state {E : StateError} {y : List ℝ} (h : y.length = 8 * E.skeleton.joints.length) :
    E.setInput "targetState" y = some { E with targetState := (List.range E.skeleton.joints.length).map (stateSegment y) } := by
  unfold setInput getInputSize setInputImp
  rw [if_neg (by decide), if_pos rfl, Option.bind_some, if_pos h, if_neg (by decide), if_neg (by decide), if_pos rfl]

theorem dGradientDot_items {E : StateError} {name : String} (hnames : name ∈ inputs) {st : List JointState} {v : Nat → ℝ}
    (hne : E.targetState.isEmpty = false) (D : Nat × Transform ℝ × ℝ × ℝ → List ℝ)
    (hD : ∀ i < E.skeleton.joints.length, E.jointDot name st v i = some (D (i, E.tgt i, E.pw' i, E.rw' i))) :
    E.dGradientDot name st v = some (E.items.flatMap D) := by
  unfold dGradientDot
  rw [if_neg (by simp [hne]), if_pos hnames, mapM_of_forall (g := fun i => D (i, E.tgt i, E.pw' i, E.rw' i))
    (fun i hi => hD i (by simpa using hi))]
  simp only [items, List.flatMap, List.map_map, Option.map_some]
  rfl

set_option maxHeartbeats 400000 in
theorem isInputDerivative_targetPositionWeights {E : StateError} {st : List JointState} {ch : Nat → List Nat} (h : E.Sound st ch) (hE : E.Sized)
    {p : List ℝ} (hp : p.length = E.transform.cols) (v : Nat → ℝ) {x : List ℝ}
    (hx : E.getInput "targetPositionWeights" = some x)
    (hpos : 0 < E.skeleton.joints.length) (hne : E.targetState.isEmpty = false) :
    ∃ d, E.dGradientDot "targetPositionWeights" st v = some d ∧
      IsInputDerivative (E.setInput "targetPositionWeights") (fun E' => (E'.getGradient p st fun _ => 0).map (·.2)) E.transform.cols v x d := by
  have hx' : x = E.items.flatMap fun a => [a.2.2.1] := by
    simp only [getInput, if_true, Option.some.injEq] at hx
    rw [← hx, ← List.map_eq_flatMap, items, List.map_map]
    apply List.ext_getElem (by simp [hE.pos])
    intro i h1 h2
    simp [pw', h1]
  have ht := fun i (hi : i < E.skeleton.joints.length) => gradientDot_tracks h hi v (TracksV.const (E.tgt i).translation (E.pw' i))
    (TracksQ.const (E.tgt i).rotation.normalized (E.pw' i)) (Tracks.var (E.pw' i) true (E.pw' i) fun _ => rfl)
    (Tracks.const (E.rw' i) (E.pw' i))
  set D : Nat × Transform ℝ × ℝ × ℝ → List ℝ := fun a => [((E.gradientDot st a.1 a.2.1.translation.toJet
    a.2.1.rotation.normalized.toJet (.var a.2.2.1 true) (.ofReal a.2.2.2) v).getD 0).snd] with hD
  refine ⟨E.items.flatMap D, dGradientDot_items (by decide) hne D fun i hi => ?_, ?_⟩
  · obtain ⟨r, r1, -⟩ := ht i hi
    simp [jointDot, hE.tgt i hi, hE.rw i hi, hE.pw i hi, hD, r1]
  · rw [hx']
    refine blocked_input (k := 1) (E.partOf st ch v) (fun a f => (a.1, a.2.1, f 0, a.2.2.2)) _ D (fun _ => rfl) (fun _ => rfl) E.items
      (E.paramsPart p v) ?_ ?_
    · intro a ha j
      obtain ⟨hi, ha'⟩ := items_mem a ha
      rw [ha']
      obtain ⟨r, r1, r2⟩ := ht a.1 hi
      fin_cases j
      simpa [r1, hD, partOf] using r2.2
    · intro y hy
      rw [items_length, one_mul] at hy
      obtain ⟨e, g, g1, g2⟩ := getGradient_dot (E := { E with targetPositionWeights := y }) h
        ⟨hE.state, hE.params, hE.weights, hy, hE.rot⟩ hp hpos v
      refine ⟨{ E with targetPositionWeights := y }, g, ?_, by rw [g1]; rfl, ?_⟩
      · exact setInput_pos hy hE.rot
      · rw [g2, items_mapIdx, List.map_map]
        simp only [one_mul, Fin.val_zero, add_zero, Function.comp_def]
        rfl

set_option maxHeartbeats 400000 in
theorem isInputDerivative_targetRotationWeights {E : StateError} {st : List JointState} {ch : Nat → List Nat} (h : E.Sound st ch) (hE : E.Sized)
    {p : List ℝ} (hp : p.length = E.transform.cols) (v : Nat → ℝ) {x : List ℝ}
    (hx : E.getInput "targetRotationWeights" = some x)
    (hpos : 0 < E.skeleton.joints.length) (hne : E.targetState.isEmpty = false) :
    ∃ d, E.dGradientDot "targetRotationWeights" st v = some d ∧
      IsInputDerivative (E.setInput "targetRotationWeights") (fun E' => (E'.getGradient p st fun _ => 0).map (·.2)) E.transform.cols v x d := by
  have hx' : x = E.items.flatMap fun a => [a.2.2.2] := by
    simp only [getInput, if_true, Option.some.injEq, if_neg (show ¬ "targetRotationWeights" = "targetPositionWeights" by decide)] at hx
    rw [← hx, ← List.map_eq_flatMap, items, List.map_map]
    apply List.ext_getElem (by simp [hE.rot])
    intro i h1 h2
    simp [rw', h1]
  have ht := fun i (hi : i < E.skeleton.joints.length) => gradientDot_tracks h hi v (TracksV.const (E.tgt i).translation (E.rw' i))
    (TracksQ.const (E.tgt i).rotation.normalized (E.rw' i)) (Tracks.const (E.pw' i) (E.rw' i))
    (Tracks.var (E.rw' i) true (E.rw' i) fun _ => rfl)
  set D : Nat × Transform ℝ × ℝ × ℝ → List ℝ := fun a => [((E.gradientDot st a.1 a.2.1.translation.toJet
    a.2.1.rotation.normalized.toJet (.ofReal a.2.2.1) (.var a.2.2.2 true) v).getD 0).snd] with hD
  refine ⟨E.items.flatMap D, dGradientDot_items (by decide) hne D fun i hi => ?_, ?_⟩
  · obtain ⟨r, r1, -⟩ := ht i hi
    simp [jointDot, hE.tgt i hi, hE.rw i hi, hE.pw i hi, hD, r1]
  · rw [hx']
    refine blocked_input (k := 1) (E.partOf st ch v) (fun a f => (a.1, a.2.1, a.2.2.1, f 0)) _ D (fun _ => rfl) (fun _ => rfl) E.items
      (E.paramsPart p v) ?_ ?_
    · intro a ha j
      obtain ⟨hi, ha'⟩ := items_mem a ha
      rw [ha']
      obtain ⟨r, r1, r2⟩ := ht a.1 hi
      fin_cases j
      simpa [r1, hD, partOf] using r2.2
    · intro y hy
      rw [items_length, one_mul] at hy
      obtain ⟨e, g, g1, g2⟩ := getGradient_dot (E := { E with targetRotationWeights := y }) h
        ⟨hE.state, hE.params, hE.weights, hE.pos, hy⟩ hp hpos v
      refine ⟨{ E with targetRotationWeights := y }, g, ?_, by rw [g1]; rfl, ?_⟩
      · exact setInput_rot hy hE.pos
      · rw [g2, items_mapIdx, List.map_map]
        simp only [one_mul, Fin.val_zero, add_zero, Function.comp_def]
        rfl

set_option maxHeartbeats 400000 in
theorem isInputDerivative_targetState {E : StateError} {st : List JointState} {ch : Nat → List Nat} (h : E.Sound st ch) (hE : E.Sized)
    {p : List ℝ} (hp : p.length = E.transform.cols) (v : Nat → ℝ) {x : List ℝ}
    (hx : E.getInput "targetState" = some x) (hq : ∀ t ∈ E.targetState, 0 < t.rotation.normSq)
    (hpos : 0 < E.skeleton.joints.length) (hne : E.targetState.isEmpty = false) :
    ∃ d, E.dGradientDot "targetState" st v = some d ∧
      IsInputDerivative (E.setInput "targetState") (fun E' => (E'.getGradient p st fun _ => 0).map (·.2)) E.transform.cols v x d := by
  have hx' : x = E.items.flatMap fun a => stateCoeffs a.2.1 := by
    simp only [getInput, if_true, if_neg (show ¬ "targetState" = "targetPositionWeights" by decide),
      if_neg (show ¬ "targetState" = "targetRotationWeights" by decide)] at hx
    rw [mapM_of_forall (g := fun i => stateCoeffs (E.tgt i)) (fun i hi => by rw [hE.tgt i (by simpa using hi)]; rfl)] at hx
    simp only [Option.map_some, Option.some.injEq] at hx
    rw [← hx]
    simp only [items, List.flatMap, List.map_map]
    rfl
  have hqp : ∀ i < E.skeleton.joints.length, 0 < (E.tgt i).rotation.normalized.normSq := fun i hi =>
    Quat.normalized_pos (hq _ (List.mem_of_getElem? (hE.tgt i hi)))
  have ht := fun i (hi : i < E.skeleton.joints.length) (k : Nat) (t : ℝ) h0 h1 h2 => gradientDot_tracks h hi v
    (TracksV.build (E.tgt i).translation k t h0 h1 h2) (TracksQ.const (E.tgt i).rotation.normalized t) (Tracks.const (E.pw' i) t)
    (Tracks.const (E.rw' i) t)
  have hr := fun i (hi : i < E.skeleton.joints.length) (k : Nat) (t : ℝ) h0 h1 h2 h3 hn' => gradientDot_tracks h hi v
    (TracksV.const (E.tgt i).translation t) ((TracksQ.build (E.tgt i).rotation.normalized k t h0 h1 h2 h3).normalized hn')
    (Tracks.const (E.pw' i) t) (Tracks.const (E.rw' i) t)
  set DT : Nat × Transform ℝ × ℝ × ℝ → Nat → Option Jet := fun a k => E.gradientDot st a.1 (buildJetVec3 a.2.1.translation k)
    a.2.1.rotation.normalized.toJet (.ofReal a.2.2.1) (.ofReal a.2.2.2) v with hDT
  set DQ : Nat × Transform ℝ × ℝ × ℝ → Nat → Option Jet := fun a k => E.gradientDot st a.1 a.2.1.translation.toJet
    (buildJetQuat a.2.1.rotation.normalized k).normalizedJet (.ofReal a.2.2.1) (.ofReal a.2.2.2) v with hDQ
  have t0 := fun i (hi : i < E.skeleton.joints.length) => ht i hi 0 (E.tgt i).translation.x (by simp) (by simp) (by simp)
  have t1 := fun i (hi : i < E.skeleton.joints.length) => ht i hi 1 (E.tgt i).translation.y (by simp) (by simp) (by simp)
  have t2 := fun i (hi : i < E.skeleton.joints.length) => ht i hi 2 (E.tgt i).translation.z (by simp) (by simp) (by simp)
  have q0 := fun i (hi : i < E.skeleton.joints.length) => hr i hi 0 (E.tgt i).rotation.normalized.x (by simp) (by simp) (by simp) (by simp)
    (by simpa using hqp i hi)
  have q1 := fun i (hi : i < E.skeleton.joints.length) => hr i hi 1 (E.tgt i).rotation.normalized.y (by simp) (by simp) (by simp) (by simp)
    (by simpa using hqp i hi)
  have q2 := fun i (hi : i < E.skeleton.joints.length) => hr i hi 2 (E.tgt i).rotation.normalized.z (by simp) (by simp) (by simp) (by simp)
    (by simpa using hqp i hi)
  have q3 := fun i (hi : i < E.skeleton.joints.length) => hr i hi 3 (E.tgt i).rotation.normalized.w (by simp) (by simp) (by simp) (by simp)
    (by simpa using hqp i hi)
  set D : Nat × Transform ℝ × ℝ × ℝ → List ℝ := fun a => (([0, 1, 2] : List Nat).map fun k => ((DT a k).getD 0).snd) ++
    (([0, 1, 2, 3] : List Nat).map fun k => ((DQ a k).getD 0).snd) ++ [0] with hD
  refine ⟨E.items.flatMap D, dGradientDot_items (by decide) hne D fun i hi => ?_, ?_⟩
  · obtain ⟨s0, a0, -⟩ := t0 i hi
    obtain ⟨s1, a1, -⟩ := t1 i hi
    obtain ⟨s2, a2, -⟩ := t2 i hi
    obtain ⟨r0, b0, -⟩ := q0 i hi
    obtain ⟨r1, b1, -⟩ := q1 i hi
    obtain ⟨r2, b2, -⟩ := q2 i hi
    obtain ⟨r3, b3, -⟩ := q3 i hi
    simp [jointDot, hE.tgt i hi, hE.rw i hi, hE.pw i hi, hD, hDT, hDQ, a0, a1, a2, b0, b1, b2, b3]
  · rw [hx']
    refine blocked_input (k := 8) (E.partOf st ch v) (fun a f => (a.1, ⟨Quat.normalized ⟨f 6, f 3, f 4, f 5⟩, ⟨f 0, f 1, f 2⟩, f 7⟩,
      a.2.2.1, a.2.2.2)) (fun a => stateCoeffs a.2.1) D (fun _ => rfl) (fun _ => rfl) E.items (E.paramsPart p v) ?_ ?_
    · intro a ha j
      obtain ⟨hi, ha'⟩ := items_mem a ha
      rw [ha']
      have hqq : Quat.normalized ⟨(E.tgt a.1).rotation.normalized.w, (E.tgt a.1).rotation.normalized.x,
          (E.tgt a.1).rotation.normalized.y, (E.tgt a.1).rotation.normalized.z⟩ = (E.tgt a.1).rotation.normalized :=
        Quat.normalized_normalized _
      obtain ⟨s0, a0, c0⟩ := t0 a.1 hi
      obtain ⟨s1, a1, c1⟩ := t1 a.1 hi
      obtain ⟨s2, a2, c2⟩ := t2 a.1 hi
      obtain ⟨r0, b0, d0⟩ := q0 a.1 hi
      obtain ⟨r1, b1, d1⟩ := q1 a.1 hi
      obtain ⟨r2, b2, d2⟩ := q2 a.1 hi
      obtain ⟨r3, b3, d3⟩ := q3 a.1 hi
      fin_cases j
      · simpa [hD, hDT, a0, partOf, stateCoeffs, Quat.coeffs, Quat.normalized_normalized, Function.update, hqq] using c0.2
      · simpa [hD, hDT, a1, partOf, stateCoeffs, Quat.coeffs, Quat.normalized_normalized, Function.update, hqq] using c1.2
      · simpa [hD, hDT, a2, partOf, stateCoeffs, Quat.coeffs, Quat.normalized_normalized, Function.update, hqq] using c2.2
      · simpa [hD, hDQ, b0, partOf, stateCoeffs, Quat.coeffs, Quat.normalized_normalized, Function.update, hqq] using d0.2
      · simpa [hD, hDQ, b1, partOf, stateCoeffs, Quat.coeffs, Quat.normalized_normalized, Function.update, hqq] using d1.2
      · simpa [hD, hDQ, b2, partOf, stateCoeffs, Quat.coeffs, Quat.normalized_normalized, Function.update, hqq] using d2.2
      · simpa [hD, hDQ, b3, partOf, stateCoeffs, Quat.coeffs, Quat.normalized_normalized, Function.update, hqq] using d3.2
      · simpa [hD, partOf, stateCoeffs, Quat.coeffs, Quat.normalized_normalized, Function.update, hqq] using hasDerivAt_const _ _
    · intro y hy
      rw [items_length] at hy
      obtain ⟨e, g, g1, g2⟩ := getGradient_dot (E := { E with targetState := (List.range E.skeleton.joints.length).map (stateSegment y) }) h
        ⟨by simp, hE.params, hE.weights, hE.pos, hE.rot⟩ hp hpos v
      refine ⟨{ E with targetState := (List.range E.skeleton.joints.length).map (stateSegment y) }, g, ?_, by rw [g1]; rfl, ?_⟩
      · exact setInput_state hy
      · rw [g2, items_mapIdx, List.map_map]
        refine congrArg₂ (· + ·) rfl (congrArg List.sum (List.map_congr_left fun i hi => ?_))
        have hi' : i < E.skeleton.joints.length := by simpa using hi
        have : ({ E with targetState := (List.range E.skeleton.joints.length).map (stateSegment y) } : StateError).tgt i = stateSegment y i := by
          simp [tgt, hi']
        simp only [this, Function.comp]
        rfl

theorem isInputDerivative {E : StateError} {st : List JointState} {ch : Nat → List Nat} (h : E.Sound st ch) (hE : E.Sized)
    {p : List ℝ} (hp : p.length = E.transform.cols) (v : Nat → ℝ) {name : String} {x : List ℝ}
    (hx : E.getInput name = some x) (hq : name = "targetState" → ∀ t ∈ E.targetState, 0 < t.rotation.normSq) :
    ∃ d, E.dGradientDot name st v = some d ∧
      IsInputDerivative (E.setInput name) (fun E' => (E'.getGradient p st fun _ => 0).map (·.2)) E.transform.cols v x d := by
  have hnames : name ∈ inputs := by
    by_contra hne
    simp [inputs] at hne
    simp [getInput, hne] at hx
  set n := E.skeleton.joints.length with hn
  rcases Nat.eq_zero_or_pos n with h0 | hpos
  · have hx0 : x = [] := by
      have l1 : E.targetPositionWeights = [] := List.eq_nil_of_length_eq_zero (by rw [hE.pos, ← hn, h0])
      have l2 : E.targetRotationWeights = [] := List.eq_nil_of_length_eq_zero (by rw [hE.rot, ← hn, h0])
      rcases (by simpa [inputs] using hnames : name = "targetPositionWeights" ∨ name = "targetRotationWeights" ∨ name = "targetState")
        with rfl | rfl | rfl <;> simp [getInput, l1, l2, ← hn, h0] at hx <;> exact hx
    have l3 : E.targetState = [] := List.eq_nil_of_length_eq_zero (by rw [hE.state, ← hn, h0])
    refine ⟨[], ?_, ?_⟩
    · unfold dGradientDot
      rcases (by simpa [inputs] using hnames : name = "targetPositionWeights" ∨ name = "targetRotationWeights" ∨ name = "targetState")
        with rfl | rfl | rfl <;> simp [l3, getInputSize, ← hn, h0]
    · subst hx0; exact ⟨rfl, fun c hc => absurd hc (by simp)⟩
  have hne : E.targetState.isEmpty = false := by
    have := hE.state
    cases hs : E.targetState with
    | nil => rw [hs] at this; simp at this; omega
    | cons => rfl
  rcases (by simpa [inputs] using hnames : name = "targetPositionWeights" ∨ name = "targetRotationWeights" ∨ name = "targetState")
    with rfl | rfl | rfl
  · exact isInputDerivative_targetPositionWeights h hE hp v hx hpos hne
  · exact isInputDerivative_targetRotationWeights h hE hp v hx hpos hne
  · exact isInputDerivative_targetState h hE hp v hx (hq rfl) hpos hne

end StateError

end Momentum
