import Verif.Props.Simplify
import Mathlib.Analysis.SpecialFunctions.Trigonometric.Basic

/-!
# C21: model parameters, locators and capsules; two counterexamples
-/

namespace Momentum
open Skeleton

/-- **C21** (model parameters).  If no model parameter drives a disabled joint, then for every model parameter
vector the original and the simplified character put every kept joint at the same place, under the two provisos of
`C21_world_partial`. -/
theorem C21_model_parameters_partial (s : Skeleton ℝ) (hv : s.Valid)
    (hpre : ∀ jt ∈ s.joints, jt.preRotation.normSq = 1)
    (pt : ParameterTransform ℝ) (hf : FitsSkeleton s pt) (en : List Bool) (r : Simplified)
    (h : simplifySkeleton s pt en = some (.ok r))
    (hdrive : ∀ d, ¬ EnabledAt en d → ∀ k < 7, ∀ c, pt.transform.coeff (d * 7 + k) c = 0)
    (hoff : ∀ d, d < s.joints.length → ¬ EnabledAt en d → ∀ k : Fin 7, 3 ≤ k.val → jointSlice pt.offsets d k = 0)
    (theta jp : List ℝ) (hjp : pt.apply theta = some jp)
    (htr : ∀ a p, EnabledAt en a → s.ParentRel a p → ¬ EnabledAt en p →
      (∀ k : Fin 7, k.val < 3 → jointSlice jp a k = 0) ∨
      ∀ (d : Nat) (jt : Joint ℝ), s.joints[d]? = some jt → ¬ EnabledAt en d → jt.preRotation = Quat.one) :
    ∃ jq states states', r.parameterTransform.apply theta = some jq ∧
      skeletonState s jp true = some states ∧ skeletonState r.skeleton jq true = some states' ∧
      ∀ a, a < s.joints.length → EnabledAt en a → ∃ st st', states[a]? = some st ∧
        states'[newIndex en a]? = some st' ∧ st'.transform = st.transform := by
  obtain ⟨hl, ref, sst, e1, hI, e2, -, e4⟩ := simplify_ok hv hf h
  have hinter : ∀ i t : Nat, sst.inter[i]? = some (some t) → i < s.joints.length ∧ EnabledAt en i ∧ t = newIndex en i := by
    intro i t hit
    have hil : i < s.joints.length := by rw [← hI.inter.1]; exact getElem?_lt hit
    by_cases he : EnabledAt en i
    · rw [(hI.inter.2 i hil).1 hil he] at hit
      cases hit
      exact ⟨hil, he, rfl⟩
    · rw [(hI.inter.2 i hil).2 (fun h => he h.2)] at hit
      simp at hit
  obtain ⟨jq, q1, q2, q3⟩ := C16_same_pose pt r.parameterTransform sst.joints.length sst.inter hf.wf hf.names
    (by
      intro i j t hi hj
      obtain ⟨a1, a2, a3⟩ := hinter i t hi
      obtain ⟨b1, b2, b3⟩ := hinter j t hj
      exact newIndex_inj a2 b2 (a3.symm.trans b3)) e4 theta jp hjp
  obtain ⟨p1, p2, p3, p4⟩ := (C13_apply_affine pt hf.wf theta jp).1 hjp
  obtain ⟨hv', hcount, -⟩ := C21_structure s hv pt hf en r h
  obtain ⟨states, f1, f2, f3⟩ := skeletonState_good hv true (params := jp) (by rw [p3, hf.rows])
  obtain ⟨states', f1', f2', f3'⟩ := skeletonState_good hv' true (params := jq) (by rw [q2, e2])
  refine ⟨jq, states, states', q1, f1, f1', ?_⟩
  have hkept : ∀ a, EnabledAt en a → jointSlice jq (newIndex en a) = jointSlice jp a := by
    intro a he
    have ha : a < s.joints.length := by rw [← hl]; exact getElem?_lt he
    funext k
    unfold jointSlice
    rw [List.getD_eq_getElem?_getD, List.getD_eq_getElem?_getD]
    have := q3 a (newIndex en a) k.val k.isLt (by rw [hI.len]; exact newIndex_lt ha he)
      (by rw [hf.rows]; omega) ((hI.inter.2 a ha).1 ha he)
    rw [Nat.mul_comm 7, Nat.mul_comm 7, this]
  have hdis : ∀ d, d < s.joints.length → ¬ EnabledAt en d → jointSlice jp d = jointSlice pt.offsets d := by
    intro d hd he
    funext k
    unfold jointSlice
    rw [List.getD_eq_getElem?_getD, p4 (7 * d + k.val) (by rw [hf.rows]; omega)]
    rw [Finset.sum_eq_zero]
    · simp
    · intro c _
      rw [Nat.mul_comm 7, hdrive d he k.val k.isLt c, zero_mul]
  have hw := C21_world_partial s hv hpre pt hf en r h jp jq true true states states' f1 f1' hkept hdis hoff htr
  intro a ha he
  have g1 := List.getElem?_eq_getElem (l := states) (i := a) (by omega)
  have g2 := List.getElem?_eq_getElem (l := states') (i := newIndex en a)
    (by rw [f3', hcount]; have := newIndex_lt (b := s.joints.length) ha he; unfold newIndex at this ⊢
        rwa [← hl, List.take_length] at this)
  exact ⟨_, _, g1, g2, hw a _ _ he g1 g2⟩

/-! ### Locators and capsules -/

theorem chain_unit {s : Skeleton ℝ} (hpre : ∀ jt ∈ s.joints, jt.preRotation.normSq = 1) {x p : Nat} {Q : Quat ℝ}
    (hc : PreChain s x p Q) : Q.normSq = 1 := by
  induction hc with
  | done => exact Quat.normSq_one
  | @step p q pj Q hpj hne hq hQ ih =>
    rw [Quat.normSq_mul, ih, hpre _ (List.mem_of_getElem? hpj), one_mul]

theorem simplify_unit {s : Skeleton ℝ} (hv : s.Valid) (hpre : ∀ jt ∈ s.joints, jt.preRotation.normSq = 1)
    {pt : ParameterTransform ℝ} (hf : FitsSkeleton s pt) {en : List Bool} {r : Simplified}
    (h : simplifySkeleton s pt en = some (.ok r)) : ∀ jt ∈ r.skeleton.joints, jt.preRotation.normSq = 1 := by
  obtain ⟨hl, ref, sst, e1, hI, e2, -, -⟩ := simplify_ok hv hf h
  rw [e2]
  have : ∀ n, n ≤ s.joints.length → ∀ k jt', k < newIndex en n → sst.joints[k]? = some jt' →
      jt'.preRotation.normSq = 1 := by
    intro n
    induction n with
    | zero => intro _ k jt' hk; simp [newIndex] at hk
    | succ n ih =>
      intro hn k jt' hk hjt
      by_cases hlt : k < newIndex en n
      · exact ih (by omega) k jt' hlt hjt
      · have hb := List.getElem?_eq_getElem (l := en) (i := n) (by omega)
        have hs := newIndex_succ n _ hb
        by_cases he : en[n]'(by omega) = true
        · rw [if_pos he] at hs
          have hk' : k = newIndex en n := by omega
          subst hk'
          obtain ⟨jt2, g1, -, g3, g4⟩ := hI.joints n _ (by omega) (by rw [EnabledAt, hb, he])
            (List.getElem?_eq_getElem (by omega))
          rw [hjt] at g1
          cases g1
          have hu := hpre _ (List.getElem_mem (l := s.joints) (n := n) (by omega))
          cases hp : (s.joints[n]'(by omega)).parent with
          | none => rw [g3 hp]; exact hu
          | some p =>
            obtain ⟨x, Q, tx, ta, -, n2, -, -, -, n6, -⟩ := g4 p hp
            rw [n6, Quat.normSq_mul, chain_unit hpre n2, hu, one_mul]
        · rw [if_neg he] at hs
          omega
  intro jt hjt
  obtain ⟨k, hk, rfl⟩ := List.getElem_of_mem hjt
  exact this _ le_rfl k _ (by rw [← hI.len]; exact hk) (List.getElem?_eq_getElem hk)

theorem mapM_some_of {α β : Type} {f : α → Option β} {l : List α} (h : ∀ a ∈ l, ∃ b, f a = some b) :
    ∃ out, l.mapM f = some out ∧ out.length = l.length ∧
      ∀ i (hi : i < l.length), ∃ b, out[i]? = some b ∧ f l[i] = some b := by
  induction l with
  | nil => exact ⟨[], rfl, rfl, fun i hi => absurd hi (by simp)⟩
  | cons a l ih =>
    obtain ⟨b, hb⟩ := h a List.mem_cons_self
    obtain ⟨out, h1, h2, h3⟩ := ih fun a ha => h a (List.mem_cons_of_mem _ ha)
    refine ⟨b :: out, by rw [List.mapM_cons, hb, h1]; rfl, by simp [h2], ?_⟩
    intro i hi
    match i with
    | 0 => exact ⟨b, rfl, hb⟩
    | i + 1 =>
      obtain ⟨b', g1, g2⟩ := h3 i (by simpa using hi)
      exact ⟨b', by simpa using g1, by simpa using g2⟩

/-- What `worldAffines` holds. -/
theorem worldAffines_get {states : List JointState} {j : Nat} (hj : j < states.length) :
    (worldAffines states)[j]? = some (worldOf states (some j)).toAffine3 := by
  unfold worldAffines
  rw [List.getElem?_map, List.getElem?_eq_getElem hj]
  simp [worldOf, List.getElem?_eq_getElem hj]

/-- **C21** (locators).  Every locator moves to the nearest enabled ancestor-or-self of its joint, keeping its
world position in the bind poses of the two skeletons and everything else about it. -/
theorem C21_locators (s : Skeleton ℝ) (hv : s.Valid) (hpre : ∀ jt ∈ s.joints, jt.preRotation.normSq = 1)
    (pt : ParameterTransform ℝ) (hf : FitsSkeleton s pt) (en : List Bool) (r : Simplified)
    (h : simplifySkeleton s pt en = some (.ok r)) (src tgt : List JointState)
    (hs : skeletonState s (List.replicate (s.joints.length * 7) 0) false = some src)
    (ht : skeletonState r.skeleton (List.replicate (r.skeleton.joints.length * 7) 0) false = some tgt)
    (locators : List (Locator ℝ)) (hl : ∀ l ∈ locators, l.parent < s.joints.length) :
    ∃ out, remapLocators r.jointMap (worldAffines src) (worldAffines tgt) locators = some out ∧
      out.length = locators.length ∧
      ∀ i (hi : i < locators.length), ∃ l' x stx st, out[i]? = some l' ∧ s.Nearest en locators[i].parent x ∧
        l'.parent = newIndex en x ∧ tgt[l'.parent]? = some stx ∧ src[locators[i].parent]? = some st ∧
        stx.transform.transformPoint l'.offset = st.transform.transformPoint locators[i].offset ∧
        { l' with parent := locators[i].parent, offset := locators[i].offset } = locators[i] := by
  obtain ⟨hv', hlen, -, -, hmap⟩ := C21_structure s hv pt hf en r h
  obtain ⟨hel, -⟩ := simplify_ok hv hf h
  obtain ⟨g, gl, -⟩ := skeletonState_some hv hs
  obtain ⟨g', gl', -⟩ := skeletonState_some hv' ht
  have hpre' := simplify_unit hv hpre hf h
  have one : ∀ l ∈ locators, ∃ x, s.Nearest en l.parent x ∧ newIndex en x < tgt.length ∧
      r.jointMap[l.parent]? = some (some (newIndex en x)) := by
    intro l hm
    obtain ⟨x, n1, n2⟩ := hmap _ (hl l hm)
    refine ⟨x, n1, ?_, n2⟩
    have hx := anc_le hv n1.1
    have := newIndex_lt (b := s.joints.length) (by have := hl l hm; omega) n1.2.1
    rw [gl', hlen]
    unfold newIndex at this ⊢
    rwa [← hel, List.take_length] at this
  unfold remapLocators
  obtain ⟨out, o1, o2, o3⟩ := mapM_some_of (l := locators) (f := fun l => do
      let m ← r.jointMap[l.parent]?
      let k ← m
      let t ← (worldAffines tgt)[k]?
      let s ← (worldAffines src)[l.parent]?
      some { l with parent := k, offset := (t.inverse * s).apply l.offset }) (by
    intro l hm
    obtain ⟨x, n1, n2, n3⟩ := one l hm
    rw [n3]
    simp only [Option.bind_eq_bind, Option.bind_some]
    rw [worldAffines_get n2, worldAffines_get (by rw [gl]; exact hl l hm)]
    exact ⟨_, rfl⟩)
  refine ⟨out, o1, o2, fun i hi => ?_⟩
  obtain ⟨l', b1, b2⟩ := o3 i hi
  have hm := List.getElem_mem hi
  obtain ⟨x, n1, n2, n3⟩ := one _ hm
  rw [n3] at b2
  simp only [Option.bind_eq_bind, Option.bind_some] at b2
  rw [worldAffines_get n2, worldAffines_get (by rw [gl]; exact hl _ hm)] at b2
  simp only [Option.bind_some, Option.some.injEq] at b2
  subst b2
  refine ⟨_, x, _, _, b1, n1, rfl, List.getElem?_eq_getElem n2,
    List.getElem?_eq_getElem (by rw [gl]; exact hl _ hm), ?_, rfl⟩
  have hu := g'.worldOf_unit hv' hpre' (some (newIndex en x))
  have e1 : tgt[newIndex en x].transform = worldOf tgt (some (newIndex en x)) := by
    simp [worldOf, List.getElem?_eq_getElem n2]
  have e2 : (src[locators[i].parent]'(by rw [gl]; exact hl _ hm)).transform =
      worldOf src (some locators[i].parent) := by
    simp [worldOf, List.getElem?_eq_getElem (l := src) (i := locators[i].parent) (by rw [gl]; exact hl _ hm)]
  rw [e1, e2]
  have ap : ∀ (t : Transform ℝ) (v : Vec3 ℝ), t.transformPoint v = t.toAffine3.apply v := by
    intro t v
    unfold Transform.toAffine3 Affine.apply
    simp only [Transform.toLinear_mulVec]
    unfold Transform.transformPoint
    rw [Quat.rotate_smul]
    abel
  rw [ap, ap]
  dsimp only
  rw [Affine.mul_apply, Affine.apply_inverse (affine_det hu.1 hu.2)]

/-- **C21** (collision geometry).  Every capsule moves to the nearest enabled ancestor-or-self of its joint, and
every point of its frame keeps its world position in the bind poses. -/
theorem C21_capsules (s : Skeleton ℝ) (hv : s.Valid) (hpre : ∀ jt ∈ s.joints, jt.preRotation.normSq = 1)
    (pt : ParameterTransform ℝ) (hf : FitsSkeleton s pt) (en : List Bool) (r : Simplified)
    (h : simplifySkeleton s pt en = some (.ok r)) (src tgt : List JointState)
    (hs : skeletonState s (List.replicate (s.joints.length * 7) 0) false = some src)
    (ht : skeletonState r.skeleton (List.replicate (r.skeleton.joints.length * 7) 0) false = some tgt)
    (caps : List (TaperedCapsule ℝ)) (hl : ∀ l ∈ caps, l.parent < s.joints.length) :
    ∃ out, remapCapsules r.jointMap (worldAffines src) (worldAffines tgt) caps = some out ∧
      out.length = caps.length ∧
      ∀ i (hi : i < caps.length), ∃ c' x stx st, out[i]? = some c' ∧ s.Nearest en caps[i].parent x ∧
        c'.parent = newIndex en x ∧ tgt[c'.parent]? = some stx ∧ src[caps[i].parent]? = some st ∧
        (∀ v, stx.transform.transformPoint (c'.transformation.apply v) =
          st.transform.transformPoint (caps[i].transformation.apply v)) ∧
        { c' with parent := caps[i].parent, transformation := caps[i].transformation } = caps[i] := by
  obtain ⟨hv', hlen, -, -, hmap⟩ := C21_structure s hv pt hf en r h
  obtain ⟨hel, -⟩ := simplify_ok hv hf h
  obtain ⟨g, gl, -⟩ := skeletonState_some hv hs
  obtain ⟨g', gl', -⟩ := skeletonState_some hv' ht
  have hpre' := simplify_unit hv hpre hf h
  have one : ∀ l ∈ caps, ∃ x, s.Nearest en l.parent x ∧ newIndex en x < tgt.length ∧
      r.jointMap[l.parent]? = some (some (newIndex en x)) := by
    intro l hm
    obtain ⟨x, n1, n2⟩ := hmap _ (hl l hm)
    refine ⟨x, n1, ?_, n2⟩
    have hx := anc_le hv n1.1
    have := newIndex_lt (b := s.joints.length) (by have := hl l hm; omega) n1.2.1
    rw [gl', hlen]
    unfold newIndex at this ⊢
    rwa [← hel, List.take_length] at this
  unfold remapCapsules
  obtain ⟨out, o1, o2, o3⟩ := mapM_some_of (l := caps) (f := fun c => do
      let m ← r.jointMap[c.parent]?
      let k ← m
      let t ← (worldAffines tgt)[k]?
      let s ← (worldAffines src)[c.parent]?
      some { c with parent := k, transformation := t.inverse * s * c.transformation }) (by
    intro l hm
    obtain ⟨x, n1, n2, n3⟩ := one l hm
    rw [n3]
    simp only [Option.bind_eq_bind, Option.bind_some]
    rw [worldAffines_get n2, worldAffines_get (by rw [gl]; exact hl l hm)]
    exact ⟨_, rfl⟩)
  refine ⟨out, o1, o2, fun i hi => ?_⟩
  obtain ⟨l', b1, b2⟩ := o3 i hi
  have hm := List.getElem_mem hi
  obtain ⟨x, n1, n2, n3⟩ := one _ hm
  rw [n3] at b2
  simp only [Option.bind_eq_bind, Option.bind_some] at b2
  rw [worldAffines_get n2, worldAffines_get (by rw [gl]; exact hl _ hm)] at b2
  simp only [Option.bind_some, Option.some.injEq] at b2
  subst b2
  refine ⟨_, x, _, _, b1, n1, rfl, List.getElem?_eq_getElem n2,
    List.getElem?_eq_getElem (by rw [gl]; exact hl _ hm), ?_, rfl⟩
  have hu := g'.worldOf_unit hv' hpre' (some (newIndex en x))
  have e1 : tgt[newIndex en x].transform = worldOf tgt (some (newIndex en x)) := by
    simp [worldOf, List.getElem?_eq_getElem n2]
  have e2 : (src[caps[i].parent]'(by rw [gl]; exact hl _ hm)).transform =
      worldOf src (some caps[i].parent) := by
    simp [worldOf, List.getElem?_eq_getElem (l := src) (i := caps[i].parent) (by rw [gl]; exact hl _ hm)]
  rw [e1, e2]
  have ap : ∀ (t : Transform ℝ) (v : Vec3 ℝ), t.transformPoint v = t.toAffine3.apply v := by
    intro t v
    unfold Transform.toAffine3 Affine.apply
    simp only [Transform.toLinear_mulVec]
    unfold Transform.transformPoint
    rw [Quat.rotate_smul]
    abel
  intro v
  rw [ap, ap]
  dsimp only
  rw [Affine.mul_apply, Affine.mul_apply, Affine.apply_inverse (affine_det hu.1 hu.2)]

/-! ### Counterexamples -/

/-- A chain of three joints whose middle joint has pre-rotation `q`. -/
def exChain (q : Quat ℝ) : Skeleton ℝ :=
  ⟨[⟨"a", none, Quat.one, 0⟩, ⟨"b", some 0, q, 0⟩, ⟨"c", some 1, Quat.one, 0⟩]⟩

/-- A transform without parameters. -/
def exConst (offsets : List ℝ) : ParameterTransform ℝ :=
  { name := [], transform := ⟨21, 0, []⟩, offsets := offsets, activeJointParams := [], parameterSets := [],
    poseConstraints := [], blendShapeParameters := [], faceExpressionParameters := [] }

theorem exChain_valid (q : Quat ℝ) : (exChain q).Valid := by
  intro j jt p hj hp
  match j with
  | 0 => simp [exChain] at hj; subst hj; simp at hp
  | 1 => simp [exChain] at hj; subst hj; simp at hp; omega
  | 2 => simp [exChain] at hj; subst hj; simp at hp; omega
  | _ + 3 => simp [exChain] at hj

theorem exChain_unit {q : Quat ℝ} (hq : q.normSq = 1) : ∀ jt ∈ (exChain q).joints, jt.preRotation.normSq = 1 := by
  intro jt hjt
  simp only [exChain, List.mem_cons, List.not_mem_nil, or_false] at hjt
  rcases hjt with rfl | rfl | rfl
  · exact Quat.normSq_one
  · exact hq
  · exact Quat.normSq_one

theorem exConst_fits (q : Quat ℝ) {o : List ℝ} (ho : o.length = 21) : FitsSkeleton (exChain q) (exConst o) :=
  ⟨rfl, ho, fun e he => by simp [exConst] at he, rfl⟩

theorem exChain_roots (q : Quat ℝ) : (exChain q).RootsEnabled [true, false, true] := by
  intro j jt hj hp
  match j with
  | 0 => rfl
  | 1 => simp [exChain] at hj; subst hj; simp at hp
  | 2 => simp [exChain] at hj; subst hj; simp at hp
  | _ + 3 => simp [exChain] at hj

/-- The hypotheses of `C21_outcome` and `C21_structure` are met. -/
example : ∃ r, simplifySkeleton (exChain Quat.one) (exConst (List.replicate 21 0)) [true, false, true] =
    some (.ok r) ∧ r.skeleton.joints.length = 2 := by
  have hf := exConst_fits Quat.one (o := List.replicate 21 0) (by simp)
  obtain ⟨r, hr⟩ := (C21_outcome _ (exChain_valid _) _ hf [true, false, true]).1 ⟨rfl, by simp, exChain_roots _⟩
  exact ⟨r, hr, (C21_structure _ (exChain_valid _) _ hf _ r hr).2.1⟩

/-- The kept child in the simplified chain. -/
theorem exChain_simplified {q : Quat ℝ} (hq : q.normSq = 1) {o : List ℝ} (ho : o.length = 21)
    (h1 : jointSlice o 1 0 = 0 ∧ jointSlice o 1 1 = 0 ∧ jointSlice o 1 2 = 0) :
    ∃ r jt0 jt', simplifySkeleton (exChain q) (exConst o) [true, false, true] = some (.ok r) ∧
      r.skeleton.joints[0]? = some jt0 ∧ jt0 = ⟨"a", none, Quat.one, 0⟩ ∧
      r.skeleton.joints[1]? = some jt' ∧ jt'.parent = some 0 ∧ jt'.preRotation = q ∧ jt'.translationOffset = 0 := by
  have hf := exConst_fits q ho
  obtain ⟨r, hr⟩ := (C21_outcome _ (exChain_valid _) _ hf [true, false, true]).1 ⟨rfl, by simp, exChain_roots _⟩
  obtain ⟨hl, ref, sst, e1, hI, e2, -, -⟩ := simplify_ok (exChain_valid q) hf hr
  obtain ⟨g, gl, -⟩ := skeletonState_some (exChain_valid q) e1
  obtain ⟨jt0, a1, a2, a3, -⟩ := hI.joints 0 ⟨"a", none, Quat.one, 0⟩ (by simp [exChain]) rfl rfl
  obtain ⟨jt', b1, b2, -, b4⟩ := hI.joints 2 ⟨"c", some 1, Quat.one, 0⟩ (by simp [exChain]) rfl rfl
  obtain ⟨x, Q, tx, ta, n1, n2, n3, n4, n5, n6, n7⟩ := b4 1 rfl
  have hx : x = 0 := by
    have hx1 := anc_le (exChain_valid q) n1.1
    have : x ≠ 1 := by rintro rfl; have := n1.2.1; simp [EnabledAt] at this
    omega
  subst hx
  have hQ : Q = q := by
    cases n2 with
    | step hpj hne hq' hQ' =>
      simp only [exChain, List.getElem?_cons_succ, List.getElem?_cons_zero, Option.some.injEq] at hpj
      subst hpj
      simp only [Option.some.injEq] at hq'
      subst hq'
      cases hQ' with
      | done => rw [Quat.one_mul']
      | step _ hne' _ _ => exact absurd rfl hne'
  refine ⟨r, jt0, jt', hr, by rw [e2]; exact a1, a3 rfl, by rw [e2]; exact b1, n5, by rw [n6, hQ, Quat.mul_one'], ?_⟩
  have gl3 : ref.length = 3 := gl
  have r0 := List.getElem?_eq_getElem (l := ref) (i := 0) (by omega)
  have r1 := List.getElem?_eq_getElem (l := ref) (i := 1) (by omega)
  have r2 := List.getElem?_eq_getElem (l := ref) (i := 2) (by omega)
  have hux := g.worldOf_unit (exChain_valid q) (exChain_unit hq) (some 0)
  have htx : tx = (worldOf ref (some 0)).toAffine3 := by
    rw [worldAffines_get (by omega)] at n3; cases n3; rfl
  have hta : ta = (worldOf ref (some 2)).toAffine3 := by
    rw [worldAffines_get (by omega)] at n4; cases n4; rfl
  have w1 := g.worldOf_eq (exChain_valid q) (j := 1) (jt := ⟨"b", some 0, q, 0⟩) rfl r1
  have w2 := g.worldOf_eq (exChain_valid q) (j := 2) (jt := ⟨"c", some 1, Quat.one, 0⟩) rfl r2
  have l1 : ref[1].localTransform.translation = 0 := by
    rw [g.eq 1 ⟨"b", some 0, q, 0⟩ _ rfl r1]
    show (0 : Vec3 ℝ) + ⟨jointSlice _ 1 0, jointSlice _ 1 1, jointSlice _ 1 2⟩ = 0
    rw [(zeroOffsets_slice (exConst o).offsets [true, false, true] 1).2 (by simp [EnabledAt]),
      show (exConst o).offsets = o from rfl, h1.1, h1.2.1, h1.2.2]
    ext <;> simp
  have l2 : ref[2].localTransform.translation = 0 := by
    rw [g.eq 2 ⟨"c", some 1, Quat.one, 0⟩ _ rfl r2]
    show (0 : Vec3 ℝ) + ⟨jointSlice _ 2 0, jointSlice _ 2 1, jointSlice _ 2 2⟩ = 0
    rw [(zeroOffsets_slice (exConst o).offsets [true, false, true] 2).1 (by simp [EnabledAt])]
    ext <;> simp
  have lu1 := g.local_unit (exChain_unit hq) r1
  rw [n7, htx, hta]
  show (worldOf ref (some 0)).toAffine3.inverse.apply (worldOf ref (some 2)).translation = 0
  rw [w2]
  simp only
  rw [w1]
  simp only
  rw [Transform.mul_assoc' hux.1 lu1.1, mul_translation, Affine.inverse_apply (affine_det hux.1 hux.2)]
  show ref[1].localTransform.translation + ref[1].localTransform.rotation.rotate
    (ref[1].localTransform.scale • ref[2].localTransform.translation) = 0
  rw [l1, l2]
  have : ref[1].localTransform.scale • (0 : Vec3 ℝ) = 0 := by ext <;> simp
  rw [this, Quat.rotate_zero]
  ext <;> simp

/-- World transforms of the kept child in both skeletons. -/
theorem exChain_world {q : Quat ℝ} (hq : q.normSq = 1) {o : List ℝ} (ho : o.length = 21)
    (h1 : jointSlice o 1 0 = 0 ∧ jointSlice o 1 1 = 0 ∧ jointSlice o 1 2 = 0)
    (params params' : List ℝ) (hp : params.length = 21) (hp' : params'.length = 14) :
    ∃ r states states' st st', simplifySkeleton (exChain q) (exConst o) [true, false, true] = some (.ok r) ∧
      skeletonState (exChain q) params false = some states ∧
      skeletonState r.skeleton params' false = some states' ∧
      states[2]? = some st ∧ states'[newIndex [true, false, true] 2]? = some st' ∧
      (∃ jt0 jt1 jt2 : Joint ℝ, jt0 = ⟨"a", none, Quat.one, 0⟩ ∧ jt1 = ⟨"b", some 0, q, 0⟩ ∧
        jt2 = ⟨"c", some 1, Quat.one, 0⟩ ∧
        st.transform = Transform.one * (JointState.set jt0 (jointSlice params 0) none false).localTransform *
          (JointState.set jt1 (jointSlice params 1) none false).localTransform *
          (JointState.set jt2 (jointSlice params 2) none false).localTransform) ∧
      ∃ jt0 jt1 : Joint ℝ, jt0 = ⟨"a", none, Quat.one, 0⟩ ∧ jt1.parent = some 0 ∧ jt1.preRotation = q ∧
        jt1.translationOffset = 0 ∧
        st'.transform = Transform.one * (JointState.set jt0 (jointSlice params' 0) none false).localTransform *
          (JointState.set jt1 (jointSlice params' 1) none false).localTransform := by
  obtain ⟨r, k0, k1, hr, hk0, rfl, hk1, c1, c2, c3⟩ := exChain_simplified hq ho h1
  have hv := exChain_valid q
  have hf := exConst_fits q ho
  obtain ⟨hv', hcount, -⟩ := C21_structure _ hv _ hf _ r hr
  have hn2 : r.skeleton.joints.length = 2 := hcount
  obtain ⟨states, f1, f2, f3⟩ := skeletonState_good hv false (params := params) (by rw [hp]; rfl)
  obtain ⟨states', g1, g2, g3⟩ := skeletonState_good hv' false (params := params') (by rw [hp', hn2])
  have f3' : states.length = 3 := f3
  have r0 := List.getElem?_eq_getElem (l := states) (i := 0) (by omega)
  have r1 := List.getElem?_eq_getElem (l := states) (i := 1) (by omega)
  have r2 := List.getElem?_eq_getElem (l := states) (i := 2) (by omega)
  have s0 := List.getElem?_eq_getElem (l := states') (i := 0) (by omega)
  have s1 := List.getElem?_eq_getElem (l := states') (i := 1) (by omega)
  refine ⟨r, states, states', _, _, hr, f1, g1, r2, s1, ?_, ?_⟩
  · refine ⟨_, _, _, rfl, rfl, rfl, ?_⟩
    have w0 := f2.worldOf_eq hv (j := 0) (jt := ⟨"a", none, Quat.one, 0⟩) rfl r0
    have w1 := f2.worldOf_eq hv (j := 1) (jt := ⟨"b", some 0, q, 0⟩) rfl r1
    have w2 := f2.worldOf_eq hv (j := 2) (jt := ⟨"c", some 1, Quat.one, 0⟩) rfl r2
    have e : states[2].transform = worldOf states (some 2) := by simp [worldOf, r2]
    rw [e, w2]
    simp only
    rw [w1]
    simp only
    rw [w0, f2.eq 0 ⟨"a", none, Quat.one, 0⟩ _ rfl r0, f2.eq 1 ⟨"b", some 0, q, 0⟩ _ rfl r1,
      f2.eq 2 ⟨"c", some 1, Quat.one, 0⟩ _ rfl r2]
    rfl
  · refine ⟨_, k1, rfl, c1, c2, c3, ?_⟩
    have w0 := g2.worldOf_eq hv' hk0 s0
    have w1 := g2.worldOf_eq hv' hk1 s1
    have e : states'[1].transform = worldOf states' (some 1) := by simp [worldOf, s1]
    rw [e, w1, c1, w0, g2.eq 0 _ _ hk0 s0, g2.eq 1 _ _ hk1 s1]
    rfl

/-- The proviso on constant offsets in `C21_world_partial` is needed: a constant rotation of a disabled joint is
lost.  With every other hypothesis of that theorem met, the kept child is turned by half a turn in the original and
not at all in the simplified character. -/
theorem C21_rotation_offset_lost :
    ∃ (s : Skeleton ℝ) (pt : ParameterTransform ℝ) (en : List Bool) (r : Simplified) (params params' : List ℝ)
      (states states' : List JointState) (st st' : JointState),
      s.Valid ∧ (∀ jt ∈ s.joints, jt.preRotation = Quat.one) ∧ FitsSkeleton s pt ∧
      simplifySkeleton s pt en = some (.ok r) ∧
      skeletonState s params false = some states ∧ skeletonState r.skeleton params' false = some states' ∧
      (∀ a, EnabledAt en a → jointSlice params' (newIndex en a) = jointSlice params a) ∧
      (∀ d, d < s.joints.length → ¬ EnabledAt en d → jointSlice params d = jointSlice pt.offsets d) ∧
      EnabledAt en 2 ∧ states[2]? = some st ∧ states'[newIndex en 2]? = some st' ∧
      st.transform.rotation = ⟨0, 0, 0, 1⟩ ∧ st'.transform.rotation = Quat.one := by
  let o : List ℝ := [0,0,0,0,0,0,0, 0,0,0,0,0,Real.pi,0, 0,0,0,0,0,0,0]
  let z : List ℝ := [0,0,0,0,0,0,0, 0,0,0,0,0,0,0]
  obtain ⟨r, states, states', st, st', h1, h2, h3, h4, h5, ⟨jt0, jt1, jt2, j0, j1, j2, h6⟩, k0, k1, i0, -, i2, -, h7⟩ :=
    exChain_world (q := Quat.one) Quat.normSq_one (o := o) rfl ⟨rfl, rfl, rfl⟩ o z rfl rfl
  refine ⟨exChain Quat.one, exConst o, [true, false, true], r, o, z, states, states', st, st', exChain_valid _, ?_,
    exConst_fits _ rfl, h1, h2, h3, ?_, fun _ _ _ => rfl, rfl, h4, h5, ?_, ?_⟩
  · intro jt hjt
    simp only [exChain, List.mem_cons, List.not_mem_nil, or_false] at hjt
    rcases hjt with rfl | rfl | rfl <;> rfl
  · intro a ha
    match a with
    | 0 => funext k; fin_cases k <;> rfl
    | 1 => simp [EnabledAt] at ha
    | 2 => funext k; fin_cases k <;> rfl
    | _ + 3 => simp [EnabledAt] at ha
  · rw [h6, j0, j1, j2]
    show Transform.one.rotation * _ * _ * _ = _
    simp only [JointState.set_localRotation]
    have e : ∀ k, jointSlice o 0 k = 0 := by intro k; fin_cases k <;> rfl
    have e2 : ∀ k, jointSlice o 2 k = 0 := by intro k; fin_cases k <;> rfl
    have e13 : jointSlice o 1 3 = 0 := rfl
    have e14 : jointSlice o 1 4 = 0 := rfl
    have e15 : jointSlice o 1 5 = Real.pi := rfl
    simp only [e, e2, e13, e14, e15, angleAxis_zero, Quat.mul_one', Transform.one, Quat.one_mul']
    ext <;> simp [Quat.angleAxis, Vec3.unitZ]
  · rw [h7, i0]
    show Transform.one.rotation * _ * _ = _
    simp only [JointState.set_localRotation]
    have e : ∀ k, jointSlice z 0 k = 0 := by intro k; fin_cases k <;> rfl
    have e2 : ∀ k, jointSlice z 1 k = 0 := by intro k; fin_cases k <;> rfl
    simp only [e, e2, angleAxis_zero, Quat.mul_one', Transform.one, Quat.one_mul', i2]

/-- The proviso on translation parameters in `C21_world_partial` is needed: the pre-rotation of a disabled joint
moves into the pre-rotation of its kept child, where it no longer turns the child's translation parameters. -/
theorem C21_translation_turned :
    ∃ (s : Skeleton ℝ) (pt : ParameterTransform ℝ) (en : List Bool) (r : Simplified) (params params' : List ℝ)
      (states states' : List JointState) (st st' : JointState),
      s.Valid ∧ (∀ jt ∈ s.joints, jt.preRotation.normSq = 1) ∧ FitsSkeleton s pt ∧
      (∀ x ∈ pt.offsets, x = 0) ∧ simplifySkeleton s pt en = some (.ok r) ∧
      skeletonState s params false = some states ∧ skeletonState r.skeleton params' false = some states' ∧
      (∀ a, EnabledAt en a → jointSlice params' (newIndex en a) = jointSlice params a) ∧
      (∀ d, d < s.joints.length → ¬ EnabledAt en d → jointSlice params d = jointSlice pt.offsets d) ∧
      EnabledAt en 2 ∧ states[2]? = some st ∧ states'[newIndex en 2]? = some st' ∧
      st.transform.translation = ⟨-1, 0, 0⟩ ∧ st'.transform.translation = ⟨1, 0, 0⟩ := by
  let o : List ℝ := [0,0,0,0,0,0,0, 0,0,0,0,0,0,0, 0,0,0,0,0,0,0]
  let t : List ℝ := [0,0,0,0,0,0,0, 0,0,0,0,0,0,0, 1,0,0,0,0,0,0]
  let z : List ℝ := [0,0,0,0,0,0,0, 1,0,0,0,0,0,0]
  have hq : (⟨0, 0, 0, 1⟩ : Quat ℝ).normSq = 1 := by simp [Quat.normSq]
  obtain ⟨r, states, states', st, st', h1, h2, h3, h4, h5, ⟨jt0, jt1, jt2, j0, j1, j2, h6⟩, k0, k1, i0, -, i2, i3, h7⟩ :=
    exChain_world (q := ⟨0, 0, 0, 1⟩) hq (o := o) rfl ⟨rfl, rfl, rfl⟩ t z rfl rfl
  refine ⟨exChain ⟨0, 0, 0, 1⟩, exConst o, [true, false, true], r, t, z, states, states', st, st', exChain_valid _,
    exChain_unit hq, exConst_fits _ rfl, by simp [exConst, o], h1, h2, h3, ?_, ?_, rfl, h4, h5, ?_, ?_⟩
  · intro a ha
    match a with
    | 0 => funext k; fin_cases k <;> rfl
    | 1 => simp [EnabledAt] at ha
    | 2 => funext k; fin_cases k <;> rfl
    | _ + 3 => simp [EnabledAt] at ha
  · intro d hd ha
    match d with
    | 0 => simp [EnabledAt] at ha
    | 1 => funext k; fin_cases k <;> rfl
    | 2 => simp [EnabledAt] at ha
    | _ + 3 => simp [exChain] at hd
  · have e : ∀ k, jointSlice t 0 k = 0 := by intro k; fin_cases k <;> rfl
    have e1 : ∀ k, jointSlice t 1 k = 0 := by intro k; fin_cases k <;> rfl
    have e2 : ∀ k : Fin 7, 3 ≤ k.val → jointSlice t 2 k = 0 := by
      intro k hk; fin_cases k <;> first | rfl | simp at hk
    have e20 : jointSlice t 2 0 = 1 := rfl
    have e21 : jointSlice t 2 1 = 0 := rfl
    have e22 : jointSlice t 2 2 = 0 := rfl
    rw [h6, rest_local (fun k _ => e k), rest_local (fun k _ => e1 k), rest_local e2, j0, j1, j2]
    simp only [e, e1, e20, e21, e22]
    rw [Transform.one_mul']
    show (_ + Quat.rotate _ _) + Quat.rotate (Quat.one * _) _ = _
    rw [Quat.one_mul']
    ext <;> simp [Quat.rotate, Quat.one, Quat.vec, Vec3.cross] <;> norm_num
  · have e : ∀ k, jointSlice z 0 k = 0 := by intro k; fin_cases k <;> rfl
    have e2 : ∀ k : Fin 7, 3 ≤ k.val → jointSlice z 1 k = 0 := by
      intro k hk; fin_cases k <;> first | rfl | simp at hk
    have e20 : jointSlice z 1 0 = 1 := rfl
    have e21 : jointSlice z 1 1 = 0 := rfl
    have e22 : jointSlice z 1 2 = 0 := rfl
    rw [h7, rest_local (fun k _ => e k), rest_local e2, i0, i3]
    simp only [e, e20, e21, e22]
    rw [Transform.one_mul']
    show _ + Quat.rotate Quat.one _ = _
    rw [Quat.rotate_one]
    ext <;> simp

/-- A case that meets the hypotheses of `C21_world_partial` with a nonzero pose: the middle joint is half a turn
from its parent and is removed, and the kept joints rotate. -/
example : ∃ r : Simplified, simplifySkeleton (exChain ⟨0, 0, 0, 1⟩) (exConst (List.replicate 21 0)) [true, false, true] =
    some (.ok r) ∧ ∃ states states',
    skeletonState (exChain ⟨0, 0, 0, 1⟩) [0,0,0,0,0,1,0, 0,0,0,0,0,0,0, 0,0,0,2,0,0,0] false = some states ∧
    skeletonState r.skeleton [0,0,0,0,0,1,0, 0,0,0,2,0,0,0] false = some states' := by
  have hq : (⟨0, 0, 0, 1⟩ : Quat ℝ).normSq = 1 := by simp [Quat.normSq]
  obtain ⟨r, states, states', st, st', h1, h2, h3, -⟩ :=
    exChain_world (q := ⟨0, 0, 0, 1⟩) hq (o := List.replicate 21 0) rfl ⟨rfl, rfl, rfl⟩
      [0,0,0,0,0,1,0, 0,0,0,0,0,0,0, 0,0,0,2,0,0,0] [0,0,0,0,0,1,0, 0,0,0,2,0,0,0] rfl rfl
  exact ⟨r, h1, states, states', h2, h3⟩

end Momentum
