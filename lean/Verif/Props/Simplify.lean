import Verif.Lemmas.Simplify
import Verif.Props.Skinning
import Verif.Props.ParameterTransform2

/-!
# C21: simplifying a skeleton
-/

namespace Momentum
open Skeleton

/-! ### The reference state -/

theorem mulVec_zero (A : SparseMat ℝ) (n : Nat) :
    A.mulVec (List.replicate n 0) = List.replicate A.rows 0 := by
  unfold SparseMat.mulVec
  apply List.ext_getElem
  · simp
  · intro i h1 h2
    simp only [List.getElem_map, List.getElem_range, List.getElem_replicate]
    apply List.sum_eq_zero
    intro x hx
    obtain ⟨e, -, rfl⟩ := List.mem_map.1 hx
    have : (List.replicate n (0 : ℝ)).getD e.col 0 = 0 := by
      rw [List.getD_eq_getElem?_getD, List.getElem?_replicate]
      split_ifs <;> rfl
    rw [this, mul_zero]

theorem zeroOffsets_slice (offsets : List ℝ) (en : List Bool) (j : Nat) :
    (EnabledAt en j → jointSlice (zeroOffsets offsets en) j = fun _ => 0) ∧
    (¬ EnabledAt en j → jointSlice (zeroOffsets offsets en) j = jointSlice offsets j) := by
  have hdiv : ∀ k : Fin 7, (7 * j + k.val) / 7 = j := fun k => by omega
  constructor
  · intro h
    funext k
    unfold jointSlice zeroOffsets
    rw [List.getD_eq_getElem?_getD, List.getElem?_mapIdx]
    have : en.getD ((7 * j + k.val) / 7) false = true := by
      rw [hdiv, List.getD_eq_getElem?_getD, show en[j]? = some true from h]; rfl
    cases offsets[7 * j + k.val]? with
    | none => rfl
    | some x =>
      simp only [Option.map_some, this, if_true]; rfl
  · intro h
    funext k
    unfold jointSlice zeroOffsets
    rw [List.getD_eq_getElem?_getD (l := List.mapIdx _ _), List.getElem?_mapIdx,
      List.getD_eq_getElem?_getD (l := offsets)]
    have : en.getD ((7 * j + k.val) / 7) false = false := by
      rw [hdiv, List.getD_eq_getElem?_getD]
      cases hc : en[j]? with
      | none => rfl
      | some b =>
        cases b with
        | false => rfl
        | true => exact absurd hc h
    cases offsets[7 * j + k.val]? with
    | none => rfl
    | some x =>
      simp only [Option.map_some, this]; simp

theorem referenceState_ok {s : Skeleton ℝ} (hv : s.Valid) {pt : ParameterTransform ℝ} {en : List Bool}
    (hr : pt.transform.rows = s.joints.length * 7) (ho : pt.offsets.length = pt.transform.rows) :
    ∃ ref, referenceState s pt en = .ok ref ∧
      skeletonState s (zeroOffsets pt.offsets en) false = some ref := by
  have hl : (zeroOffsets pt.offsets en).length = s.joints.length * 7 := by simp [zeroOffsets, ho, hr]
  obtain ⟨ref, h1, -, -⟩ := skeletonState_good hv false hl
  refine ⟨ref, ?_, h1⟩
  unfold referenceState
  rw [if_neg (by omega)]
  have hap : ({ pt with offsets := zeroOffsets pt.offsets en } : ParameterTransform ℝ).apply
      (List.replicate pt.transform.cols 0) = some (zeroOffsets pt.offsets en) := by
    unfold ParameterTransform.apply
    rw [if_pos (by simp), if_pos (by rw [hl, hr])]
    simp only
    rw [mulVec_zero, addVec]
    congr 1
    apply List.ext_getElem
    · simp [hl, hr]
    · intro i g1 g2
      simp
  rw [hap]
  simp only [Option.bind_eq_bind, Option.bind_some]
  rw [h1]
  rfl

/-! ### Outcome and structure -/

/-- The parameter transform fits the skeleton. -/
structure FitsSkeleton (s : Skeleton ℝ) (pt : ParameterTransform ℝ) : Prop where
  rows : pt.transform.rows = s.joints.length * 7
  offs : pt.offsets.length = pt.transform.rows
  wf : pt.transform.WF
  names : pt.name.length = pt.transform.cols

theorem simplify_run {s : Skeleton ℝ} (hv : s.Valid) {pt : ParameterTransform ℝ} (hf : FitsSkeleton s pt)
    {en : List Bool} (hl : en.length = s.joints.length) (ht : true ∈ en) (hr : s.RootsEnabled en) :
    ∃ ref st q, skeletonState s (zeroOffsets pt.offsets en) false = some ref ∧
      SimplInv s en (worldAffines ref) s.joints.length st ∧
      pt.mapJoints st.joints.length st.inter = some q ∧
      simplifySkeleton s pt en = some (.ok ⟨⟨st.joints⟩, q, st.map⟩) := by
  obtain ⟨ref, e1, e2⟩ := referenceState_ok hv (en := en) hf.rows hf.offs
  have hrl : (worldAffines ref).length = s.joints.length := by
    simp [worldAffines, (skeletonState_some hv e2).2.1]
  obtain ⟨st, e3, hI⟩ := (simplifyFold hv hl hrl s.joints.length le_rfl).1 fun j jt _ => hr j jt
  have hpos : 0 < st.joints.length := by
    obtain ⟨k, hk, hkt⟩ := List.getElem_of_mem ht
    have : EnabledAt en k := by rw [EnabledAt, List.getElem?_eq_getElem hk, hkt]
    have := newIndex_lt (b := s.joints.length) (by omega) this
    rw [hI.len]; omega
  obtain ⟨q, hq⟩ := C16_defined pt st.joints.length st.inter hf.wf hf.offs
    (by rw [hI.inter.1, hf.rows]) (by
      intro i t hit
      have hil : i < s.joints.length := by rw [← hI.inter.1]; exact getElem?_lt hit
      by_cases he : EnabledAt en i
      · rw [(hI.inter.2 i hil).1 hil he] at hit
        cases hit
        rw [hI.len]
        exact newIndex_lt hil he
      · rw [(hI.inter.2 i hil).2 (fun h => he h.2)] at hit
        simp at hit)
  refine ⟨ref, st, q, e2, hI, hq, ?_⟩
  unfold simplifySkeleton
  rw [if_neg (by simpa using hl), if_neg (by simpa using ht), e1]
  simp only [thenStep]
  unfold simplifyLoop
  rw [e3]
  simp only
  unfold simplifyFinish
  have : st.joints.isEmpty = false := by
    cases hc : st.joints with
    | nil => rw [hc] at hpos; simp at hpos
    | cons => rfl
  rw [this, hq]
  rfl

/-- **C21** (outcome).  On a valid skeleton with a fitting parameter transform the function always ends, never
accesses anything out of range, and reports an error exactly when the enabled list has the wrong size, enables
nothing, or disables a root. -/
theorem C21_outcome (s : Skeleton ℝ) (hv : s.Valid) (pt : ParameterTransform ℝ) (hf : FitsSkeleton s pt)
    (en : List Bool) :
    ((en.length = s.joints.length ∧ true ∈ en ∧ s.RootsEnabled en) →
      ∃ r, simplifySkeleton s pt en = some (.ok r)) ∧
    (¬ (en.length = s.joints.length ∧ true ∈ en ∧ s.RootsEnabled en) →
      simplifySkeleton s pt en = some .throws) := by
  constructor
  · rintro ⟨h1, h2, h3⟩
    obtain ⟨_, _, _, _, _, _, h⟩ := simplify_run hv hf h1 h2 h3
    exact ⟨_, h⟩
  · intro h
    by_cases h1 : en.length = s.joints.length
    · by_cases h2 : true ∈ en
      · have h3 : ¬ s.RootsEnabled en := fun h3 => h ⟨h1, h2, h3⟩
        obtain ⟨ref, e1, e2⟩ := referenceState_ok hv (en := en) hf.rows hf.offs
        have hrl : (worldAffines ref).length = s.joints.length := by
          simp [worldAffines, (skeletonState_some hv e2).2.1]
        unfold simplifySkeleton
        rw [if_neg (by simpa using h1), if_neg (by simpa using h2), e1]
        simp only [thenStep]
        unfold simplifyLoop
        rw [(simplifyFold hv h1 hrl s.joints.length le_rfl).2 ?_]
        intro hc
        exact h3 fun j jt hj => hc j jt (getElem?_lt hj) hj
      · simp [simplifySkeleton, h1, h2]
    · simp [simplifySkeleton, h1]

/-- What a successful run went through. -/
theorem simplify_ok {s : Skeleton ℝ} (hv : s.Valid) {pt : ParameterTransform ℝ} (hf : FitsSkeleton s pt)
    {en : List Bool} {r : Simplified} (h : simplifySkeleton s pt en = some (.ok r)) :
    en.length = s.joints.length ∧ ∃ ref st, skeletonState s (zeroOffsets pt.offsets en) false = some ref ∧
      SimplInv s en (worldAffines ref) s.joints.length st ∧ r.skeleton = ⟨st.joints⟩ ∧ r.jointMap = st.map ∧
      pt.mapJoints st.joints.length st.inter = some r.parameterTransform := by
  by_cases hc : en.length = s.joints.length ∧ true ∈ en ∧ s.RootsEnabled en
  · obtain ⟨ref, st, q, e1, e2, e3, e4⟩ := simplify_run hv hf hc.1 hc.2.1 hc.2.2
    rw [e4] at h
    cases h
    exact ⟨hc.1, ref, st, e1, e2, rfl, rfl, e3⟩
  · rw [(C21_outcome s hv pt hf en).2 hc] at h
    cases h

/-- **C21** (structure).  The result's joints are exactly the enabled joints in their order (the joint `j` is at
position `newIndex en j`), each attached to its nearest enabled ancestor; parents precede children; the joint map
sends every joint to its nearest enabled ancestor-or-self. -/
theorem C21_structure (s : Skeleton ℝ) (hv : s.Valid) (pt : ParameterTransform ℝ) (hf : FitsSkeleton s pt)
    (en : List Bool) (r : Simplified) (h : simplifySkeleton s pt en = some (.ok r)) :
    r.skeleton.Valid ∧ r.skeleton.joints.length = en.count true ∧
    (∀ (j : Nat) (jt : Joint ℝ), s.joints[j]? = some jt → EnabledAt en j →
      ∃ jt', r.skeleton.joints[newIndex en j]? = some jt' ∧ jt'.name = jt.name ∧
        (jt.parent = none → jt'.parent = none) ∧
        ∀ p, jt.parent = some p → ∃ x, s.Nearest en p x ∧ jt'.parent = some (newIndex en x)) ∧
    r.jointMap.length = s.joints.length ∧
    ∀ j < s.joints.length, ∃ x, s.Nearest en j x ∧ r.jointMap[j]? = some (some (newIndex en x)) := by
  obtain ⟨hl, ref, st, e1, hI, e2, e3, -⟩ := simplify_ok hv hf h
  have hcount : newIndex en s.joints.length = en.count true := by
    unfold newIndex; rw [← hl, List.take_length]
  have hpos : ∀ k < newIndex en s.joints.length, ∃ j, j < s.joints.length ∧ EnabledAt en j ∧ newIndex en j = k := by
    have : ∀ n, n ≤ s.joints.length → ∀ k < newIndex en n, ∃ j, j < n ∧ EnabledAt en j ∧ newIndex en j = k := by
      intro n
      induction n with
      | zero => intro _ k hk; simp [newIndex] at hk
      | succ n ih =>
        intro hn k hk
        have hb := List.getElem?_eq_getElem (l := en) (i := n) (by omega)
        have hs := newIndex_succ n _ hb
        by_cases hlt : k < newIndex en n
        · obtain ⟨j, a, b, c⟩ := ih (by omega) k hlt
          exact ⟨j, by omega, b, c⟩
        · by_cases he : en[n]'(by omega) = true
          · rw [if_pos he] at hs
            refine ⟨n, by omega, ?_, by omega⟩
            rw [EnabledAt, hb, he]
          · rw [if_neg he] at hs
            omega
    exact this _ le_rfl
  refine ⟨?_, ?_, ?_, ?_, ?_⟩
  · rw [e2]
    intro k jt' p hk hp
    have hkl : k < newIndex en s.joints.length := by rw [← hI.len]; exact getElem?_lt hk
    obtain ⟨j, hj, he, rfl⟩ := hpos k hkl
    obtain ⟨jt2, g1, g2, g3, g4⟩ := hI.joints j _ hj he (List.getElem?_eq_getElem hj)
    rw [show (⟨st.joints⟩ : Skeleton ℝ).joints = st.joints from rfl, g1] at hk
    cases hk
    cases hpar : s.joints[j].parent with
    | none => rw [g3 hpar, hpar] at hp; cases hp
    | some q =>
      obtain ⟨x, Q, tx, ta, n1, -, -, -, n2, -⟩ := g4 q hpar
      rw [n2] at hp
      cases hp
      have hq := hv j _ q (List.getElem?_eq_getElem hj) hpar
      have := anc_le hv n1.1
      exact newIndex_lt (by omega) n1.2.1
  · rw [e2, ← hcount]; exact hI.len
  · intro j jt hj he
    obtain ⟨jt', g1, g2, g3, g4⟩ := hI.joints j jt (getElem?_lt hj) he hj
    refine ⟨jt', by rw [e2]; exact g1, g2, fun hp => by rw [g3 hp, hp], fun p hp => ?_⟩
    obtain ⟨x, Q, tx, ta, n1, -, -, -, n2, -⟩ := g4 p hp
    exact ⟨x, n1, n2⟩
  · rw [e3]; exact hI.mapLen
  · intro j hj
    rw [e3]
    exact hI.map j hj

/-! ### World transforms of the kept joints -/

theorem angleAxis_zero (v : Vec3 ℝ) : Quat.angleAxis 0 v = Quat.one := by
  ext <;> simp [Quat.angleAxis, Quat.one]

/-- The local transform without pose rotation and scale. -/
theorem rest_local {jt : Joint ℝ} {p : JointVec} {ps : Option JointState} {cd : Bool}
    (h : ∀ k : Fin 7, 3 ≤ k.val → p k = 0) :
    (JointState.set jt p ps cd).localTransform =
      ⟨jt.preRotation, jt.translationOffset + ⟨p 0, p 1, p 2⟩, 1⟩ := by
  refine Transform.ext ?_ rfl ?_
  · rw [JointState.set_localRotation, h 3 (by decide), h 4 (by decide), h 5 (by decide)]
    simp only [angleAxis_zero, Quat.mul_one']
  · show (2 : ℝ) ^ (p 6) = 1
    rw [h 6 (by decide), Real.rpow_zero]

theorem mul_translation (a b : Transform ℝ) : (a * b).translation = a.toAffine3.apply b.translation := by
  show a.translation + a.rotation.rotate (a.scale • b.translation) = _
  unfold Transform.toAffine3 Affine.apply
  simp only [Transform.toLinear_mulVec]
  rw [Quat.rotate_smul]
  abel

/-- Along a chain of disabled joints both states move by the same transform `D`, whose rotation is the product of
the pre-rotations. -/
theorem chain_transform {s : Skeleton ℝ} (hv : s.Valid) (hpre : ∀ jt ∈ s.joints, jt.preRotation.normSq = 1)
    {en : List Bool} {params ref0 : List ℝ} {cd cd0 : Bool} {states refs : List JointState}
    (h : FKGood s params cd states) (hlen : states.length = s.joints.length)
    (h0 : FKGood s ref0 cd0 refs) (hlen0 : refs.length = s.joints.length)
    (hsame : ∀ d, d < s.joints.length → ¬ EnabledAt en d → jointSlice params d = jointSlice ref0 d ∧
      ∀ k : Fin 7, 3 ≤ k.val → jointSlice params d k = 0)
    {x p : Nat} {Q : Quat ℝ} (hc : PreChain s x p Q) (hp : p < s.joints.length) (hn : s.Nearest en p x) :
    ∃ D : Transform ℝ, D.rotation = Q ∧ D.scale = 1 ∧ Q.normSq = 1 ∧
      worldOf states (some p) = worldOf states (some x) * D ∧
      worldOf refs (some p) = worldOf refs (some x) * D := by
  induction hc with
  | done =>
    exact ⟨Transform.one, rfl, rfl, Quat.normSq_one, (Transform.mul_one' _).symm, (Transform.mul_one' _).symm⟩
  | @step p q pj Q hpj hne hq hQ ih =>
    have hrel : s.ParentRel p q := ⟨pj, hpj, hq⟩
    have hdis : ¬ EnabledAt en p := fun he => hne (nearest_unique hv (nearest_self he) hn)
    have hlt := parentRel_lt hv hrel
    obtain ⟨D, d1, d2, d3, d4, d5⟩ := ih (by omega) ((nearest_parent hrel hdis).1 hn)
    have e1 := List.getElem?_eq_getElem (l := states) (i := p) (by omega)
    have e2 := List.getElem?_eq_getElem (l := refs) (i := p) (by omega)
    obtain ⟨s1, s2⟩ := hsame p hp hdis
    have l1 : (states[p]'(by omega)).localTransform =
        ⟨pj.preRotation, pj.translationOffset + ⟨jointSlice params p 0, jointSlice params p 1,
          jointSlice params p 2⟩, 1⟩ := by
      rw [h.eq p pj _ hpj e1]; exact rest_local s2
    have l2 : (refs[p]'(by omega)).localTransform =
        ⟨pj.preRotation, pj.translationOffset + ⟨jointSlice params p 0, jointSlice params p 1,
          jointSlice params p 2⟩, 1⟩ := by
      rw [h0.eq p pj _ hpj e2, s1]; exact rest_local (by rw [← s1]; exact s2)
    have hu : pj.preRotation.normSq = 1 := hpre _ (List.mem_of_getElem? hpj)
    refine ⟨D * ⟨pj.preRotation, pj.translationOffset + ⟨jointSlice params p 0, jointSlice params p 1,
          jointSlice params p 2⟩, 1⟩, ?_, ?_, ?_, ?_, ?_⟩
    · show D.rotation * pj.preRotation = _
      rw [d1]
    · show D.scale * 1 = 1
      rw [d2, mul_one]
    · rw [Quat.normSq_mul, d3, hu, one_mul]
    · rw [h.worldOf_eq hv hpj e1, hq, l1, d4]
      exact Transform.mul_assoc' (h.worldOf_unit hv hpre _).1 (by rw [d1]; exact d3) _
    · rw [h0.worldOf_eq hv hpj e2, hq, l2, d5]
      exact Transform.mul_assoc' (h0.worldOf_unit hv hpre _).1 (by rw [d1]; exact d3) _

theorem chain_one {s : Skeleton ℝ} {x p : Nat} {Q : Quat ℝ} (hc : PreChain s x p Q)
    (h : ∀ (d : Nat) (jt : Joint ℝ), s.joints[d]? = some jt → s.Anc p d → s.Anc d x → d ≠ x →
      jt.preRotation = Quat.one) (ha : s.Anc p x) : Q = Quat.one := by
  induction hc with
  | done => rfl
  | @step p q pj Q hpj hne hq hQ ih =>
    have hrel : s.ParentRel p q := ⟨pj, hpj, hq⟩
    have haq : s.Anc q x := ((anc_iff_parent hrel).1 ha).resolve_left fun h => hne h.symm
    rw [ih (fun d jt hd h1 h2 h3 => h d jt hd ((anc_iff_parent hrel).2 (Or.inr h1)) h2 h3) haq,
      h p pj hpj .refl ha hne, Quat.one_mul']

/-- **C21** (poses).  Take any pose of the original in which the disabled joints are at their constant offsets,
and the pose of the simplified skeleton with the same parameters for the kept joints.  Then every kept joint has
the same world transform, provided that (1) the constant offsets of the disabled joints are translations, and
(2) a kept joint below a disabled one is not translated by its parameters, or the disabled joints have no
pre-rotation.  Both provisos are needed: see `C21_rotation_offset_lost` and `C21_translation_turned`. -/
theorem C21_world_partial (s : Skeleton ℝ) (hv : s.Valid) (hpre : ∀ jt ∈ s.joints, jt.preRotation.normSq = 1)
    (pt : ParameterTransform ℝ) (hf : FitsSkeleton s pt) (en : List Bool) (r : Simplified)
    (h : simplifySkeleton s pt en = some (.ok r))
    (params params' : List ℝ) (cd cd' : Bool) (states states' : List JointState)
    (hst : skeletonState s params cd = some states)
    (hst' : skeletonState r.skeleton params' cd' = some states')
    (hkept : ∀ a, EnabledAt en a → jointSlice params' (newIndex en a) = jointSlice params a)
    (hdis : ∀ d, d < s.joints.length → ¬ EnabledAt en d → jointSlice params d = jointSlice pt.offsets d)
    (hoff : ∀ d, d < s.joints.length → ¬ EnabledAt en d → ∀ k : Fin 7, 3 ≤ k.val → jointSlice pt.offsets d k = 0)
    (htr : ∀ a p, EnabledAt en a → s.ParentRel a p → ¬ EnabledAt en p →
      (∀ k : Fin 7, k.val < 3 → jointSlice params a k = 0) ∨
      ∀ (d : Nat) (jt : Joint ℝ), s.joints[d]? = some jt → ¬ EnabledAt en d → jt.preRotation = Quat.one) :
    ∀ (a : Nat) (st st' : JointState), EnabledAt en a → states[a]? = some st →
      states'[newIndex en a]? = some st' → st'.transform = st.transform := by
  obtain ⟨hl, ref, sst, e1, hI, e2, -, -⟩ := simplify_ok hv hf h
  obtain ⟨g, gl, -⟩ := skeletonState_some hv hst
  obtain ⟨g0, gl0, -⟩ := skeletonState_some hv e1
  have hv' := (C21_structure s hv pt hf en r h).1
  obtain ⟨g', gl', -⟩ := skeletonState_some hv' hst'
  have hsame : ∀ d, d < s.joints.length → ¬ EnabledAt en d →
      jointSlice params d = jointSlice (zeroOffsets pt.offsets en) d ∧
      ∀ k : Fin 7, 3 ≤ k.val → jointSlice params d k = 0 := by
    intro d hd he
    refine ⟨by rw [hdis d hd he, (zeroOffsets_slice pt.offsets en d).2 he], fun k hk => ?_⟩
    rw [hdis d hd he]; exact hoff d hd he k hk
  have key : ∀ a, a < s.joints.length → EnabledAt en a →
      worldOf states' (some (newIndex en a)) = worldOf states (some a) := by
    intro a
    induction a using Nat.strong_induction_on with
    | _ a ih =>
      intro ha he
      have hj := List.getElem?_eq_getElem ha
      obtain ⟨jt', j1, -, j3, j4⟩ := hI.joints a _ ha he hj
      have hj' : r.skeleton.joints[newIndex en a]? = some jt' := by rw [e2]; exact j1
      have es := List.getElem?_eq_getElem (l := states) (i := a) (by omega)
      have es' := List.getElem?_eq_getElem (l := states') (i := newIndex en a)
        (by rw [gl']; exact getElem?_lt hj')
      rw [g.worldOf_eq hv hj es, g'.worldOf_eq hv' hj' es']
      rw [g.eq a _ _ hj es, g'.eq _ _ _ hj' es', hkept a he]
      cases hp : s.joints[a].parent with
      | none =>
        have hjj := j3 hp
        subst hjj
        rw [hp]
        rfl
      | some p =>
        have hrel : s.ParentRel a p := ⟨_, hj, hp⟩
        have hlt := parentRel_lt hv hrel
        obtain ⟨x, Q, tx, ta, n1, n2, n3, n4, n5, n6, n7⟩ := j4 p hp
        have hxp := anc_le hv n1.1
        rw [n5, ih x (by omega) (by omega) n1.2.1]
        obtain ⟨D, d1, d2, d3, d4, d5⟩ := chain_transform hv hpre g gl g0 gl0 hsame n2 (by omega) n1
        rw [d4, Transform.mul_assoc' (g.worldOf_unit hv hpre _).1 (by rw [d1]; exact d3)]
        congr 1
        -- the reference offset
        have er := List.getElem?_eq_getElem (l := ref) (i := a) (by omega)
        have hta : ta.translation = (worldOf ref (some a)).translation := by
          unfold worldAffines at n4
          rw [List.getElem?_map, er] at n4
          simp only [Option.map_some, Option.some.injEq] at n4
          rw [← n4]; simp [worldOf, er, Transform.toAffine3]
        have htx : tx = (worldOf ref (some x)).toAffine3 := by
          have ex := List.getElem?_eq_getElem (l := ref) (i := x) (by omega)
          unfold worldAffines at n3
          rw [List.getElem?_map, ex] at n3
          simp only [Option.map_some, Option.some.injEq] at n3
          rw [← n3]; simp [worldOf, ex]
        have hux := g0.worldOf_unit hv hpre (some x)
        have hla : (ref[a]'(by omega)).localTransform = ⟨s.joints[a].preRotation, s.joints[a].translationOffset, 1⟩ := by
          rw [g0.eq a _ _ hj er, (zeroOffsets_slice pt.offsets en a).1 he]
          rw [rest_local (fun _ _ => rfl)]
          congr 1
          ext <;> simp
        have hoffset : jt'.translationOffset = D.translation + Q.rotate s.joints[a].translationOffset := by
          rw [n7, hta, g0.worldOf_eq hv hj er, hp, d5, hla,
            Transform.mul_assoc' hux.1 (by rw [d1]; exact d3), mul_translation, htx,
            Affine.inverse_apply (affine_det hux.1 hux.2)]
          show D.translation + D.rotation.rotate (D.scale • s.joints[a].translationOffset) = _
          rw [d1, d2, one_smul]
        have hQt : Q.rotate ⟨jointSlice params a 0, jointSlice params a 1, jointSlice params a 2⟩ =
            ⟨jointSlice params a 0, jointSlice params a 1, jointSlice params a 2⟩ := by
          by_cases hep : EnabledAt en p
          · have hxp' := nearest_unique hv n1 (nearest_self hep)
            subst hxp'
            have : Q = Quat.one := chain_one n2 (fun d jt _ h1 h2 h3 => by
              have a1 := anc_le hv h1
              have a2 := anc_le hv h2
              omega) .refl
            rw [this, Quat.rotate_one]
          · rcases htr a p he hrel hep with hz | hz
            · rw [hz 0 (by decide), hz 1 (by decide), hz 2 (by decide)]
              exact Quat.rotate_zero Q
            · have : Q = Quat.one := chain_one n2 (fun d jt hd h1 h2 h3 => by
                refine hz d jt hd fun hed => h3 ?_
                have hx := n1.2.2 d h1 hed
                have a1 := anc_le hv hx
                have a2 := anc_le hv h2
                omega) n1.1
              rw [this, Quat.rotate_one]
        refine Transform.ext ?_ ?_ ?_
        · rw [JointState.set_localRotation]
          show _ = D.rotation * _
          rw [JointState.set_localRotation, n6, d1]
          simp only [Quat.mul_assoc']
        · show jt'.translationOffset + _ = D.translation + D.rotation.rotate (D.scale • (s.joints[a].translationOffset + _))
          rw [hoffset, d1, d2, one_smul, Quat.rotate_add, hQt]
          abel
        · show _ = D.scale * _
          rw [d2, one_mul]
          rfl
  intro a st st' he h1 h2
  have := key a (by rw [← gl]; exact getElem?_lt h1) he
  simpa [worldOf, h1, h2] using this

end Momentum
