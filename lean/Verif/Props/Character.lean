import Verif.Lemmas.Character3
import Mathlib.Tactic.NormNum

/-!
# C22: removing joints from a character
-/

namespace Momentum
open Classical Skeleton

section
variable {K : Type} [Zero K] [DecidableEq K]

theorem removeJoints_some {c : Character K} (hv : c.Valid) {rem : List Nat} {r : Character K}
    (h : removeJoints c rem = some r) :
    (∀ j ∈ rem, j < c.skeleton.joints.length) ∧ Removed c rem r := by
  have hrem : ∀ j ∈ rem, j < c.skeleton.joints.length := by
    cases hm : markRemoved c.skeleton.joints.length rem with
    | none => simp [removeJoints, hm] at h
    | some flags => exact (markRemoved_some hm).1
  obtain ⟨f, jmUp, h1, h2, -, h4⟩ := removeJoints_core hv hrem
  refine ⟨hrem, ?_⟩
  rw [h1] at h
  cases hs : mapOptSkin c.skinWeights jmUp with
  | none => rw [hs] at h; simp at h
  | some skin =>
    rw [hs] at h
    simp only [Option.map_some, Option.some.injEq] at h
    subst h
    unfold mapOptSkin at hs
    cases hw : c.skinWeights with
    | none =>
      rw [hw] at hs
      simp only [Option.some.injEq] at hs
      subst hs
      exact h4 none (by rw [hw]) (by simp)
    | some w =>
      rw [hw] at hs
      simp only at hs
      cases hms : mapSkinWeights w jmUp with
      | none => rw [hms] at hs; simp at hs
      | some w' =>
        rw [hms] at hs
        simp only [Option.map_some, Option.some.injEq] at hs
        subst hs
        refine h4 (some w') (by rw [hw]; rfl) ?_
        intro w'' e
        cases e
        exact ⟨w, hw, mapSkin_inv h2 hms⟩

/-- **C22** (when it succeeds).  On a character with all indices in range, `removeJoints` returns exactly
when every joint to remove exists and every joint that carries a non-zero skinning weight has a kept joint at
or above it. -/
theorem C22_succeeds_iff (c : Character K) (hv : c.Valid) (rem : List Nat) :
    (∃ r, removeJoints c rem = some r) ↔
      (∀ j ∈ rem, j < c.skeleton.joints.length) ∧
      ∀ w, c.skinWeights = some w → ∀ row ∈ w, ∀ iw ∈ row, iw.2 ≠ 0 →
        ∃ a, c.skeleton.Anc iw.1 a ∧ c.skeleton.Kept rem a := by
  constructor
  · rintro ⟨r, h⟩
    have hrem := (removeJoints_some hv h).1
    refine ⟨hrem, ?_⟩
    obtain ⟨f, jmUp, h1, h2, -, -⟩ := removeJoints_core hv hrem
    intro w hw row hrow iw hiw hne
    rw [h1, hw] at h
    simp only [mapOptSkin] at h
    cases hms : mapSkinWeights w jmUp with
    | none => rw [hms] at h; simp at h
    | some w' =>
      obtain ⟨row', hrow', hm⟩ := mapM_mem (by unfold mapSkinWeights at hms; exact hms) hrow
      obtain ⟨iw', -, hm'⟩ := mapM_mem hm hiw
      rw [if_neg hne] at hm'
      cases hj : jmUp[iw.1]? with
      | none => rw [hj] at hm'; simp at hm'
      | some m =>
        cases m with
        | none => rw [hj] at hm'; simp at hm'
        | some k =>
          obtain ⟨a, ha, -⟩ := h2 _ _ hj
          exact ⟨a, ha.up, ha.sat⟩
  · rintro ⟨hrem, hskin⟩
    obtain ⟨f, jmUp, h1, -, h3, -⟩ := removeJoints_core hv hrem
    rw [h1]
    cases hw : c.skinWeights with
    | none => exact ⟨f none, rfl⟩
    | some w =>
      obtain ⟨w', hw'⟩ := mapSkin_of (s := c.skeleton) (P := c.skeleton.Kept rem) (jmUp := jmUp) (w := w)
        (fun row hrow iw hiw hne => h3 iw.1 (hv.skin w hw row hrow iw hiw) (hskin w hw row hrow iw hiw hne))
      exact ⟨f (some w'), by simp [mapOptSkin, hw']⟩

/-- **C22** (skeleton).  The result has exactly the joints that neither are removed nor have a removed
ancestor, in the original order: joint `j` becomes joint `rankIn _ j` (the number of kept joints before it),
unchanged except that its parent is renumbered the same way (the parent of a kept joint is kept); and parents
precede their children. -/
theorem C22_skeleton (c : Character K) (hv : c.Valid) (rem : List Nat) (r : Character K)
    (h : removeJoints c rem = some r) :
    r.skeleton.joints.length = (keptBelow (c.skeleton.Kept rem) c.skeleton.joints.length).length ∧
    (∀ (j : Nat) (jt : Joint K), c.skeleton.joints[j]? = some jt → c.skeleton.Kept rem j →
      r.skeleton.joints[rankIn (c.skeleton.Kept rem) j]? =
        some { jt with parent := jt.parent.map (rankIn (c.skeleton.Kept rem)) } ∧
      ∀ p, jt.parent = some p → c.skeleton.Kept rem p) ∧
    r.skeleton.Valid := by
  have hr := (removeJoints_some hv h).2
  have hj := hr.joints
  have hlen : r.skeleton.joints.length =
      (keptBelow (c.skeleton.Kept rem) c.skeleton.joints.length).length := by
    rw [hj, filterMap_lookup_length]
    intro k hk; exact (mem_keptBelow.1 hk).1
  have hget : ∀ (k : Nat), r.skeleton.joints[k]? =
      ((keptBelow (c.skeleton.Kept rem) c.skeleton.joints.length)[k]?).bind fun j =>
        (c.skeleton.joints[j]?).map (relabel c.skeleton rem) := by
    rw [hj]
    have : ∀ (l : List Nat), (∀ x ∈ l, x < c.skeleton.joints.length) → ∀ k : Nat,
        (l.filterMap fun j => (c.skeleton.joints[j]?).map (relabel c.skeleton rem))[k]? =
          (l[k]?).bind fun j => (c.skeleton.joints[j]?).map (relabel c.skeleton rem) := by
      intro l
      induction l with
      | nil => intro _ k; simp
      | cons a l ih =>
        intro hl k
        have ha := hl a (by simp)
        simp only [List.filterMap_cons, List.getElem?_eq_getElem ha, Option.map_some]
        cases k with
        | zero => simp [List.getElem?_eq_getElem ha]
        | succ k => simpa using ih (fun x hx => hl x (by simp [hx])) k
    exact this _ (fun x hx => (mem_keptBelow.1 hx).1)
  have hpar : ∀ (j : Nat) (jt : Joint K) (p : Nat), c.skeleton.joints[j]? = some jt →
      c.skeleton.Kept rem j → jt.parent = some p → c.skeleton.Kept rem p := by
    intro j jt p hjt hk hp
    exact ((kept_parent ⟨jt, hjt, hp⟩).1 hk).2
  refine ⟨hlen, ?_, ?_⟩
  · intro j jt hjt hk
    have hjl := (List.getElem?_eq_some_iff.1 hjt).1
    refine ⟨?_, fun p hp => hpar j jt p hjt hk hp⟩
    rw [hget, keptBelow_rank hjl hk, Option.bind_some, hjt]
    rfl
  · intro k jt' p' hk' hp'
    rw [hget] at hk'
    cases hkk : (keptBelow (c.skeleton.Kept rem) c.skeleton.joints.length)[k]? with
    | none => rw [hkk] at hk'; simp at hk'
    | some j =>
      rw [hkk, Option.bind_some] at hk'
      obtain ⟨hjl, hkept, hrank⟩ := rank_of_keptBelow hkk
      rw [List.getElem?_eq_getElem hjl] at hk'
      simp only [Option.map_some, Option.some.injEq] at hk'
      subst hk'
      simp only [relabel, Option.map_eq_some_iff] at hp'
      obtain ⟨p, hp, rfl⟩ := hp'
      have hlt := hv.skel j _ p (List.getElem?_eq_getElem hjl) hp
      rw [hrank]
      exact rankIn_lt hlt (hpar j _ p (List.getElem?_eq_getElem hjl) hkept hp)

/-- **C22** (attachments).  Locators and collision capsules survive exactly when their joint does, in order,
re-attached to the renumbered joint and otherwise unchanged; a limit survives exactly when all joints it
mentions are kept and all parameters it mentions still influence a kept joint. -/
theorem C22_attachments (c : Character K) (hv : c.Valid) (rem : List Nat) (r : Character K)
    (h : removeJoints c rem = some r) :
    r.locators = (c.locators.filter fun l => c.skeleton.Kept rem l.parent).map (fun l =>
      { l with parent := rankIn (c.skeleton.Kept rem) l.parent }) ∧
    r.collision.getD [] =
      ((c.collision.getD []).filter fun k => c.skeleton.Kept rem k.parent).map (fun k =>
        { k with parent := rankIn (c.skeleton.Kept rem) k.parent }) ∧
    r.parameterLimits = (c.parameterLimits.filter fun l =>
        (∀ j ∈ l.data.joints, c.skeleton.Kept rem j) ∧
        (∀ p ∈ l.data.params, c.Influences (c.skeleton.Kept rem) p)).map (fun l =>
      ⟨(l.data.renameJoints (rankIn (c.skeleton.Kept rem))).rename
        (rankIn (c.Influences (c.skeleton.Kept rem))), l.weight⟩) := by
  have hr := (removeJoints_some hv h).2
  exact ⟨hr.locators, hr.collision, hr.limits⟩

/-- **C22** (skinning).  The table keeps its shape and its weights; a slot with a non-zero weight moves to the
nearest kept joint at or above its joint, a slot with weight zero keeps its (old) joint number. -/
theorem C22_skinning (c : Character K) (hv : c.Valid) (rem : List Nat) (r : Character K)
    (h : removeJoints c rem = some r) (w' : List (List (Nat × K))) (hw' : r.skinWeights = some w') :
    ∃ w, c.skinWeights = some w ∧ List.Forall₂ (List.Forall₂ fun iw iw' =>
      iw'.2 = iw.2 ∧ (iw.2 = 0 → iw'.1 = iw.1) ∧
      (iw.2 ≠ 0 → ∃ a, c.skeleton.NearestUp (c.skeleton.Kept rem) iw.1 a ∧
        iw'.1 = rankIn (c.skeleton.Kept rem) a)) w w' := by
  have hr := (removeJoints_some hv h).2
  exact hr.skin w' hw'

/-- **C22** (parameters).  The result keeps, in order, the parameters with a coefficient on a kept joint
together with their names and their membership in the named parameter sets. -/
theorem C22_parameters (c : Character K) (hv : c.Valid) (rem : List Nat) (r : Character K)
    (h : removeJoints c rem = some r) :
    r.parameterTransform.transform.rows = 7 * r.skeleton.joints.length ∧
    r.parameterTransform.transform.cols =
      (keptBelow (c.Influences (c.skeleton.Kept rem)) c.parameterTransform.transform.cols).length ∧
    r.parameterTransform.name =
      (keptBelow (c.Influences (c.skeleton.Kept rem)) c.parameterTransform.transform.cols).filterMap
        (c.parameterTransform.name[·]?) ∧
    ∀ setName p', NamedMem r.parameterTransform.parameterSets setName p' ↔
      ∃ p < c.parameterTransform.transform.cols,
        NamedMem c.parameterTransform.parameterSets setName p ∧
        c.Influences (c.skeleton.Kept rem) p ∧ p' = rankIn (c.Influences (c.skeleton.Kept rem)) p := by
  have hr := (removeJoints_some hv h).2
  refine ⟨?_, ?_, hr.names, hr.sets⟩
  · rw [hr.matrix, (C22_skeleton c hv rem r h).1]
    simp only [keptBelow_length, Nat.mul_comm]
  · rw [hr.matrix]; rfl

end

/-- **C22** (motion of the kept joints).  Whatever values the model parameters have, the linear part of the
parameter transform drives every kept joint exactly as before. -/
theorem C22_joint_parameters {K : Type} [CommRing K] [DecidableEq K] (c : Character K) (hv : c.Valid)
    (rem : List Nat) (r : Character K) (h : removeJoints c rem = some r) (p p' : List K)
    (hp : ∀ q < c.parameterTransform.transform.cols, c.Influences (c.skeleton.Kept rem) q →
      p'.getD (rankIn (c.Influences (c.skeleton.Kept rem)) q) 0 = p.getD q 0)
    (j : Nat) (hj : j < c.skeleton.joints.length) (hk : c.skeleton.Kept rem j) (d : Nat) (hd : d < 7) :
    (r.parameterTransform.transform.mulVec p')[rankIn (c.skeleton.Kept rem) j * 7 + d]? =
      (c.parameterTransform.transform.mulVec p)[j * 7 + d]? := by
  have hr := (removeJoints_some hv h).2
  have hlt := rankIn_lt hj hk
  rw [mulVec_getElem _ _ _ (by rw [hr.matrix]; simp only; omega),
    mulVec_getElem _ _ _ (by rw [hv.rows]; omega)]
  congr 1
  rw [hr.matrix]
  simp only
  refine mapParamEntry_rowSum _ hd (by rw [rankMap_get hj, if_pos hk]) ?_ p p' ?_
  · intro i hi
    obtain ⟨hil, hm⟩ := rankMap_some hi
    by_cases hki : c.skeleton.Kept rem i
    · rw [if_pos hki] at hm
      exact rankIn_inj hki hk (by simpa using hm.symm)
    · rw [if_neg hki] at hm; simp at hm
  · intro e he hej
    have hi : c.Influences (c.skeleton.Kept rem) e.col := ⟨e, he, rfl, by rw [hej]; exact hk⟩
    have hc := (hv.pt.wf e he).2
    exact ⟨_, by rw [rankMap_get hc, if_pos hi], hp _ hc hi⟩

/-- **C22** (pose of the kept joints).  When every kept joint has the same seven joint parameters as before,
forward kinematics gives it the same local and world transform as before. -/
theorem C22_pose_unchanged (c : Character ℝ) (hv : c.Valid) (rem : List Nat) (r : Character ℝ)
    (h : removeJoints c rem = some r) (params params' : List ℝ) (cd : Bool) (states states' : List JointState)
    (hs : skeletonState c.skeleton params cd = some states)
    (hs' : skeletonState r.skeleton params' cd = some states')
    (hpar : ∀ j, j < c.skeleton.joints.length → c.skeleton.Kept rem j → ∀ d < 7,
      params'[7 * rankIn (c.skeleton.Kept rem) j + d]? = params[7 * j + d]?)
    (j : Nat) (hj : j < c.skeleton.joints.length) (hk : c.skeleton.Kept rem j) :
    states'[rankIn (c.skeleton.Kept rem) j]? = states[j]? := by
  obtain ⟨hlen', hjt', hv'⟩ := C22_skeleton c hv rem r h
  obtain ⟨hg, hl, hpl⟩ := skeletonState_some hv.skel hs
  obtain ⟨hg', hl', hpl'⟩ := skeletonState_some hv' hs'
  induction j using Nat.strong_induction_on with
  | _ j ih =>
    have hje := List.getElem?_eq_getElem hj
    obtain ⟨h1, h2⟩ := hjt' j _ hje hk
    have hrl := (List.getElem?_eq_some_iff.1 h1).1
    have hst : states[j]? = some states[j] := List.getElem?_eq_getElem (by omega)
    have hst' : states'[rankIn (c.skeleton.Kept rem) j]? =
        some (states'[rankIn (c.skeleton.Kept rem) j]'(by omega)) := List.getElem?_eq_getElem (by omega)
    rw [hst, hst', hg.eq j _ _ hje hst, hg'.eq _ _ _ h1 hst']
    have hslice : jointSlice params' (rankIn (c.skeleton.Kept rem) j) = jointSlice params j := by
      funext d
      unfold jointSlice
      rw [List.getD_eq_getElem?_getD, List.getD_eq_getElem?_getD, hpar j hj hk d.val d.isLt]
    rw [hslice]
    congr 1
    cases hp : c.skeleton.joints[j].parent with
    | none => rfl
    | some p =>
      have hpl := hv.skel j _ p hje hp
      have := ih p hpl (hpl.trans hj) (h2 p hp)
      simp only [Option.map_some, Option.bind_some, this]
      rfl

/-! ### A concrete character -/

/-- Root 0 with children 1 and 3, joint 2 below 1, joint 4 below 3; parameter 0 moves the root, parameter 1
bends joint 2, parameter 2 bends joints 3 and 4.  Joint 3 has a constant rotation offset of 5. -/
def exCharacter : Character ℚ where
  skeleton := ⟨[⟨"root", none, ⟨1, 0, 0, 0⟩, ⟨0, 0, 0⟩⟩, ⟨"a", some 0, ⟨1, 0, 0, 0⟩, ⟨1, 0, 0⟩⟩,
    ⟨"b", some 1, ⟨1, 0, 0, 0⟩, ⟨2, 0, 0⟩⟩, ⟨"c", some 0, ⟨1, 0, 0, 0⟩, ⟨0, 3, 0⟩⟩,
    ⟨"d", some 3, ⟨1, 0, 0, 0⟩, ⟨0, 0, 4⟩⟩]⟩
  parameterTransform :=
    { name := ["root_tx", "b_rx", "cd_rx"]
      transform := ⟨35, 3, [⟨0, 0, 1⟩, ⟨17, 1, 1⟩, ⟨24, 2, 1⟩, ⟨31, 2, 2⟩]⟩
      offsets := (List.replicate 35 0).set 24 5
      activeJointParams := ((((List.replicate 35 false).set 0 true).set 17 true).set 24 true).set 31 true
      parameterSets := [("bend", fun i => decide (i.val = 1 ∨ i.val = 2))]
      poseConstraints := []
      blendShapeParameters := []
      faceExpressionParameters := [] }
  parameterLimits := [⟨.minMax 1 (-1) 1, 1⟩, ⟨.linear 0 2 1 0 (-1) 1, 1⟩, ⟨.minMaxJoint 4 3 (-1) 1, 1⟩]
  locators := [⟨"l1", 2, ⟨0, 0, 0⟩, ⟨0, 0, 0⟩, 1, ⟨0, 0, 0⟩, ⟨0, 0, 0⟩⟩,
    ⟨"l2", 4, ⟨0, 0, 0⟩, ⟨0, 0, 0⟩, 1, ⟨0, 0, 0⟩, ⟨0, 0, 0⟩⟩]
  mesh := some [⟨0, 0, 0⟩, ⟨1, 1, 1⟩]
  skinWeights := some [[(1, 1 / 2), (2, 1 / 2)], [(4, 1), (2, 0)]]
  collision := some [⟨⟨Mat3.one, 0⟩, 1, 1, 1, 2⟩, ⟨⟨Mat3.one, 0⟩, 1, 1, 3, 2⟩]
  inverseBindPose := List.replicate 5 ⟨Mat3.one, 0⟩

theorem exCharacter_valid : exCharacter.Valid where
  skel := by
    intro i jt p h hp
    match i with
    | 0 | 1 | 2 | 3 | 4 => simp [exCharacter] at h; subst h; simp_all <;> omega
    | n + 5 => simp [exCharacter] at h
  rows := rfl
  pt :=
    { names := rfl
      bound := by simp [exCharacter, kMaxModelParams]
      offs := by simp [exCharacter]
      wf := by intro e he; simp [exCharacter] at he ⊢; rcases he with rfl | rfl | rfl | rfl <;> simp
      constraints := by simp [exCharacter]
      blend := by simp [exCharacter]
      face := by simp [exCharacter]
      lims := by
        intro l hl
        simp [exCharacter] at hl ⊢
        rcases hl with rfl | rfl | rfl <;> simp [LimitData.params] }
  locs := by intro l hl; simp [exCharacter] at hl ⊢; rcases hl with rfl | rfl <;> simp
  caps := by
    intro g hg k hk
    simp only [exCharacter, Option.some.injEq] at hg
    subst hg
    simp [exCharacter] at hk ⊢
    rcases hk with rfl | rfl <;> simp
  lims := by
    intro l hl
    simp [exCharacter] at hl ⊢
    rcases hl with rfl | rfl | rfl <;> simp [LimitData.joints]
  skin := by
    intro w hw row hrow iw hiw
    simp only [exCharacter, Option.some.injEq] at hw
    subst hw
    simp [exCharacter] at hrow ⊢
    rcases hrow with rfl | rfl <;> simp at hiw <;> rcases hiw with rfl | rfl <;> simp

theorem exCharacter_root (j : Nat) (hj : j < 5) : exCharacter.skeleton.Anc j 0 := by
  have h1 : exCharacter.skeleton.ParentRel 1 0 := ⟨_, rfl, rfl⟩
  have h2 : exCharacter.skeleton.ParentRel 2 1 := ⟨_, rfl, rfl⟩
  have h3 : exCharacter.skeleton.ParentRel 3 0 := ⟨_, rfl, rfl⟩
  have h4 : exCharacter.skeleton.ParentRel 4 3 := ⟨_, rfl, rfl⟩
  match j with
  | 0 => exact .refl
  | 1 => exact .single h1
  | 2 => exact .tail (.single h2) h1
  | 3 => exact .single h3
  | 4 => exact .tail (.single h4) h3
  | n + 5 => omega

theorem exCharacter_kept0 : exCharacter.skeleton.Kept [1] 0 := by
  intro a ha
  rw [anc_iff_root (by simp [exCharacter]) (by simp [exCharacter])] at ha
  subst ha; simp

theorem exCharacter_kept3 : exCharacter.skeleton.Kept [1] 3 := by
  have h3 : exCharacter.skeleton.ParentRel 3 0 := ⟨_, rfl, rfl⟩
  rw [kept_parent h3]
  exact ⟨by simp, exCharacter_kept0⟩

theorem exCharacter_removed1 : ¬ exCharacter.skeleton.Kept [1] 1 := fun h => h 1 .refl (by simp)

theorem exCharacter_removed2 : ¬ exCharacter.skeleton.Kept [1] 2 :=
  fun h => h 1 (.single ⟨_, rfl, rfl⟩) (by simp)

/-- The hypotheses of the theorems above are met: removing joint 1 (and with it joint 2) succeeds. -/
theorem exCharacter_removes : ∃ r, removeJoints exCharacter [1] = some r := by
  rw [C22_succeeds_iff _ exCharacter_valid]
  refine ⟨by simp [exCharacter], fun w hw row hrow iw hiw _ => ⟨0, ?_, exCharacter_kept0⟩⟩
  exact exCharacter_root _ (exCharacter_valid.skin w hw row hrow iw hiw)

/-- Joint 3 becomes joint 1 of the result. -/
example : rankIn (exCharacter.skeleton.Kept [1]) 3 = 1 := by
  simp only [rankIn_succ, exCharacter_removed1, exCharacter_removed2, exCharacter_kept0, if_true, if_false]
  rfl

/-- **C22** (defect).  The constant joint offsets of the parameter transform are lost for *every* kept joint:
here joint 3 keeps its place in the skeleton, but the offset 5 of its rotation becomes 0, so that applying the
transform to the zero parameters no longer gives the character's rest joint parameters. -/
theorem C22_offsets_lost :
    ∃ (c r : Character ℚ) (rem : List Nat) (j : Nat), c.Valid ∧ removeJoints c rem = some r ∧
      j < c.skeleton.joints.length ∧ c.skeleton.Kept rem j ∧
      c.parameterTransform.offsets[7 * j + 3]? = some 5 ∧
      r.parameterTransform.offsets[7 * rankIn (c.skeleton.Kept rem) j + 3]? = some 0 := by
  obtain ⟨r, hr⟩ := exCharacter_removes
  refine ⟨exCharacter, r, [1], 3, exCharacter_valid, hr, by simp [exCharacter], exCharacter_kept3,
    by simp [exCharacter], ?_⟩
  rw [(removeJoints_some exCharacter_valid hr).2.offsets]
  have := rankIn_lt (P := exCharacter.skeleton.Kept [1]) (i := 3) (j := exCharacter.skeleton.joints.length)
    (by simp [exCharacter]) exCharacter_kept3
  rw [List.getElem?_replicate, if_pos (by omega)]

/-- **C22** (defect).  `activeJointParams` of the result is never set: it says that no parameter moves joint 0,
although parameter 0 still does. -/
theorem C22_active_flags_lost :
    ∃ (c r : Character ℚ) (rem : List Nat), c.Valid ∧ removeJoints c rem = some r ∧
      c.parameterTransform.activeJointParams[0]? = some true ∧
      c.Influences (fun j => j = 0 ∧ c.skeleton.Kept rem j) 0 ∧
      r.parameterTransform.activeJointParams[7 * rankIn (c.skeleton.Kept rem) 0]? = some false := by
  obtain ⟨r, hr⟩ := exCharacter_removes
  refine ⟨exCharacter, r, [1], exCharacter_valid, hr, by simp [exCharacter],
    ⟨⟨0, 0, 1⟩, by simp [exCharacter], rfl, rfl, exCharacter_kept0⟩, ?_⟩
  rw [(removeJoints_some exCharacter_valid hr).2.active]
  have := rankIn_lt (P := exCharacter.skeleton.Kept [1]) (i := 0) (j := exCharacter.skeleton.joints.length)
    (by simp [exCharacter]) exCharacter_kept0
  rw [List.getElem?_replicate, if_pos (by omega)]

end Momentum
