import Verif.Props.Skinning

/-!
# C24: scaling a character; C53: transforming a character
-/

namespace Momentum
open Skeleton

/-! ### Scaling: poses -/

theorem scaledPose_mul {c : ℝ} {a a' b b' : Transform ℝ} (h1 : ScaledPose c a a') (h2 : ScaledPose c b b') :
    ScaledPose c (a * b) (a' * b') := by
  obtain ⟨r1, s1, t1⟩ := h1
  obtain ⟨r2, s2, t2⟩ := h2
  refine ⟨?_, ?_, ?_⟩
  · show a'.rotation * b'.rotation = a.rotation * b.rotation
    rw [r1, r2]
  · show a'.scale * b'.scale = a.scale * b.scale
    rw [s1, s2]
  · show a'.translation + a'.rotation.rotate (a'.scale • b'.translation) =
      c • (a.translation + a.rotation.rotate (a.scale • b.translation))
    rw [r1, s1, t1, t2]
    simp only [Quat.rotate_smul]
    ext <;> simp <;> ring

theorem scaleTranslations_slice (c : ℝ) (params : List ℝ) (j : Nat) (k : Fin 7) :
    jointSlice (scaleTranslations c params) j k =
      if k.val < 3 then c * jointSlice params j k else jointSlice params j k := by
  unfold jointSlice scaleTranslations
  rw [List.getD_eq_getElem?_getD, List.getElem?_mapIdx, List.getD_eq_getElem?_getD]
  have : (7 * j + k.val) % 7 = k.val := by omega
  cases params[7 * j + k.val]? with
  | none => simp
  | some x => simp [this]

theorem scaled_local (c : ℝ) (jt : Joint ℝ) (params : List ℝ) (j : Nat) (ps ps' : Option JointState)
    (cd : Bool) :
    ScaledPose c (JointState.set jt (jointSlice params j) ps cd).localTransform
      (JointState.set { jt with translationOffset := c • jt.translationOffset }
        (jointSlice (scaleTranslations c params) j) ps' cd).localTransform := by
  refine ⟨?_, ?_, ?_⟩
  · rw [JointState.set_localRotation, JointState.set_localRotation]
    simp only [scaleTranslations_slice]
    rfl
  · have : ∀ (jt : Joint ℝ) p ps, (JointState.set jt p ps cd).localTransform.scale = (2 : ℝ) ^ (p 6) :=
      fun _ _ _ => rfl
    rw [this, this, scaleTranslations_slice]
    rfl
  · have : ∀ (jt : Joint ℝ) p ps, (JointState.set jt p ps cd).localTransform.translation =
        jt.translationOffset + ⟨p 0, p 1, p 2⟩ := fun _ _ _ => rfl
    rw [this, this]
    simp only [scaleTranslations_slice]
    ext <;> simp <;> ring

/-- **C24** (poses).  In every pose, with the joint translations scaled along, forward kinematics of the scaled
skeleton gives every joint the same rotation and scale and `c` times the position. -/
theorem C24_poses (s : Skeleton ℝ) (hv : s.Valid) (c : ℝ) (params : List ℝ) (cd : Bool)
    (states : List JointState) (h : skeletonState s params cd = some states) :
    ∃ states', skeletonState (scaleSkeleton s c) (scaleTranslations c params) cd = some states' ∧
      states'.length = states.length ∧
      ∀ (j : Nat) (st st' : JointState), states[j]? = some st → states'[j]? = some st' →
        ScaledPose c st.transform st'.transform := by
  obtain ⟨hg, hlen, hpl⟩ := skeletonState_some hv h
  have hj' : ∀ j : Nat, (scaleSkeleton s c).joints[j]? = (s.joints[j]?).map fun (jt : Joint ℝ) =>
      ({ jt with translationOffset := c • jt.translationOffset } : Joint ℝ) := by
    intro j; simp [scaleSkeleton]
  have hv' : (scaleSkeleton s c).Valid := by
    intro i jt p hi hp
    rw [hj'] at hi
    obtain ⟨jt0, h1, rfl⟩ := Option.map_eq_some_iff.1 hi
    exact hv i jt0 p h1 hp
  have hl' : (scaleTranslations c params).length = (scaleSkeleton s c).joints.length * 7 := by
    simp [scaleTranslations, scaleSkeleton, hpl]
  obtain ⟨states', g1, g2, g3⟩ := skeletonState_good hv' cd hl'
  have hlen' : states'.length = states.length := by rw [g3, hlen]; simp [scaleSkeleton]
  refine ⟨states', g1, hlen', ?_⟩
  have key : ∀ j : Nat, j < states.length →
      ScaledPose c (worldOf states (some j)) (worldOf states' (some j)) := by
    intro j
    induction j using Nat.strong_induction_on with
    | _ j ih =>
      intro hj
      have hjt := List.getElem?_eq_getElem (l := s.joints) (i := j) (by omega)
      have hjt' := hj' j
      rw [hjt, Option.map_some] at hjt'
      have e1 := List.getElem?_eq_getElem hj
      have e2 := List.getElem?_eq_getElem (l := states') (i := j) (by omega)
      rw [hg.worldOf_eq hv hjt e1, g2.worldOf_eq hv' hjt' e2]
      refine scaledPose_mul ?_ ?_
      · cases hp : s.joints[j].parent with
        | none => refine ⟨rfl, rfl, ?_⟩; ext <;> simp [worldOf, Transform.one]
        | some p =>
          have hlt := hv j _ p hjt hp
          exact ih p hlt (by omega)
      · rw [hg.eq j _ _ hjt e1, g2.eq j _ _ hjt' e2]
        exact scaled_local c _ params j _ _ cd
  intro j st st' e1 e2
  have := key j (getElem?_lt e1)
  simpa [worldOf, e1, e2] using this

theorem worldAffines_scaled {c : ℝ} {states states' : List JointState} (hl : states'.length = states.length)
    (h : ∀ (j : Nat) (st st' : JointState), states[j]? = some st → states'[j]? = some st' →
      ScaledPose c st.transform st'.transform) :
    worldAffines states' = scaleAffines (worldAffines states) c := by
  unfold worldAffines scaleAffines
  apply List.ext_getElem
  · simp [hl]
  · intro i h1 h2
    simp at h1 h2
    have hs := h i _ _ (List.getElem?_eq_getElem h2) (List.getElem?_eq_getElem h1)
    simp only [List.getElem_map]
    obtain ⟨r, s, t⟩ := hs
    simp only [Transform.toAffine3, Transform.toLinear, Transform.toRotationMatrix, r, s, t]

/-! ### Scaling: everything attached to the joints -/

section
variable {K : Type} [CommRing K]

theorem scaled_mul (a b : Affine K) (c : K) :
    (⟨a.linear, c • a.translation⟩ : Affine K) * ⟨b.linear, c • b.translation⟩ =
      ⟨(a * b).linear, c • (a * b).translation⟩ := by
  show Affine.mul _ _ = ⟨(Affine.mul a b).linear, c • (Affine.mul a b).translation⟩
  simp only [Affine.mul, Mat3.mulVec_smul]
  congr 1
  ext <;> simp <;> ring

variable [DecidableEq K]

theorem scaled_skinTransforms (world ibp : List (Affine K)) (c : K) :
    skinTransforms (scaleAffines world c) (scaleAffines ibp c) = scaleAffines (skinTransforms world ibp) c := by
  unfold skinTransforms scaleAffines
  rw [List.zipWith_map, List.map_zipWith]
  congr 1
  funext a b
  exact scaled_mul a b c

theorem scaled_skinPoint (ts : List (Affine K)) (p : Vec3 K) (c : K) : ∀ (row : List (Nat × K)) (acc : Vec3 K),
    skinPoint (scaleAffines ts c) (c • p) (c • acc) row =
      (skinPoint ts p acc row).bind fun v => .ok (c • v) := by
  intro row
  induction row with
  | nil => intro acc; rfl
  | cons a row ih =>
    intro acc
    obtain ⟨j, w⟩ := a
    unfold skinPoint
    have hg : (scaleAffines ts c)[j]? = (ts[j]?).map fun t => ⟨t.linear, c • t.translation⟩ := by
      simp [scaleAffines]
    rw [hg]
    cases ts[j]? with
    | none => rfl
    | some t =>
      simp only [Option.map_some]
      split_ifs with hw
      · rfl
      · rw [← ih]
        congr 1
        rw [Mat3.mulVec_smul]
        ext <;> simp <;> ring

/-- **C24** (skinning).  Skinning the scaled points with the scaled inverse bind pose in the scaled state gives
the scaled result, for every skinning, schedule and failure. -/
theorem C24_skinned (order : List Nat) (ibp world : List (Affine K)) (skin : List (List (Nat × K)))
    (points : List (Vec3 K)) (c : K) :
    applySSD order (scaleAffines ibp c) skin (points.map fun p => c • p) (scaleAffines world c) =
      scaledPoints c (applySSD order ibp skin points world) := by
  unfold applySSD
  have l1 : ∀ l : List (Affine K), (scaleAffines l c).length = l.length := fun l => by simp [scaleAffines]
  rw [l1, l1, List.length_map]
  split_ifs with h1 h2
  · rfl
  · rfl
  · rw [scaled_skinTransforms]
    have key : ∀ (o : List Nat) (acc acc' : Outcome (List (Vec3 K))), acc' = scaledPoints c acc →
        o.foldl (fun (acc : Outcome (List (Vec3 K))) i => acc.bind fun res =>
          ssdStep (scaleAffines (skinTransforms world ibp) c) skin (points.map fun p => c • p) res i) acc' =
        scaledPoints c (o.foldl (fun (acc : Outcome (List (Vec3 K))) i => acc.bind fun res =>
          ssdStep (skinTransforms world ibp) skin points res i) acc) := by
      intro o
      induction o with
      | nil => intro acc acc' h; exact h
      | cons i o ih =>
        intro acc acc' h
        rw [List.foldl_cons, List.foldl_cons]
        refine ih _ _ ?_
        subst h
        cases acc with
        | throws => rfl
        | ub => rfl
        | ok res =>
          simp only [scaledPoints, Outcome.bind_ok]
          unfold ssdStep
          rw [List.getElem?_map]
          cases skin[i]? with
          | none => rfl
          | some row =>
            cases points[i]? with
            | none => rfl
            | some p =>
              simp only [Option.map_some]
              have := scaled_skinPoint (skinTransforms world ibp) p c row 0
              rw [show c • (0 : Vec3 K) = 0 by ext <;> simp] at this
              rw [this]
              cases skinPoint (skinTransforms world ibp) p 0 row with
              | ok v => simp [Outcome.bind_ok, List.map_set]
              | throws => rfl
              | ub => rfl
    refine key order _ _ ?_
    simp only [scaledPoints, List.map_replicate]
    congr 2
    ext <;> simp

/-- **C24** (locators). -/
theorem C24_locators (world : List (Affine K)) (locators : List (Locator K)) (c : K) :
    locatorPositions (scaleAffines world c) (scaleLocators locators c) =
      (locatorPositions world locators).map fun l => l.map fun p => c • p := by
  unfold locatorPositions scaleLocators
  induction locators with
  | nil => rfl
  | cons l ls ih =>
    rw [List.map_cons, List.mapM_cons, List.mapM_cons, ih]
    have hg : (scaleAffines world c)[l.parent]? =
        (world[l.parent]?).map fun t => ⟨t.linear, c • t.translation⟩ := by simp [scaleAffines]
    rw [hg]
    cases world[l.parent]? with
    | none => rfl
    | some t =>
      simp only [Option.map_some]
      cases ls.mapM fun l => (world[l.parent]?).map fun t => t.apply l.offset with
      | none => rfl
      | some r =>
        have : (⟨t.linear, c • t.translation⟩ : Affine K).apply (c • l.offset) = c • t.apply l.offset := by
          simp only [Affine.apply, Mat3.mulVec_smul]
          ext <;> simp <;> ring
        simp [this]

/-- **C24** (collision geometry).  Each capsule of the scaled character has `c` times the origin, axis and
radii, given each joint's transformation with `c` times the position and the same scale. -/
theorem C24_capsules (world : List (Affine K × K)) (g : List (TaperedCapsule K)) (c : K) :
    collisionState (world.map fun w => (⟨w.1.linear, c • w.1.translation⟩, w.2)) (scaleCapsules g c) =
      (collisionState world g).map fun l => l.map (CapsuleState.scaled c) := by
  unfold collisionState scaleCapsules
  induction g with
  | nil => rfl
  | cons t ts ih =>
    rw [List.map_cons, List.mapM_cons, List.mapM_cons, ih, List.getElem?_map]
    cases world[t.parent]? with
    | none => rfl
    | some w =>
      simp only [Option.map_some]
      cases ts.mapM fun tc => (world[tc.parent]?).map fun w => capsuleState w.1 w.2 tc with
      | none => rfl
      | some r =>
        have : capsuleState ⟨w.1.linear, c • w.1.translation⟩ w.2
            { t with
              transformation := ⟨t.transformation.linear, c • t.transformation.translation⟩
              radius0 := c * t.radius0, radius1 := c * t.radius1, length := c * t.length } =
            (capsuleState w.1 w.2 t).scaled c := by
          simp only [capsuleState, CapsuleState.scaled, scaled_mul]
          congr 1
          · ext <;> simp <;> ring
          · ring
          · ring
          · ring
        simp [this]

end

/-- **C24** (whole character).  `scaleCharacter` succeeds exactly for positive scales; then, in every pose with
joint translations scaled along, the skinned mesh of the scaled character is the scaled skinned mesh, and the
same holds for the locators and the collision geometry. -/
theorem C24_character (ch : Character ℝ) (hv : ch.skeleton.Valid) (c : ℝ) :
    (∀ ch', scaleCharacter ch c = some ch' → 0 < c) ∧
    (0 < c → ∃ ch', scaleCharacter ch c = some ch' ∧
      ch'.parameterTransform = ch.parameterTransform ∧
      ∀ (params : List ℝ) (cd : Bool) (states : List JointState),
        skeletonState ch.skeleton params cd = some states →
        ∃ states', skeletonState ch'.skeleton (scaleTranslations c params) cd = some states' ∧
          (∀ (order : List Nat) (vertices : List (Vec3 ℝ)) (skin : List (List (Nat × ℝ))),
            ch.mesh = some vertices → ch.skinWeights = some skin →
            ∃ vertices', ch'.mesh = some vertices' ∧ ch'.skinWeights = some skin ∧
              applySSD order ch'.inverseBindPose skin vertices' (worldAffines states') =
                scaledPoints c (applySSD order ch.inverseBindPose skin vertices (worldAffines states))) ∧
          locatorPositions (worldAffines states') ch'.locators =
            (locatorPositions (worldAffines states) ch.locators).map (fun l => l.map fun p => c • p) ∧
          (∀ g, ch.collision = some g → ∃ g', ch'.collision = some g' ∧
            collisionState (states'.map fun st => (st.transform.toAffine3, st.transform.scale)) g' =
              (collisionState (states.map fun st => (st.transform.toAffine3, st.transform.scale)) g).map
                fun l => l.map (CapsuleState.scaled c))) := by
  constructor
  · intro ch' h
    by_contra hc
    simp [scaleCharacter, hc] at h
  · intro hc
    have hsc : scaleCharacter ch c = some ({ ch with
      skeleton := scaleSkeleton ch.skeleton c
      locators := scaleLocators ch.locators c
      mesh := if ch.skinWeights.isSome then ch.mesh.map fun v => v.map fun p => c • p else none
      skinWeights := if ch.mesh.isSome then ch.skinWeights else none
      collision := ch.collision.map fun g => scaleCapsules g c
      inverseBindPose := scaleAffines ch.inverseBindPose c } : Character ℝ) := if_pos hc
    refine ⟨_, hsc, rfl, ?_⟩
    intro params cd states h
    obtain ⟨states', e1, e2, e3⟩ := C24_poses ch.skeleton hv c params cd states h
    have hw := worldAffines_scaled e2 e3
    refine ⟨states', e1, ?_, ?_, ?_⟩
    · intro order vertices skin hm hs
      refine ⟨vertices.map fun p => c • p, by simp [hm, hs], by simp [hm, hs], ?_⟩
      rw [hw]
      exact C24_skinned order _ _ skin vertices c
    · rw [hw]
      exact C24_locators _ _ c
    · intro g hg
      refine ⟨scaleCapsules g c, by simp [hg], ?_⟩
      have : (states'.map fun st => (st.transform.toAffine3, st.transform.scale)) =
          (states.map fun st => (st.transform.toAffine3, st.transform.scale)).map
            fun w => (⟨w.1.linear, c • w.1.translation⟩, w.2) := by
        apply List.ext_getElem
        · simp [e2]
        · intro i h1 h2
          simp at h1 h2
          have hs := e3 i _ _ (List.getElem?_eq_getElem h2) (List.getElem?_eq_getElem h1)
          obtain ⟨r, s, t⟩ := hs
          simp [Transform.toAffine3, Transform.toLinear, Transform.toRotationMatrix, r, s, t]
      rw [this]
      exact C24_capsules _ _ c

/-- **C24** (inverse bind pose).  The scaled inverse bind pose is the inverse bind pose of the scaled
skeleton. -/
theorem C24_inverse_bind_pose (s : Skeleton ℝ) (hv : s.Valid) (c : ℝ) (ibp : List (Affine ℝ))
    (h : initInverseBindPose s = some ibp) :
    initInverseBindPose (scaleSkeleton s c) = some (scaleAffines ibp c) := by
  unfold initInverseBindPose at h ⊢
  obtain ⟨states, h1, h2⟩ := Option.map_eq_some_iff.1 h
  obtain ⟨states', e1, e2, e3⟩ := C24_poses s hv c _ false states h1
  have hz : scaleTranslations c (List.replicate (s.joints.length * 7) 0) =
      List.replicate ((scaleSkeleton s c).joints.length * 7) 0 := by
    unfold scaleTranslations scaleSkeleton
    apply List.ext_getElem <;> simp
  rw [hz] at e1
  rw [e1, Option.map_some, worldAffines_scaled e2 e3, ← h2]
  unfold scaleAffines
  simp only [List.map_map]
  congr 2
  funext a
  simp [Affine.inverse, Mat3.mulVec_smul]

/-- **C24** (defect).  The blend shape is handed on unscaled, and posing a character that has one starts from
the blend shape's base rather than from the mesh: the scaled character is then not skinned to the scaled
vertices. -/
theorem C24_blend_shape_not_scaled :
    ∃ (b : BlendShape ℚ) (ibp world : List (Affine ℚ)) (skin : List (List (Nat × ℚ))) (vertices : List (Vec3 ℚ)),
      b.Valid ∧ b.baseShape = vertices ∧
      posedVertices [0] (scaleAffines ibp 2) skin (some b) (vertices.map fun p => (2 : ℚ) • p)
          (scaleAffines world 2) [] ≠
        scaledPoints 2 (posedVertices [0] ibp skin (some b) vertices world []) := by
  refine ⟨⟨[⟨1, 0, 0⟩], 1, []⟩, [Affine.one], [Affine.one], [[(0, 1)]], [⟨1, 0, 0⟩],
    ⟨rfl, by simp⟩, rfl, ?_⟩
  intro h
  have hx := congrArg (fun o => match o with | .ok (v :: _) => v.x | _ => 0) h
  revert hx
  decide +kernel

/-- A character with two joints, a mesh, a locator and a capsule. -/
def exScaled : Character ℝ :=
  { skeleton := ⟨[⟨"root", none, Quat.one, ⟨0, 1, 0⟩⟩, ⟨"tip", some 0, Quat.one, ⟨1, 0, 0⟩⟩]⟩
    parameterTransform := ParameterTransform.emptyWith 2
    parameterLimits := []
    locators := [⟨"l", 1, ⟨0, 0, 1⟩, ⟨0, 0, 0⟩, 1, ⟨0, 0, 0⟩, ⟨0, 0, 0⟩⟩]
    mesh := some [⟨1, 1, 0⟩]
    skinWeights := some [[(1, 1)]]
    collision := some [⟨Affine.one, 1, 2, 1, 3⟩]
    inverseBindPose := [Affine.one, Affine.one] }

theorem exScaled_valid : exScaled.skeleton.Valid := by
  intro i jt p hi hp
  match i with
  | 0 => simp [exScaled] at hi; subst hi; simp at hp
  | 1 => simp [exScaled] at hi; subst hi; simp at hp; omega
  | _ + 2 => simp [exScaled] at hi

/-- The hypotheses of the C24 theorems are met: the character scales, and it has a state in every pose. -/
example : (∃ ch', scaleCharacter exScaled 2 = some ch') ∧
    ∀ params : List ℝ, params.length = 14 → ∃ states, skeletonState exScaled.skeleton params true = some states :=
  ⟨(((C24_character exScaled exScaled_valid 2).2 two_pos).imp fun _ h => h.1), fun params hp =>
    (skeletonState_good exScaled_valid true (by simpa [exScaled] using hp)).imp fun _ h => h.1⟩

/-! ### Transforming a character -/

theorem rotateRoot_length (q : Quat ℝ) (params : List ℝ) :
    (rotateRootTranslation q params).length = params.length := by simp [rotateRootTranslation]

theorem rotateRoot_slice_other (q : Quat ℝ) (params : List ℝ) {j : Nat} (hj : j ≠ 0) :
    jointSlice (rotateRootTranslation q params) j = jointSlice params j := by
  funext k
  unfold jointSlice rotateRootTranslation
  simp only [List.getD_eq_getElem?_getD]
  rw [List.getElem?_set_ne (by omega), List.getElem?_set_ne (by omega), List.getElem?_set_ne (by omega)]

theorem rotateRoot_slice_rest (q : Quat ℝ) (params : List ℝ) (k : Fin 7) (hk : 3 ≤ k.val) :
    jointSlice (rotateRootTranslation q params) 0 k = jointSlice params 0 k := by
  unfold jointSlice rotateRootTranslation
  simp only [List.getD_eq_getElem?_getD]
  rw [List.getElem?_set_ne (by omega), List.getElem?_set_ne (by omega), List.getElem?_set_ne (by omega)]

theorem rotateRoot_slice_zero (q : Quat ℝ) (params : List ℝ) (hl : 3 ≤ params.length) :
    (⟨jointSlice (rotateRootTranslation q params) 0 0, jointSlice (rotateRootTranslation q params) 0 1,
      jointSlice (rotateRootTranslation q params) 0 2⟩ : Vec3 ℝ) =
      q.rotate ⟨jointSlice params 0 0, jointSlice params 0 1, jointSlice params 0 2⟩ := by
  match params, hl with
  | a :: b :: c :: l, _ => simp [jointSlice, rotateRootTranslation, List.getD]

/-- **C53** (poses).  For a skeleton whose first joint is its only root: in every pose, the transformed skeleton,
with the root's translation parameters rotated along, has the rigidly moved world transform of every joint. -/
theorem C53_poses (s s' : Skeleton ℝ) (hv : s.Valid) (hr : s.SingleRoot)
    (hpre : ∀ jt ∈ s.joints, jt.preRotation.normSq = 1) (q : Quat ℝ) (hq : q.normSq = 1) (t : Vec3 ℝ)
    (hs : transformSkeleton s q t = some s') (params : List ℝ) (cd : Bool) (states : List JointState)
    (h : skeletonState s params cd = some states) :
    ∃ states', skeletonState s' (rotateRootTranslation q params) cd = some states' ∧
      states'.length = states.length ∧
      ∀ (j : Nat) (st st' : JointState), states[j]? = some st → states'[j]? = some st' →
        st'.transform = (⟨q, t, 1⟩ : Transform ℝ) * st.transform := by
  obtain ⟨hg, hlen, hpl⟩ := skeletonState_some hv h
  obtain ⟨joints⟩ := s
  cases joints with
  | nil => simp [transformSkeleton] at hs
  | cons j0 js =>
    simp only [transformSkeleton, Option.some.injEq] at hs
    subst hs
    have hp0 : j0.parent = none := (hr 0 j0 rfl).2 rfl
    have hv' : Skeleton.Valid (⟨{ j0 with
        preRotation := q * j0.preRotation
        translationOffset := q.rotate j0.translationOffset + t } :: js⟩ : Skeleton ℝ) := by
      intro i jt p hi hp
      cases i with
      | zero => simp at hi; subst hi; simp [hp0] at hp
      | succ i => exact hv (i + 1) jt p hi hp
    have hl' : (rotateRootTranslation q params).length = (j0 :: js).length * 7 := by
      rw [rotateRoot_length]; exact hpl
    obtain ⟨states', g1, g2, g3⟩ := skeletonState_good hv' cd hl'
    have hlen' : states'.length = states.length := by rw [g3, hlen]; simp
    refine ⟨states', g1, hlen', ?_⟩
    have key : ∀ j : Nat, j < states.length →
        worldOf states' (some j) = (⟨q, t, 1⟩ : Transform ℝ) * worldOf states (some j) := by
      intro j
      induction j using Nat.strong_induction_on with
      | _ j ih =>
        intro hj
        have e1 := List.getElem?_eq_getElem hj
        have e2 := List.getElem?_eq_getElem (l := states') (i := j) (by omega)
        cases j with
        | zero =>
          rw [hg.worldOf_eq hv (jt := j0) rfl e1, g2.worldOf_eq hv' (j := 0) rfl e2]
          simp only [hp0, worldOf]
          rw [hg.eq 0 j0 _ rfl e1, g2.eq 0 _ _ rfl e2]
          simp only [hp0, Option.bind_none]
          have ht : ∀ (jt : Joint ℝ) p ps, (JointState.set jt p ps cd).localTransform.translation =
            jt.translationOffset + ⟨p 0, p 1, p 2⟩ := fun _ _ _ => rfl
          have hsc : ∀ (jt : Joint ℝ) p ps, (JointState.set jt p ps cd).localTransform.scale = (2 : ℝ) ^ (p 6) :=
            fun _ _ _ => rfl
          rw [Transform.one_mul', Transform.one_mul']
          refine Transform.ext ?_ ?_ ?_
          · show _ = q * _
            rw [JointState.set_localRotation, JointState.set_localRotation]
            simp only [rotateRoot_slice_rest _ _ (3 : Fin 7) (by decide),
              rotateRoot_slice_rest _ _ (4 : Fin 7) (by decide),
              rotateRoot_slice_rest _ _ (5 : Fin 7) (by decide), Quat.mul_assoc']
          · show _ = t + q.rotate ((1 : ℝ) • _)
            rw [ht, ht, rotateRoot_slice_zero _ _ (by rw [hpl]; simp; omega), one_smul, Quat.rotate_add]
            dsimp only
            abel
          · show _ = (1 : ℝ) * _
            rw [hsc, hsc, rotateRoot_slice_rest _ _ (6 : Fin 7) (by decide), one_mul]
        | succ i =>
          have hjt : (⟨j0 :: js⟩ : Skeleton ℝ).joints[i + 1]? = some (js[i]'(by simp at hlen; omega)) := by
            rw [List.getElem?_cons_succ]
            exact List.getElem?_eq_getElem _
          rw [hg.worldOf_eq hv hjt e1, g2.worldOf_eq hv' hjt e2]
          have hloc : (states'[i + 1]'(by omega)).localTransform = states[i + 1].localTransform := by
            rw [hg.eq (i + 1) _ _ hjt e1, g2.eq (i + 1) _ _ hjt e2, rotateRoot_slice_other _ _ (by omega)]
            have : ∀ (jt : Joint ℝ) p ps ps', (JointState.set jt p ps cd).localTransform =
              (JointState.set jt p ps' cd).localTransform := by
                intro jt p ps ps'
                refine Transform.ext ?_ rfl rfl
                rw [JointState.set_localRotation, JointState.set_localRotation]
            exact this _ _ _ _
          rw [hloc]
          cases hp : (js[i]'(by simp at hlen; omega)).parent with
          | none => exact absurd ((hr _ _ hjt).1 hp) (by omega)
          | some p =>
            have hlt := hv (i + 1) _ p hjt hp
            rw [ih p hlt (by omega)]
            have hu := (hg.worldOf_unit hv hpre (some p)).1
            exact Transform.mul_assoc' hq hu _
    intro j st st' e1 e2
    have := key j (getElem?_lt e1)
    simpa [worldOf, e1, e2] using this

/-- **C53** (bind pose).  When the root's translation parameters are zero, no adjustment of the parameters is
needed: the transformed skeleton in the same pose is the rigidly moved one. -/
theorem C53_no_root_translation (s s' : Skeleton ℝ) (hv : s.Valid) (hr : s.SingleRoot)
    (hpre : ∀ jt ∈ s.joints, jt.preRotation.normSq = 1) (q : Quat ℝ) (hq : q.normSq = 1) (t : Vec3 ℝ)
    (hs : transformSkeleton s q t = some s') (params : List ℝ)
    (hz : params.getD 0 0 = 0 ∧ params.getD 1 0 = 0 ∧ params.getD 2 0 = 0) (cd : Bool)
    (states : List JointState) (h : skeletonState s params cd = some states) :
    ∃ states', skeletonState s' params cd = some states' ∧ states'.length = states.length ∧
      ∀ (j : Nat) (st st' : JointState), states[j]? = some st → states'[j]? = some st' →
        st'.transform = (⟨q, t, 1⟩ : Transform ℝ) * st.transform := by
  have hp : rotateRootTranslation q params = params := by
    unfold rotateRootTranslation
    obtain ⟨h0, h1, h2⟩ := hz
    rw [h0, h1, h2]
    have : q.rotate (⟨0, 0, 0⟩ : Vec3 ℝ) = ⟨0, 0, 0⟩ := Quat.rotate_zero q
    rw [this]
    apply List.ext_getElem
    · simp
    · intro i h3 h4
      simp only [List.getElem_set]
      have hh : ∀ k, params.getD k 0 = 0 → k = i → (0 : ℝ) = params[i] := by
        rintro k hk rfl
        simpa [List.getD, h4] using hk.symm
      split_ifs with a b c
      · exact hh 2 h2 a
      · exact hh 1 h1 b
      · exact hh 0 h0 c
      · rfl
  have := C53_poses s s' hv hr hpre q hq t hs params cd states h
  rwa [hp] at this

section
variable {K : Type} [Field K] [DecidableEq K]

/-- **C53** (skinning).  If every joint is moved by the invertible affine map `x`, the transformed mesh with the
transformed inverse bind pose is skinned to the image under `x` of the original skinned points, for weights
summing to one. -/
theorem C53_skinned (order : List Nat) (ibp world : List (Affine K)) (skin : List (List (Nat × K)))
    (points : List (Vec3 K)) (x : Affine K) (hx : x.linear.det ≠ 0)
    (ho : order.Perm (List.range points.length)) (hw : world.length = ibp.length)
    (hs : skin.length = points.length) (hi : IndicesValid skin ibp.length)
    (hf : ∀ row ∈ skin, WeightsFirst row) (h1 : ∀ row ∈ skin, (row.map (·.2)).sum = 1) :
    ∃ skinned, applySSD order ibp skin points world = .ok skinned ∧
      applySSD order (transformInverseBindPose ibp x) skin (transformVertices points x)
        (world.map fun w => x * w) = .ok (skinned.map x.apply) := by
  refine ⟨_, C25_blend order ibp world skin points ho hw hs hi hf, ?_⟩
  rw [C25_blend order _ _ skin _ (by simpa [transformVertices] using ho)
    (by simpa [transformInverseBindPose] using hw) (by simpa [transformVertices] using hs)
    (by simpa [transformInverseBindPose] using hi) hf]
  congr 1
  unfold transformVertices
  rw [List.zipWith_map_right, List.map_zipWith]
  apply List.ext_getElem
  · simp
  · intro i h2 h3
    simp at h2
    rw [List.getElem_zipWith, List.getElem_zipWith]
    have hrow := List.getElem_mem (l := skin) (n := i) (by omega)
    have hmv : ∀ jw ∈ skin[i], movedBy (world.map fun w => x * w) (transformInverseBindPose ibp x)
        (x.apply points[i]) jw.1 = x.apply (movedBy world ibp points[i] jw.1) := by
      intro jw hjw
      have hj := hi _ hrow jw hjw
      unfold movedBy transformInverseBindPose
      rw [List.getElem?_map, List.getElem?_map, List.getElem?_eq_getElem (show jw.1 < world.length by omega),
        List.getElem?_eq_getElem hj]
      simp only [Option.map_some, Affine.mul_apply, Affine.inverse_apply hx]
    have hsum : ∀ row : List (Nat × K), (∀ jw ∈ row, movedBy (world.map fun w => x * w)
        (transformInverseBindPose ibp x) (x.apply points[i]) jw.1 = x.apply (movedBy world ibp points[i] jw.1)) →
        blended (world.map fun w => x * w) (transformInverseBindPose ibp x) row (x.apply points[i]) =
          x.linear.mulVec (blended world ibp row points[i]) + (row.map (·.2)).sum • x.translation := by
      intro row
      induction row with
      | nil => intro _; simp [blended]; ext <;> simp [Mat3.mulVec]
      | cons a row ih =>
        intro hm
        have := ih fun jw hjw => hm jw (by simp [hjw])
        unfold blended at this ⊢
        simp only [List.map_cons, List.sum_cons, this, hm a (by simp), Mat3.mulVec_add, Mat3.mulVec_smul]
        rw [show ∀ p, x.apply p = x.linear.mulVec p + x.translation from fun _ => rfl]
        generalize x.linear.mulVec (movedBy world ibp points[i] a.1) = u
        generalize x.linear.mulVec (row.map fun jw => jw.2 • movedBy world ibp points[i] jw.1).sum = v
        ext <;> simp <;> ring
    rw [hsum _ hmv, h1 _ hrow, one_smul]
    rfl

end

/-- A rotation by a quarter turn about z and the skeleton with one joint. -/
def exRoot : Skeleton ℝ := ⟨[⟨"root", none, Quat.one, 0⟩]⟩

theorem exRoot_valid : exRoot.Valid := by
  intro i jt p hi hp
  cases i with
  | zero => simp [exRoot] at hi; subst hi; simp at hp
  | succ i => simp [exRoot] at hi

/-- **C53** (defect).  With non-zero root translation parameters, the transformed character in the same pose is
not the rigidly moved character: the parameters still act along the old axes (here, after a half turn about z,
the translation (1,0,0) of the root). -/
theorem C53_root_translation :
    ∃ (s s' : Skeleton ℝ) (q : Quat ℝ) (t : Vec3 ℝ) (params : List ℝ) (st st' : JointState),
      s.Valid ∧ s.SingleRoot ∧ q.normSq = 1 ∧ transformSkeleton s q t = some s' ∧
      skeletonState s params false = some [st] ∧ skeletonState s' params false = some [st'] ∧
      st'.transform ≠ (⟨q, t, 1⟩ : Transform ℝ) * st.transform := by
  refine ⟨exRoot, _, ⟨0, 0, 0, 1⟩, 0, [1, 0, 0, 0, 0, 0, 0], _, _, exRoot_valid, ?_, by simp [Quat.normSq],
    rfl, rfl, rfl, ?_⟩
  · intro j jt hj
    cases j with
    | zero => simp [exRoot] at hj; subst hj; simp
    | succ j => simp [exRoot] at hj
  · intro h
    have hx := congrArg (fun t : Transform ℝ => t.translation.x) h
    simp [JointState.set, jointSlice, Quat.rotate, Quat.vec, Transform.one, Quat.one, Vec3.cross] at hx
    norm_num at hx

/-- **C53** (defect).  In a skeleton with two roots only the first is moved. -/
theorem C53_second_root :
    ∃ (s s' : Skeleton ℝ) (t : Vec3 ℝ) (st0 st1 st0' st1' : JointState),
      s.Valid ∧ t ≠ 0 ∧ transformSkeleton s Quat.one t = some s' ∧
      skeletonState s (List.replicate 14 0) false = some [st0, st1] ∧
      skeletonState s' (List.replicate 14 0) false = some [st0', st1'] ∧
      st1'.transform = st1.transform := by
  refine ⟨⟨[⟨"a", none, Quat.one, 0⟩, ⟨"b", none, Quat.one, 0⟩]⟩, _, ⟨1, 0, 0⟩, _, _, _, _, ?_, ?_, rfl, rfl, rfl, rfl⟩
  · intro i jt p hi hp
    match i with
    | 0 => simp at hi; subst hi; simp at hp
    | 1 => simp at hi; subst hi; simp at hp
    | _ + 2 => simp at hi
  · intro h
    simpa using congrArg Vec3.x h

/-- The hypotheses of `C53_poses` are met. -/
example : ∃ s', transformSkeleton exScaled.skeleton ⟨0, 0, 0, 1⟩ ⟨1, 2, 3⟩ = some s' ∧
    exScaled.skeleton.Valid ∧ exScaled.skeleton.SingleRoot := by
  refine ⟨_, rfl, exScaled_valid, ?_⟩
  intro j jt hj
  match j with
  | 0 => simp [exScaled] at hj; subst hj; simp
  | 1 => simp [exScaled] at hj; subst hj; simp
  | _ + 2 => simp [exScaled] at hj

end Momentum
