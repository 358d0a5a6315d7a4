import Verif.Lemmas.Skinning
import Verif.Lemmas.Rotation
import Verif.Props.Skeleton
import Mathlib.Tactic.NormNum

/-!
# C25: skinning
-/

namespace Momentum

section
variable {K : Type} [CommRing K] [DecidableEq K]

theorem skinTransforms_length {world ibp : List (Affine K)} (h : world.length = ibp.length) :
    (skinTransforms world ibp).length = ibp.length := by
  simp [skinTransforms, h]

theorem skinPoint_ne_ub (ts : List (Affine K)) (p acc : Vec3 K) (row : List (Nat × K)) :
    skinPoint ts p acc row ≠ .ub := by
  induction row generalizing acc with
  | nil => simp [skinPoint]
  | cons a row ih =>
    obtain ⟨j, w⟩ := a
    unfold skinPoint
    split
    · simp
    · split_ifs
      · simp
      · exact ih _

theorem ssdStep_eq {ts : List (Affine K)} {skin : List (List (Nat × K))} {points : List (Vec3 K)}
    (hs : skin.length = points.length) (res : List (Vec3 K)) {i : Nat} (hi : i < points.length) :
    ssdStep ts skin points res i = (skinPoint ts points[i] 0 (skin[i]'(by omega))).bind
      fun v => .ok (res.set i v) := by
  unfold ssdStep
  rw [List.getElem?_eq_getElem (by omega), List.getElem?_eq_getElem hi]

/-- **C25** (value).  With matching sizes, indices in range and the non-zero weights first, skinning returns
for each vertex the weighted sum of the positions to which its joints move it. -/
theorem C25_blend (order : List Nat) (ibp world : List (Affine K)) (skin : List (List (Nat × K)))
    (points : List (Vec3 K)) (ho : order.Perm (List.range points.length))
    (hw : world.length = ibp.length) (hs : skin.length = points.length)
    (hi : IndicesValid skin ibp.length) (hf : ∀ row ∈ skin, WeightsFirst row) :
    applySSD order ibp skin points world =
      .ok (List.zipWith (fun row p => blended world ibp row p) skin points) := by
  unfold applySSD
  rw [if_neg (by simpa using hw), if_neg (by simpa using hs)]
  have hstep : ∀ (res : List (Vec3 K)) (i : Nat), i < points.length →
      ssdStep (skinTransforms world ibp) skin points res i =
        .ok (res.set i (blended world ibp (skin.getD i []) (points.getD i 0))) := by
    intro res i hip
    rw [ssdStep_eq hs res hip, skinPoint_ok _ _ _ (hf _ (List.getElem_mem _))
      (by intro jw hjw; rw [skinTransforms_length hw]; exact hi _ (List.getElem_mem _) jw hjw)]
    simp [List.getD, hip, show i < skin.length by omega]
  rw [setFold_perm hstep ho _ (by simp)]
  congr 1
  apply List.ext_getElem
  · simp [hs]
  · intro i h1 h2
    simp at h1
    simp [List.getD, h1, show i < skin.length by omega]

/-- **C25** (schedule).  The outcome does not depend on the order in which the threads process the vertices,
whatever the data. -/
theorem C25_schedule (order order' : List Nat) (ibp world : List (Affine K)) (skin : List (List (Nat × K)))
    (points : List (Vec3 K)) (ho : order.Perm (List.range points.length))
    (ho' : order'.Perm (List.range points.length)) :
    applySSD order ibp skin points world = applySSD order' ibp skin points world := by
  unfold applySSD
  split_ifs with h1 h2
  · rfl
  · rfl
  · have hs : skin.length = points.length := by simpa using h2
    set ts := skinTransforms world ibp
    set h : Nat → Outcome (Vec3 K) := fun i => skinPoint ts (points.getD i 0) 0 (skin.getD i [])
    have hstep : ∀ (res : List (Vec3 K)) (i : Nat), i < points.length →
        ssdStep ts skin points res i = (h i).bind fun v => .ok (res.set i v) := by
      intro res i hip
      rw [ssdStep_eq hs res hip]
      simp [h, List.getD, hip, show i < skin.length by omega]
    by_cases ht : ∃ i, i < points.length ∧ h i = .throws
    · obtain ⟨i, hi, hit⟩ := ht
      have key : ∀ o : List Nat, o.Perm (List.range points.length) →
          o.foldl (fun (acc : Outcome (List (Vec3 K))) i => acc.bind fun res => ssdStep ts skin points res i)
            (.ok (List.replicate points.length 0)) = .throws := fun o hp =>
        setFold_throws (h := h) (fun res i hio => hstep res i (List.mem_range.1 (hp.mem_iff.1 hio)))
          (fun i _ => skinPoint_ne_ub _ _ _ _) ⟨i, hp.mem_iff.2 (List.mem_range.2 hi), hit⟩ _
      rw [key order ho, key order' ho']
    · have hok : ∀ (res : List (Vec3 K)) (i : Nat), i < points.length →
          ssdStep ts skin points res i = .ok (res.set i (match h i with | .ok v => v | _ => 0)) := by
        intro res i hip
        rw [hstep res i hip]
        cases hh : h i with
        | ok v => rfl
        | ub => exact absurd hh (skinPoint_ne_ub _ _ _ _)
        | throws => exact absurd ⟨i, hip, hh⟩ ht
      rw [setFold_perm hok ho _ (by simp), setFold_perm hok ho' _ (by simp)]

/-- The concrete data used below: two joints, one translated by one unit, half weights, and a vertex with a
padding entry of weight zero. -/
def exWorld : List (Affine ℚ) := [⟨Mat3.one, ⟨0, 0, 0⟩⟩, ⟨Mat3.one, ⟨3, 0, 0⟩⟩]
def exIbp : List (Affine ℚ) := [⟨Mat3.one, ⟨0, 0, 0⟩⟩, ⟨Mat3.one, ⟨-1, 0, 0⟩⟩]
def exSkin : List (List (Nat × ℚ)) := [[(0, 1 / 2), (1, 1 / 2)], [(1, 1), (0, 0)]]
def exPoints : List (Vec3 ℚ) := [⟨0, 1, 0⟩, ⟨1, 0, 2⟩]

example : IndicesValid exSkin exIbp.length ∧ (∀ row ∈ exSkin, WeightsFirst row) ∧
    applySSD [1, 0] exIbp exSkin exPoints exWorld = .ok [⟨1, 1, 0⟩, ⟨3, 0, 2⟩] := by
  refine ⟨by unfold IndicesValid; decide +kernel, by unfold WeightsFirst; decide +kernel, ?_⟩
  have : (match applySSD [1, 0] exIbp exSkin exPoints exWorld with
      | .ok l => decide (l = [⟨1, 1, 0⟩, ⟨3, 0, 2⟩]) | _ => false) = true := by decide +kernel
  split at this
  · rename_i l h; rw [h]; simpa using this
  · cases this

end

section
variable {K : Type} [CommRing K] [DecidableEq K]

theorem smul_sum_weights (p : Vec3 K) (row : List (Nat × K)) :
    (row.map fun jw => jw.2 • p).sum = ((row.map (·.2)).sum) • p := by
  induction row with
  | nil => simp
  | cons a row ih => rw [List.map_cons, List.sum_cons, ih, List.map_cons, List.sum_cons, add_smul]

/-- **C25** (bind pose, general form).  If every joint transformation undoes its inverse bind pose and the
weights of each vertex sum to one, skinning returns the input points. -/
theorem C25_identity (order : List Nat) (ibp world : List (Affine K)) (skin : List (List (Nat × K)))
    (points : List (Vec3 K)) (ho : order.Perm (List.range points.length))
    (hw : world.length = ibp.length) (hs : skin.length = points.length)
    (hi : IndicesValid skin ibp.length) (hf : ∀ row ∈ skin, WeightsFirst row)
    (h1 : ∀ row ∈ skin, (row.map (·.2)).sum = 1)
    (hb : ∀ (j : Nat) (w b : Affine K), world[j]? = some w → ibp[j]? = some b → ∀ p, w.apply (b.apply p) = p) :
    applySSD order ibp skin points world = .ok points := by
  rw [C25_blend order ibp world skin points ho hw hs hi hf]
  congr 1
  apply List.ext_getElem
  · simp [hs]
  · intro i h2 h3
    simp only [List.getElem_zipWith]
    have hrow := List.getElem_mem (l := skin) (n := i) (by omega)
    unfold blended
    have : (skin[i].map fun jw => jw.2 • movedBy world ibp points[i] jw.1) =
        skin[i].map fun jw => jw.2 • points[i] := by
      apply List.map_congr_left
      intro jw hjw
      have hj := hi _ hrow jw hjw
      have : movedBy world ibp points[i] jw.1 = points[i] := by
        unfold movedBy
        rw [List.getElem?_eq_getElem (show jw.1 < world.length by omega), List.getElem?_eq_getElem hj]
        exact hb jw.1 _ _ (List.getElem?_eq_getElem (by omega)) (List.getElem?_eq_getElem hj) _
      rw [this]
    rw [this, smul_sum_weights, h1 _ hrow, one_smul]

end

section
variable {K : Type} [Field K] [DecidableEq K]

/-- **C25** (inverse).  Whenever skinning succeeds and the blended matrix of every vertex is invertible,
inverse skinning of the skinned points returns the input points. -/
theorem C25_inverse (order : List Nat) (ibp world : List (Affine K)) (skin : List (List (Nat × K)))
    (points skinned : List (Vec3 K)) (ho : order.Perm (List.range points.length))
    (hi : IndicesValid skin ibp.length) (hf : ∀ row ∈ skin, WeightsFirst row)
    (h : applySSD order ibp skin points world = .ok skinned)
    (hdet : ∀ row ∈ skin, ∀ m : Affine K, (∀ p, m.apply p = blended world ibp row p) → m.linear.det ≠ 0) :
    applyInverseSSD ibp skin skinned world = .ok points := by
  have hw : world.length = ibp.length := by
    by_contra hc; simp [applySSD, hc] at h
  have hs : skin.length = points.length := by
    by_contra hc; simp [applySSD, hw, hc] at h
  have hb := C25_blend order ibp world skin points ho hw hs hi hf
  rw [h] at hb
  cases hb
  unfold applyInverseSSD
  rw [if_neg (by simpa using hw), if_neg (by simp [hs])]
  have hstep : ∀ (res : List (Vec3 K)) (i : Nat), i < points.length →
      inverseStep (skinTransforms world ibp) skin
        (List.zipWith (fun row p => blended world ibp row p) skin points) res i =
        .ok (res.set i (points.getD i 0)) := by
    intro res i hip
    have his : i < skin.length := by omega
    unfold inverseStep
    rw [List.getElem?_eq_getElem his, List.getElem?_eq_getElem (by simp [hs, hip])]
    simp only [List.getElem_zipWith]
    have hlen := fun jw hjw => (skinTransforms_length hw).symm ▸ hi _ (List.getElem_mem his) jw hjw
    obtain ⟨m, hm1, hm2⟩ := blendMatrix_ok (ts := skinTransforms world ibp) skin[i] Affine.zero hlen
    have hm : ∀ p, m.apply p = blended world ibp skin[i] p := by
      intro p
      refine hm2 p _ ?_
      rw [Affine.zero_apply, skinPoint_ok p _ _ (hf _ (List.getElem_mem his)) hlen, zero_add]
    rw [hm1]
    simp only [Outcome.bind_ok]
    rw [← hm, Affine.inverse_apply (hdet _ (List.getElem_mem his) m hm)]
    simp [List.getD, hip]
  rw [setFold_perm hstep (by rw [hs]) _ (by simp [hs])]
  congr 1
  apply List.ext_getElem
  · simp
  · intro i h2 h3
    simp [List.getD, h3]

/-- **C25** (inverse, single vertex).  `getInverseSSDTransformation` of a vertex undoes its skinning. -/
theorem C25_inverse_vertex (ibp world : List (Affine K)) (skin : List (List (Nat × K)))
    (hw : world.length = ibp.length) (hi : IndicesValid skin ibp.length)
    (hf : ∀ row ∈ skin, WeightsFirst row) (i : Nat) (row : List (Nat × K)) (hrow : skin[i]? = some row)
    (hdet : ∀ m : Affine K, (∀ p, m.apply p = blended world ibp row p) → m.linear.det ≠ 0) :
    ∃ m, getInverseSSDTransformation ibp skin world i = .ok m ∧
      ∀ p, m.apply (blended world ibp row p) = p := by
  have hmem := List.mem_of_getElem? hrow
  have hlen := fun jw hjw => (skinTransforms_length hw).symm ▸ hi _ hmem jw hjw
  obtain ⟨m, hm1, hm2⟩ := blendMatrix_ok (ts := skinTransforms world ibp) row Affine.zero hlen
  have hm : ∀ p, m.apply p = blended world ibp row p := by
    intro p
    refine hm2 p _ ?_
    rw [Affine.zero_apply, skinPoint_ok p _ _ (hf _ hmem) hlen, zero_add]
  refine ⟨m.inverse, ?_, fun p => ?_⟩
  · unfold getInverseSSDTransformation
    rw [if_neg (by simpa using hw), hrow]
    simp only
    rw [blendMatrixUnchecked_eq _ _ hlen, hm1, Outcome.bind_ok]
  · rw [← hm, Affine.inverse_apply (hdet m hm)]

end

theorem affine_det {t : Transform ℝ} (hr : t.rotation.normSq = 1) (hs : t.scale ≠ 0) :
    t.toAffine3.linear.det ≠ 0 := by
  have : t.toAffine3.linear.det = t.scale ^ 3 * t.rotation.toMat.det := by
    simp only [Transform.toAffine3, Transform.toLinear, Transform.toRotationMatrix, Mat3.smul, Mat3.det]
    ring
  rw [this, (Quat.isRotation_toMat hr).det_one, mul_one]
  exact pow_ne_zero _ hs

/-- **C25** (bind pose).  For a skeleton with unit pre-rotations, skinning with the bind-pose state and the
inverse bind pose that `initInverseBindPose` computes returns the input points, whenever the weights of each
vertex sum to one. -/
theorem C25_bind_pose (s : Skeleton ℝ) (hv : s.Valid)
    (hpre : ∀ jt ∈ s.joints, jt.preRotation.normSq = 1) (cd : Bool) :
    ∃ states ibp, skeletonState s (List.replicate (s.joints.length * 7) 0) cd = some states ∧
      initInverseBindPose s = some ibp ∧
      ∀ (order : List Nat) (skin : List (List (Nat × ℝ))) (points : List (Vec3 ℝ)),
        order.Perm (List.range points.length) → skin.length = points.length →
        IndicesValid skin s.joints.length → (∀ row ∈ skin, WeightsFirst row) →
        (∀ row ∈ skin, (row.map (·.2)).sum = 1) →
        applySSD order ibp skin points (worldAffines states) = .ok points := by
  have hl : (List.replicate (s.joints.length * 7) (0 : ℝ)).length = s.joints.length * 7 := by simp
  obtain ⟨states, h1, h2, h3⟩ := skeletonState_good hv cd hl
  obtain ⟨states0, g1, g2, g3⟩ := skeletonState_good hv false hl
  refine ⟨states, (worldAffines states0).map Affine.inverse, h1, by simp [initInverseBindPose, g1], ?_⟩
  intro order skin points ho hs hi hf h4
  refine C25_identity order _ _ skin points ho (by simp [worldAffines, h3, g3]) hs
    (by simpa [worldAffines, g3] using hi) hf h4 ?_
  intro j w b hw hb p
  have hjl : j < states.length := by
    have := (List.getElem?_eq_some_iff.1 hw).1
    simpa [worldAffines] using this
  -- the two states agree: the derivative flag does not change the transforms
  have hworld : ∀ k, k < s.joints.length → worldOf states (some k) = worldOf states0 (some k) := by
    intro k
    induction k using Nat.strong_induction_on with
    | _ k ih =>
      intro hk
      have e1 := List.getElem?_eq_getElem (show k < states.length by omega)
      have e2 := List.getElem?_eq_getElem (show k < states0.length by omega)
      have ej := List.getElem?_eq_getElem hk
      rw [h2.worldOf_eq hv ej e1, g2.worldOf_eq hv ej e2]
      congr 1
      · cases hp : s.joints[k].parent with
        | none => rfl
        | some q => exact ih q (hv k _ q ej hp) ((hv k _ q ej hp).trans hk)
      · rw [h2.eq k _ _ ej e1, g2.eq k _ _ ej e2]
        simp only [JointState.set]
        rfl
  have e1 := List.getElem?_eq_getElem hjl
  have e2 := List.getElem?_eq_getElem (show j < states0.length by omega)
  have hww := hworld j (by omega)
  simp only [worldOf, e1, e2] at hww
  have hu := h2.worldOf_unit hv hpre (some j)
  simp only [worldOf, e1] at hu
  simp only [worldAffines, List.getElem?_map, e1, e2, Option.map_some, Option.some.injEq] at hw hb
  subst hw hb
  rw [← hww, Affine.apply_inverse (affine_det hu.1 hu.2)]

/-- The two-joint example skeleton of `Props/Skeleton.lean` meets the hypotheses. -/
example : exSkeleton.Valid ∧ (∀ jt ∈ exSkeleton.joints, jt.preRotation.normSq = 1) :=
  ⟨exSkeleton_valid, exSkeleton_unit⟩

/-- A concrete case of `C25_inverse`: the data of `exWorld` has invertible blended matrices. -/
example : ∀ row ∈ exSkin, ∀ m : Affine ℚ, (∀ p, m.apply p = blended exWorld exIbp row p) →
    m.linear.det ≠ 0 := by
  intro row hrow m hm
  have hl : ∀ p, m.linear.mulVec p = p := by
    have key : ∀ p q : Vec3 ℚ, blended exWorld exIbp row p - blended exWorld exIbp row q = p - q := by
      intro p q
      fin_cases hrow <;>
        (ext <;> simp [blended, exWorld, exIbp, movedBy, Affine.apply, Mat3.one_mulVec] <;> ring)
    intro p
    have h0 := hm 0
    have hp := hm p
    have := key p 0
    rw [← h0, ← hp] at this
    simp only [Affine.apply] at this
    have hz : m.linear.mulVec 0 = 0 := by ext <;> simp [Mat3.mulVec]
    rw [hz] at this
    simpa using this
  have : m.linear = Mat3.one := Mat3.ext_mulVec fun v => by rw [hl, Mat3.one_mulVec]
  rw [this]; simp [Mat3.det, Mat3.one]

/-! ### Meshes with normals -/

theorem Vec3.sqNorm_nonneg (v : Vec3 ℝ) : 0 ≤ v.sqNorm := by
  simp only [Vec3.sqNorm, Vec3.dot]; nlinarith [sq_nonneg v.x, sq_nonneg v.y, sq_nonneg v.z]

theorem Vec3.normalize_unit (v : Vec3 ℝ) : v.normalize.sqNorm = 1 ∨ v.normalize = 0 := by
  unfold Vec3.normalize
  split_ifs with h
  · left
    have hs : Real.sqrt v.sqNorm ≠ 0 := (Real.sqrt_pos.2 h).ne'
    have hq := Real.mul_self_sqrt h.le
    have : ((Real.sqrt v.sqNorm)⁻¹ • v).sqNorm = (Real.sqrt v.sqNorm)⁻¹ * (Real.sqrt v.sqNorm)⁻¹ * v.sqNorm := by
      simp only [Vec3.sqNorm, Vec3.dot, Vec3.smul_x, Vec3.smul_y, Vec3.smul_z]; ring
    rw [this, ← mul_inv, hq, inv_mul_cancel₀ h.ne']
  · right
    have h0 : v.sqNorm = 0 := le_antisymm (not_lt.1 h) v.sqNorm_nonneg
    simp only [Vec3.sqNorm, Vec3.dot] at h0
    ext
    · simp only [Vec3.zero_x]; nlinarith [sq_nonneg v.x, sq_nonneg v.y, sq_nonneg v.z]
    · simp only [Vec3.zero_y]; nlinarith [sq_nonneg v.x, sq_nonneg v.y, sq_nonneg v.z]
    · simp only [Vec3.zero_z]; nlinarith [sq_nonneg v.x, sq_nonneg v.y, sq_nonneg v.z]

end Momentum
