import Verif.Props.SimdCollision
import Verif.Props.CollisionErrorEx

/-!
# C83: a concrete case, and what fails
-/

namespace Momentum
open Skeleton

theorem exCol_packets : ∃ E, SimdCollision.construct exCol (List.replicate 21 0) (1 / 10000000) (1 / 100000000)
    exColGeometry = some E ∧ E.toErrorBase = exCol := by
  obtain ⟨E, hE⟩ : ∃ E, SimdCollision.construct exCol (List.replicate 21 0) (1 / 10000000) (1 / 100000000)
      exColGeometry = some E := by
    refine C83_construct exCol _ _ _ _ _ exCol_setting (by simp [exColGeometry]) ?_
    intro a ha b hb
    refine ⟨0, ?_, ?_⟩
    · simp only [exColGeometry, List.mem_cons, List.not_mem_nil, or_false] at ha
      rcases ha with rfl | rfl
      · exact exCol_anc.1
      · exact exCol_anc.2
    · simp only [exColGeometry, List.mem_cons, List.not_mem_nil, or_false] at hb
      rcases hb with rfl | rfl
      · exact exCol_anc.1
      · exact exCol_anc.2
  refine ⟨E, hE, ?_⟩
  unfold SimdCollision.construct at hE
  simp only [Option.bind_eq_bind, Option.bind_eq_some_iff, Option.some.injEq] at hE
  obtain ⟨_, _, _, _, _, _, _, _, rfl⟩ := hE; rfl

/-- The pose in which the first child is moved by `z`. -/
theorem exCol_moved (z : ℝ) : ∃ st, exCol.stateFor exColTransform (paramVec 2 fun i => if i = 0 then z else 0) true = some st ∧
    st ≠ [] ∧ st.length = exCol.skeleton.joints.length ∧ (∀ js ∈ st, js.derivDirty = false) ∧
    (∀ js ∈ st, 0 ≤ js.transform.scale) ∧ CollisionError.capsules exColGeometry st = some (exColCaps z 1) ∧
    posedCapsules exCol exColTransform exColGeometry (fun i => if i = 0 then z else 0) = exColCaps z 1 := by
  obtain ⟨st, h1, h2⟩ := exCol_posed (fun i => if i = 0 then z else 0)
  simp only [one_ne_zero, if_false, if_true, Real.rpow_zero] at h2
  have hg : ∃ θ, FKGood exCol.skeleton θ true st ∧ st.length = exCol.skeleton.joints.length := by
    unfold ErrorBase.stateFor at h1
    rw [Option.bind_eq_some_iff] at h1
    obtain ⟨θ, h3, h4⟩ := h1
    have hl : θ.length = exCol.skeleton.joints.length * 7 := by
      by_contra hc
      rw [skeletonState, if_neg hc] at h4; cases h4
    obtain ⟨st', h5, h6, h7⟩ := skeletonState_good exCol_fits.skeleton true hl
    rw [h4, Option.some.injEq] at h5
    exact ⟨θ, by rw [h5]; exact h6, by rw [h5]; exact h7⟩
  obtain ⟨θ, hG, hlen⟩ := hg
  refine ⟨st, h1, ?_, hlen, ErrorBase.clean_of_good hG hlen, scale_nonneg_of_good exCol_fits.skeleton hG hlen, ?_, h2⟩
  · intro h; rw [h] at hlen; simp [exCol] at hlen
  · have : posedCapsules exCol exColTransform exColGeometry (fun i => if i = 0 then z else 0) =
        ((CollisionError.capsules exColGeometry st).getD []) := by
      unfold posedCapsules
      rw [show exColTransform.transform.cols = 2 from rfl, h1, Option.bind_some]
    rw [h2] at this
    cases hc : CollisionError.capsules exColGeometry st with
    | none => rw [hc] at this; simp [exColCaps] at this
    | some cs => rw [hc] at this; rw [this]; rfl

/-- The hypotheses of the theorems are met, together with those of C67, with packets of eight lanes: the pose in which the
first child comes down to distance one. -/
theorem exCol_packets_case : ∃ (E : SimdCollision) (F : CollisionError) (st : List JointState) (x : ℝ)
    (grad gradF : Nat → ℝ) (s : JacobianResult) (E' : SimdCollision) (F' : CollisionError),
    E.Reached exCol (List.replicate 21 0) (1 / 10000000) (1 / 100000000) exColGeometry ∧
    F.Reached exCol (List.replicate 21 0) (1 / 10000000) (1 / 100000000) exColGeometry ∧
    F.toErrorBase = E.toErrorBase ∧ E.Fits exColTransform ∧ E.weight = 1 ∧ E.enabledParameters = ParameterSet.all ∧
    exCol.stateFor exColTransform (paramVec 2 fun i => if i = 0 then -9 else 0) true = some st ∧ st ≠ [] ∧
    st.length = exCol.skeleton.joints.length ∧ (∀ js ∈ st, js.derivDirty = false) ∧ (∀ js ∈ st, 0 ≤ js.transform.scale) ∧
    E.getError 8 st = some (x, E') ∧ E.getGradient 8 st (fun _ => 0) = some ((x, grad), E') ∧
    F.getGradient st (fun _ => 0) = some ((x, gradF), F') ∧
    E.getJacobian 8 st E.getJacobianSize (fun _ _ => 0) (fun _ => 0) = some (s, E') ∧
    (∀ q ∈ watchedPairs exCol.skeleton (1 / 10000000) (1 / 100000000) exColGeometry (exColCaps 0 1),
      ClearPair (1 / 10000000) (1 / 100000000)
        (capsuleAt (posedCapsules exCol exColTransform exColGeometry fun i => if i = 0 then -9 else 0) q.1)
        (capsuleAt (posedCapsules exCol exColTransform exColGeometry fun i => if i = 0 then -9 else 0) q.2)) ∧
    x = 5 / 1000 ∧ s.rows = 1 ∧ grad 0 = gradF 0 := by
  obtain ⟨E, hE, hbase⟩ := exCol_packets
  have hR := SimdCollision.Reached.new hE
  obtain ⟨E0, hE0⟩ := exCol_constructed
  have hbase0 : E0.toErrorBase = exCol := by
    have hE0 := hE0
    unfold CollisionError.construct at hE0
    simp only [Option.bind_eq_bind, Option.bind_eq_some_iff, Option.some.injEq] at hE0
    obtain ⟨_, _, _, _, _, _, _, _, rfl⟩ := hE0; rfl
  have hR0 := CollisionError.Reached.new hE0
  have hF : E.Fits exColTransform := by rw [hbase]; exact exCol_fits
  have hF0 : E0.Fits exColTransform := by rw [hbase0]; exact exCol_fits
  obtain ⟨st, h1, hne, hlen, hcl, hsc, hcs, hpc⟩ := exCol_moved (-9)
  have hclear : ∀ q ∈ watchedPairs exCol.skeleton (1 / 10000000) (1 / 100000000) exColGeometry (exColCaps 0 1),
      ClearPair (1 / 10000000) (1 / 100000000)
        (capsuleAt (posedCapsules exCol exColTransform exColGeometry fun i => if i = 0 then -9 else 0) q.1)
        (capsuleAt (posedCapsules exCol exColTransform exColGeometry fun i => if i = 0 then -9 else 0) q.2) := by
    rw [exCol_watched, hpc]
    intro q hq
    rw [Finset.mem_singleton] at hq
    subst hq
    exact exCol_clear (-9) (by norm_num)
  obtain ⟨x, E', e1, hrest⟩ := C83_returns exCol _ _ _ _ _ exCol_setting (by simp [exColGeometry]) E hR 8 (by omega)
    exColTransform hF st hne hlen hcl hsc E.getJacobianSize le_rfl (fun _ => 0) (fun _ _ => 0) (fun _ => 0)
  obtain ⟨grad, s, e2, e3, -⟩ := hrest (by
    intro cs hcs' q hq
    rw [hcs, Option.some.injEq] at hcs'
    subst hcs'
    rw [exCol_watched, Finset.mem_singleton] at hq
    subst hq
    have hd := exCol_distance (-9) one_pos
    simp only [capsuleAt, exColCaps, List.getD_cons_zero, List.getD_cons_succ]
    rw [hd]; norm_num)
  obtain ⟨y, gradF, sF, F', f1, f2, -⟩ := C67_returns exCol _ _ _ _ _ exCol_setting (by simp [exColGeometry]) E0 hR0
    exColTransform hF0 st hne hlen hcl hsc E0.getJacobianSize le_rfl (fun _ => 0) (fun _ _ => 0) (fun _ => 0) 0
  obtain ⟨k1, k2⟩ := C83_same exCol _ _ _ (by norm_num) _ _ exCol_setting E hR 8 (by omega) E0 hR0 (by rw [hbase, hbase0])
    exColTransform hF (by simp [exCol]) _ hclear st h1 x y grad gradF E' F' e2 f2 0 (by simp [exColTransform, exCol])
    (by rw [hbase]; rfl) (fun j => by rw [exCol_coeff]; rw [if_neg (by omega), if_neg (by omega)])
  subst k1
  have hx : x = 5 / 1000 := by
    rw [C83_error_exact exCol _ _ _ _ _ exCol_setting E hR 8 (by omega) st hne hsc x E' e1 _ hcs (by
      rw [exCol_watched]
      intro q hq
      rw [Finset.mem_singleton] at hq
      subst hq
      exact ⟨rfl, rfl⟩), exCol_watched, penetration, Finset.sum_singleton, exCol_depth _ one_pos, hbase]
    norm_num [kCollisionWeight, exCol]
  refine ⟨E, E0, st, x, grad, gradF, s, E', F', hR, hR0, by rw [hbase, hbase0], hF, by rw [hbase]; rfl, by rw [hbase]; rfl, h1,
    hne, hlen, hcl, hsc, e1, e2, f2, e3, hclear, hx, ?_, k2⟩
  obtain ⟨L, l1, l2, l3, -⟩ := C83_jacobian_twice exCol _ _ _ (by norm_num) _ _ exCol_setting E hR 8 (by omega) exColTransform hF
    (by simp [exCol]) (fun i => if i = 0 then -9 else 0) 0 (by simp [exColTransform, exCol]) (by rw [hbase]; rfl)
    (fun j => by rw [exCol_coeff, if_neg (by omega), if_neg (by omega)]) hclear st h1 _ le_rfl s E' e3
  obtain ⟨r1, r2, r3, -⟩ := C83_rows exCol _ _ _ _ _ exCol_setting E hR 8 (by omega) exColTransform hF
    (by rw [hbase]; simp [exCol]) st hne hlen hcl hsc _ le_rfl (fun _ _ => 0) (fun _ => 0) x E' E' s e1 e3
  rw [exCol_watched] at l3
  have hle : L.length ≤ 1 := by
    have : L.toFinset ⊆ {(0, 1)} := fun q hq => l3 q (List.mem_toFinset.1 hq)
    have := Finset.card_le_card this
    rwa [List.toFinset_card_of_nodup l1] at this
  rcases Nat.lt_or_ge s.rows 1 with h | h
  · rw [show s.rows = 0 by omega, Finset.range_zero, Finset.sum_empty, hx] at r3
    norm_num at r3
  · omega

/-- **C83**, what fails: two capsules whose axes cross.  The error is fine, the gradient and the Jacobian are not. -/
theorem C83_crossing_counterexample : ∃ (B : ErrorBase) (offsets : List ℝ) (tol eps : ℝ) (g : List (TaperedCapsule ℝ))
    (rest : List (CapsuleState ℝ)) (E : SimdCollision) (pt : ParameterTransform ℝ) (p : Nat → ℝ) (st : List JointState)
    (E' : SimdCollision), CollisionSetting B offsets tol g rest ∧ E.Reached B offsets tol eps g ∧ E.Fits pt ∧
    B.stateFor pt (paramVec pt.transform.cols p) true = some st ∧ st ≠ [] ∧
    E.getError 8 st = some (2 / 100, E') ∧ E.getGradient 8 st (fun _ => 0) = none ∧
    E.getJacobian 8 st E.getJacobianSize (fun _ _ => 0) (fun _ => 0) = none := by
  obtain ⟨E, hE, hbase⟩ := exCol_packets
  have hR := SimdCollision.Reached.new hE
  have hF : E.Fits exColTransform := by rw [hbase]; exact exCol_fits
  obtain ⟨st, h1, hne, hlen, hcl, hsc, hcs, hpc⟩ := exCol_moved (-10)
  obtain ⟨x, E', e1, -⟩ := C83_returns exCol _ _ _ _ _ exCol_setting (by simp [exColGeometry]) E hR 8 (by omega)
    exColTransform hF st hne hlen hcl hsc E.getJacobianSize le_rfl (fun _ => 0) (fun _ _ => 0) (fun _ => 0)
  have hx : x = 2 / 100 := by
    rw [C83_error_exact exCol _ _ _ _ _ exCol_setting E hR 8 (by omega) st hne hsc x E' e1 _ hcs (by
      rw [exCol_watched]
      intro q hq
      rw [Finset.mem_singleton] at hq
      subst hq
      exact ⟨rfl, rfl⟩), exCol_watched, penetration, Finset.sum_singleton, exCol_depth _ one_pos, hbase]
    norm_num [kCollisionWeight, exCol]
  subst hx
  obtain ⟨q1, q2⟩ := C83_crossing exCol _ _ _ _ _ exCol_setting E hR 8 (by omega) st hne hsc _ hcs (0, 1)
    (by rw [exCol_watched]; simp) (by
      have hd := exCol_distance (-10) one_pos
      simp only [capsuleAt, exColCaps, List.getD_cons_zero, List.getD_cons_succ]
      rw [hd]; norm_num) (by
      simp only [capsuleAt, exColCaps, List.getD_cons_zero]
      norm_num) (fun _ => 0) E.getJacobianSize (fun _ _ => 0) (fun _ => 0)
  exact ⟨exCol, _, _, _, _, _, E, exColTransform, _, st, E', exCol_setting, hR, hF, h1, hne, e1, q1, q2⟩

/-- Parallel axes, for which the other collision error functions need not find closest points. -/
example : IsClosestPair (⟨0, 0, 0⟩ : Vec3 ℝ) ⟨1, 0, 0⟩ ⟨5, 1, 0⟩ ⟨1, 0, 0⟩
    (simdSegments ⟨0, 0, 0⟩ ⟨1, 0, 0⟩ ⟨5, 1, 0⟩ ⟨1, 0, 0⟩).1 (simdSegments ⟨0, 0, 0⟩ ⟨1, 0, 0⟩ ⟨5, 1, 0⟩ ⟨1, 0, 0⟩).2 ∧
    simdSegments ⟨0, 0, 0⟩ ⟨1, 0, 0⟩ ⟨5, 1, 0⟩ ⟨1, 0, 0⟩ = (1, 0) := by
  refine ⟨C83_closest _ _ _ _, ?_⟩
  simp [simdSegments, drClamp01, Vec3.dot]

end Momentum
