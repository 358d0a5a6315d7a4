import Verif.Props.CollisionStateless
import Verif.Props.CollisionErrorEx

/-!
# C82: a concrete case
-/

namespace Momentum
open Skeleton

theorem exCol_stored : ∃ E, StatelessCollision.construct exCol (List.replicate 21 0) (1 / 10000000) (1 / 100000000)
    exColGeometry = some E := by
  refine C82_construct exCol _ _ _ _ _ exCol_setting ?_
  intro a ha b hb
  refine ⟨0, ?_, ?_⟩
  · simp only [exColGeometry, List.mem_cons, List.not_mem_nil, or_false] at ha
    rcases ha with rfl | rfl
    · exact exCol_anc.1
    · exact exCol_anc.2
  · simp only [exColGeometry, List.mem_cons, List.not_mem_nil, or_false] at hb
    rcases hb with rfl | rfl
    · exact exCol_anc.1
    · exact exCol_anc.2

/-- The hypotheses of the theorems are met, together with those of C67: the pose in which the first child comes down to
distance one. -/
theorem exCol_stored_case : ∃ (E : StatelessCollision) (F : CollisionError) (st : List JointState) (x : ℝ)
    (grad gradF : Nat → ℝ) (s : JacobianResult) (E' : StatelessCollision) (F' : CollisionError),
    E.Reached exCol (List.replicate 21 0) (1 / 10000000) (1 / 100000000) exColGeometry ∧
    F.Reached exCol (List.replicate 21 0) (1 / 10000000) (1 / 100000000) exColGeometry ∧
    F.toErrorBase = E.toErrorBase ∧ E.Fits exColTransform ∧ E.weight = 1 ∧ E.enabledParameters = ParameterSet.all ∧
    exCol.stateFor exColTransform (paramVec 2 fun i => if i = 0 then -9 else 0) true = some st ∧ st ≠ [] ∧
    st.length = exCol.skeleton.joints.length ∧ (∀ js ∈ st, js.derivDirty = false) ∧
    E.getError st = some (x, E') ∧ E.getGradient st (fun _ => 0) = some ((x, grad), E') ∧
    F.getGradient st (fun _ => 0) = some ((x, gradF), F') ∧
    E.getJacobian st 1 (fun _ _ => 0) (fun _ => 0) 0 = some (s, E') ∧
    (∀ q ∈ watchedPairs exCol.skeleton (1 / 10000000) (1 / 100000000) exColGeometry (exColCaps 0 1),
      ClearPair (1 / 10000000) (1 / 100000000)
        (capsuleAt (posedCapsules exCol exColTransform exColGeometry fun i => if i = 0 then -9 else 0) q.1)
        (capsuleAt (posedCapsules exCol exColTransform exColGeometry fun i => if i = 0 then -9 else 0) q.2)) ∧
    x = 5 / 1000 ∧ grad 0 = gradF 0 := by
  obtain ⟨F, st, y, gradF, sF, F', r1, r2, r3, r4, r5, r6, r7, r8, r9, r10, r11, r12, r13, r14⟩ := exCol_case
  obtain ⟨E0, h0⟩ := exCol_stored
  have hE := (StatelessCollision.Reached.new h0).configure F.weight F.activeJointParams F.enabledParameters
  have hsk := (StatelessCollision.reached_kept exCol_setting hE).skeleton_eq
  have hskF := (CollisionError.reached_kept exCol_setting r1).skeleton_eq
  have htr : E0.transform = exCol.transform := by
    unfold StatelessCollision.construct at h0
    simp only [Option.bind_eq_bind, Option.bind_eq_some_iff, Option.some.injEq] at h0
    obtain ⟨_, _, _, _, _, _, rfl⟩ := h0; rfl
  have hbase : F.toErrorBase = (E0.configure F.weight F.activeJointParams F.enabledParameters).toErrorBase := by
    have e1 : F.skeleton = (E0.configure F.weight F.activeJointParams F.enabledParameters).skeleton := by
      rw [hsk, hskF]
    have e2 : F.transform = (E0.configure F.weight F.activeJointParams F.enabledParameters).transform :=
      r2.transform.trans htr.symm
    have : ∀ a b : ErrorBase, a.skeleton = b.skeleton → a.transform = b.transform → a.weight = b.weight →
        a.activeJointParams = b.activeJointParams → a.enabledParameters = b.enabledParameters → a = b := by
      rintro ⟨⟩ ⟨⟩; simp; tauto
    exact this _ _ e1 e2 rfl rfl rfl
  have hF : (E0.configure F.weight F.activeJointParams F.enabledParameters).Fits exColTransform := by rw [← hbase]; exact r2
  have hsize : (E0.configure F.weight F.activeJointParams F.enabledParameters).getJacobianSize = 1 := by
    rw [C82_size _ _ _ _ _ _ exCol_setting _ hE, exCol_watched]; rfl
  obtain ⟨x, grad, s, E', e1, e2, e3, _⟩ := C82_returns exCol _ _ _ _ _ exCol_setting _ hE
    exColTransform hF st r6 r7 r8 1 hsize.le (fun _ => 0) (fun _ _ => 0) (fun _ => 0) 0
  obtain ⟨k1, k2, _⟩ := C82_same exCol _ _ _ (by norm_num) _ _ exCol_setting _ hE F r1 hbase exColTransform hF
    (by simp [exCol]) _ r13 st r5 x y grad gradF E' F' e2 r11 0 (by simp [exColTransform, exCol])
    (by
      have : (E0.configure F.weight F.activeJointParams F.enabledParameters).enabledParameters = ParameterSet.all := r4
      rw [this]; rfl)
    (fun j => by rw [exCol_coeff]; rw [if_neg (by omega), if_neg (by omega)])
  subst k1
  exact ⟨_, F, st, x, grad, gradF, s, E', F', hE, r1, hbase, hF, r3, r4, r5, r6, r7, r8, e1, e2, r11, e3, r13, r14, k2⟩

/-- Two capsules on different roots. -/
theorem C82_forest_counterexample : ∃ (B : ErrorBase) (offsets : List ℝ) (tol eps : ℝ) (g : List (TaperedCapsule ℝ))
    (rest : List (CapsuleState ℝ)), CollisionSetting B offsets tol g rest ∧ g.length = 2 ∧
      StatelessCollision.construct B offsets tol eps g = none := by
  have hv : exForest.skeleton.Valid := by
    intro j jt q h h2
    rcases j with _ | _ | j
    · cases h; cases h2
    · cases h; cases h2
    · simp [exForest] at h
  have hs : CollisionSetting exForest (List.replicate 14 0) (1 / 10000000) _ _ := ⟨hv, by
    intro tc h
    simp only [List.mem_cons, List.not_mem_nil, or_false] at h
    rcases h with rfl | rfl <;> simp [exForest], by
    intro tc h
    simp only [List.mem_cons, List.not_mem_nil, or_false] at h
    rcases h with rfl | rfl <;> norm_num, by norm_num, by simp [kRootParentIndex], exForest_rest⟩
  refine ⟨exForest, List.replicate 14 0, 1 / 10000000, 1 / 100000000, _, _, hs, rfl, ?_⟩
  refine C82_forest _ _ _ _ _ _ hs 0 1 (by omega) _ _ rfl rfl ?_ ?_
  · have := (clear_info (by norm_num) (exCol_valid 0).1 (exCol_valid 0).2 (exCol_clear 0 (by norm_num))).1
    rw [← Bool.not_eq_true, this]
    have hd := exCol_distance 0 one_pos
    simp only [capsuleAt, exColCaps, List.getD_cons_zero, List.getD_cons_succ]
    rw [hd]
    norm_num
  · rintro ⟨c, a1, a2⟩
    have e1 : c = 0 := by
      rcases Relation.ReflTransGen.cases_head a1 with rfl | ⟨q, ⟨jt, r1, r2⟩, r3⟩
      · rfl
      · cases r1; cases r2
    have e2 : c = 1 := by
      rcases Relation.ReflTransGen.cases_head a2 with rfl | ⟨q, ⟨jt, r1, r2⟩, r3⟩
      · rfl
      · cases r1; cases r2
    omega

end Momentum
