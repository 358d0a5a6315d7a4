import Verif.Lemmas.SimdError10
import Verif.Props.StateError

/-!
# C70: the SIMD error functions
-/

namespace Momentum
open Skeleton SimdError

/-- A SIMD error function as the solver function sees it (skeleton_solver_function.cpp:48-86,108-162): the parameters
`p 0, p 1, …`, the skeleton state computed from them, zeros in the outputs, and `getJacobian` called after `getJacobianSize`
on a block of that many rows.  `gradient` is the version of `getGradient`; `sched` the order in which the threads of
`getJacobian` get to read and to write. -/
noncomputable def SimdError.toErrorFunction {n m W : Nat} (E : SimdError n) (K : SimdKernel n m W) (pt : ParameterTransform ℝ)
    (gradient : (Nat → ℝ) → List JointState → Option (ℝ × (Nat → ℝ))) (sched : (Nat → ℝ) → List Nat) : ErrorFunction where
  weight := E.base.weight
  jacobianSize := (E.getJacobianSize m W).1
  getError p := ((E.base.stateFor pt (paramVec pt.transform.cols p) false).bind (E.getError K)).getD 0
  getGradient p := ((E.base.stateFor pt (paramVec pt.transform.cols p) true).bind (gradient p)).getD (0, fun _ => 0)
  getJacobian p := ((E.base.stateFor pt (paramVec pt.transform.cols p) true).bind fun st =>
    (E.getJacobianSize m W).2.getJacobian K st (sched p) (E.getJacobianSize m W).1 0 (fun _ _ => 0) fun _ => 0).getD
      ⟨0, 0, fun _ _ => 0, fun _ => 0⟩

/-- With these schedules every call of `getJacobian` comes to its end. -/
def SimdError.Finished {n m W : Nat} (E : SimdError n) (K : SimdKernel n m W) (pt : ParameterTransform ℝ)
    (sched : (Nat → ℝ) → List Nat) : Prop :=
  ∀ p st, E.base.stateFor pt (paramVec pt.transform.cols p) true = some st →
    ((E.getJacobianSize m W).2.getJacobian K st (sched p) (E.getJacobianSize m W).1 0 (fun _ _ => 0) fun _ => 0).isSome

/-- The error function has these constraints, for the joints of its skeleton. -/
structure SimdError.Has {n : Nat} (E : SimdError n) (N : Nat) (C : Nat → List (Fin (n + 1) → ℝ)) : Prop where
  store : ∃ S, E.store = some S ∧ S.numJoints = N ∧ S.Holds C

namespace SimdError

section
variable {n m W : Nat} {E : SimdError n} {C : Nat → List (Fin (n + 1) → ℝ)} {K : SimdKernel n m W}
  {r : (Fin (n + 1) → ℝ) → Transform ℝ → Fin m → ℝ}
  {D : (Fin (n + 1) → ℝ) → Transform ℝ → JointState → Fin 7 → Fin m → ℝ} {pt : ParameterTransform ℝ}

theorem error_spec (hK : K.Measures r) (hs : K.scale = kSimdWeight) {N : Nat} (hE : E.Has N C) (hW : 0 < W) (hd : W ∣ 4096)
    {st : List JointState} {T : Nat → Transform ℝ} (hT : ∀ j < N, ∃ js, st[j]? = some js ∧ js.transform = T j) :
    E.getError K st = some (simdErrorOf E.base.weight N C r T) := by
  obtain ⟨S, h1, rfl, h2⟩ := hE.store
  have hl : S.numJoints ≤ st.length := by
    rcases Nat.eq_zero_or_pos S.numJoints with h0 | h0
    · omega
    · obtain ⟨js, hj, -⟩ := hT (S.numJoints - 1) (by omega)
      have := getElem?_lt hj
      omega
  rw [getError_eq hK h1 h2 hW hd hl, hs]
  unfold simdErrorOf simdTotal kSimdWeight
  congr 1
  rw [mul_comm, mul_comm _ (1 / 10000 : ℝ), mul_assoc]
  congr 3
  refine List.map_congr_left fun j hj => ?_
  obtain ⟨js, hj1, hj2⟩ := hT j (List.mem_range.1 hj)
  simp only [← hj2, stateAt_eq hj1]

theorem set_paramVec (cols : Nat) (p : Nat → ℝ) (i : Nat) : (paramVec cols p).set i (p i) = paramVec cols p := by
  rw [← StateError.paramVec_update, Function.update_eq_self]

theorem paramVec_length (cols : Nat) (p : Nat → ℝ) : (paramVec cols p).length = cols := by simp [paramVec]

theorem jacobian_of (hK : K.Measures r) (hJ : K.JacForm D) (hD : MovesWith r D) (hs : 0 ≤ K.scale)
    (hF : E.base.Fits pt) {N : Nat} (hN : N ≤ E.base.skeleton.joints.length) (hE : E.Has N C) (hW : 0 < W) (hd : W ∣ 4096)
    (hw : 0 ≤ E.base.weight) (hws : ∀ j < N, ∀ x ∈ C j, 0 ≤ x (Fin.last n)) {f : ErrorFunction} {sched : (Nat → ℝ) → List Nat}
    (hf1 : ∀ p, f.getError p = ((E.base.stateFor pt (paramVec pt.transform.cols p) false).bind (E.getError K)).getD 0)
    (hf2 : f.jacobianSize = (E.getJacobianSize m W).1)
    (hf3 : ∀ p st, E.base.stateFor pt (paramVec pt.transform.cols p) true = some st →
      ∃ rows res, (E.getJacobianSize m W).1 ≤ rows ∧
        (E.getJacobianSize m W).2.getJacobian K st (sched p) rows 0 (fun _ _ => 0) (fun _ => 0) = some res ∧
        f.getJacobian p = { res with rows := (E.getJacobianSize m W).1 })
    (p : Nat → ℝ) {i : Nat} (hi : i < pt.transform.cols) (hen : E.base.enabledParameters.mem i = true) :
    f.JacobianIsDerivative p i := by
  obtain ⟨S, h1, rfl, h2⟩ := hE.store
  obtain ⟨θ, Q, Q', ch, hM⟩ := exists_motion hF h2 h1 hN hW hd hen (paramVec_length pt.transform.cols p) hi
  have hsize := getJacobianSize_eq (m := m) (W := W) h1
  have hst : ∀ u, E.base.stateFor pt (paramVec pt.transform.cols (Function.update p i u)) true = some (Q u) := fun u => by
    rw [StateError.paramVec_update]; exact hM.state u
  have hst' : ∀ u, E.base.stateFor pt (paramVec pt.transform.cols (Function.update p i u)) false = some (Q' u) := fun u => by
    rw [StateError.paramVec_update]; exact hM.state' u
  have herr : ∀ u, f.getError (Function.update p i u) =
      ((List.range S.numJoints).map (jointError r C (Q u))).sum * K.scale * E.base.weight := by
    intro u
    simp only [hf1, hst', Option.bind_some, hM.getError hK, Option.getD_some]
  have hres : ∀ u, ∃ res, f.getJacobian (Function.update p i u) = res ∧
      res.rows = rowsBefore m W S S.numJoints ∧
      res.error = K.scale * E.base.weight * ((List.range S.numJoints).map (jointError r C (Q u))).sum ∧
      ∀ j < S.numJoints, ∀ q < (S.count j + W - 1) / W, ∀ (c : Fin m) (t : Fin W),
        res.residual (rowsBefore m W S j + q * W * m + W * c + t) =
          laneScale K E.base.weight (laneAt S j (q * W + t)) * r (laneAt S j (q * W + t)) (stateAt (Q u) j).transform c ∧
        res.e i (rowsBefore m W S j + q * W * m + W * c + t) = laneScale K E.base.weight (laneAt S j (q * W + t)) *
          residualVel D E.base.transform (Q u) (ch j) i j (laneAt S j (q * W + t)) c := by
    intro u
    obtain ⟨rows, res, hle, hr, hf⟩ := hf3 _ _ (hst u)
    refine ⟨_, hf, by rw [hsize], ?_⟩
    rw [hsize] at hr hle
    obtain ⟨-, g2, g3, -⟩ := getJacobian_eq (E := { E with jacobianOffset := (List.range S.numJoints).map (rowsBefore m W S) })
      hK hJ hF h2 hW hd hN (hM.len u) (ErrorBase.clean_of_good (hM.good u) (hM.len u)) hM.chain hen h1 rfl
      (by rw [Nat.zero_add]; exact hle) _ _ _ hr
    refine ⟨g2, fun j hj q hq c t => ?_⟩
    have := g3 j hj q hq c t
    simpa only [Nat.add_zero, zero_add] using this
  choose res e1 e2 e3 e4 using hres
  have hp0 : f.getJacobian p = res (p i) := by rw [← e1 (p i), Function.update_eq_self]
  have hR : ∀ u, ∀ j < S.numJoints, ∀ q < (S.count j + W - 1) / W, ∀ (c : Fin m) (t : Fin W),
      (res u).residual (rowsBefore m W S j + q * W * m + W * c + t) =
        laneScale K E.base.weight (laneAt S j (q * W + t)) * r (laneAt S j (q * W + t)) (stateAt (Q u) j).transform c :=
    fun u j hj q hq c t => (e4 u j hj q hq c t).1
  constructor
  · rw [hp0, e3]
    have := herr (p i)
    rw [Function.update_eq_self] at this
    rw [this]; ring
  · rw [hp0, e2, hf2, hsize]
  · intro u
    rw [e1, hp0, e2, e2]
  · intro u
    rw [herr, hp0, e2, e1]
    exact (hM.squares (K := K) (mul_nonneg hs hw) hws u (hR u)).symm
  · intro t ht
    rw [hp0, e2] at ht
    obtain ⟨j, hj, t', ht', rfl⟩ := row_joint ht
    obtain ⟨q, hq, c, l, rfl⟩ := row_lane ht'
    rw [hp0]
    simp only [e1, ← Nat.add_assoc]
    rw [(e4 (p i) j hj q hq c l).2]
    have hf : (fun u => (res u).residual (rowsBefore m W S j + q * W * m + W * c + l)) = fun u =>
        laneScale K E.base.weight (laneAt S j (q * W + l)) * r (laneAt S j (q * W + l)) (stateAt (Q u) j).transform c :=
      funext fun u => hR u j hj q hq c l
    rw [hf]
    exact (hM.residual hD (p i) hj _ c).const_mul _

theorem jacobian_isDerivative (hK : K.Measures r) (hJ : K.JacForm D) (hD : MovesWith r D) (hs : 0 ≤ K.scale)
    (hF : E.base.Fits pt) {N : Nat} (hN : N ≤ E.base.skeleton.joints.length) (hE : E.Has N C) (hW : 0 < W) (hd : W ∣ 4096)
    (hw : 0 ≤ E.base.weight) (hws : ∀ j < N, ∀ x ∈ C j, 0 ≤ x (Fin.last n)) {sched : (Nat → ℝ) → List Nat}
    (hfin : E.Finished K pt sched) (gradient : (Nat → ℝ) → List JointState → Option (ℝ × (Nat → ℝ))) (p : Nat → ℝ) {i : Nat}
    (hi : i < pt.transform.cols) (hen : E.base.enabledParameters.mem i = true) :
    (E.toErrorFunction K pt gradient sched).JacobianIsDerivative p i := by
  refine jacobian_of (sched := sched) hK hJ hD hs hF hN hE hW hd hw hws (fun p => rfl) rfl (fun p st hst => ?_) p hi hen
  obtain ⟨res, hr⟩ := Option.isSome_iff_exists.1 (hfin p st hst)
  refine ⟨_, res, le_rfl, hr, ?_⟩
  simp only [toErrorFunction, hst, Option.bind_some, hr, Option.getD_some]
  obtain ⟨S, h1, -, -⟩ := hE.store
  have hsize := getJacobianSize_eq (m := m) (W := W) h1
  have : res.rows = (E.getJacobianSize m W).1 := by
    rw [hsize] at hr ⊢
    rw [getJacobian_def (E := { E with jacobianOffset := (List.range S.numJoints).map (rowsBefore m W S) }) (S := S) h1,
      if_pos (by simp)] at hr
    obtain ⟨tasks, -, hr⟩ := Option.bind_eq_some_iff.1 hr
    obtain ⟨mem, -, hr⟩ := Option.bind_eq_some_iff.1 hr
    cases hr; rfl
  rw [← this]

/-- Every schedule can be continued to the end. -/
theorem finishes (hK : K.Measures r) (hJ : K.JacForm D) (hF : E.base.Fits pt) {N : Nat}
    (hN : N ≤ E.base.skeleton.joints.length) (hE : E.Has N C) (hW : 0 < W) (hd : W ∣ 4096) {i : Nat}
    (hi : i < pt.transform.cols) (hen : E.base.enabledParameters.mem i = true) (sched : (Nat → ℝ) → List Nat) :
    ∃ more : (Nat → ℝ) → List Nat, E.Finished K pt fun p => sched p ++ more p := by
  obtain ⟨S, h1, rfl, h2⟩ := hE.store
  have key : ∀ p, ∃ more, ∀ st, E.base.stateFor pt (paramVec pt.transform.cols p) true = some st →
      ((E.getJacobianSize m W).2.getJacobian K st (sched p ++ more) (E.getJacobianSize m W).1 0 (fun _ _ => 0)
        fun _ => 0).isSome := by
    intro p
    obtain ⟨θ, Q, Q', ch, hM⟩ := exists_motion hF h2 h1 hN hW hd hen (paramVec_length pt.transform.cols p) hi
    have hst : E.base.stateFor pt (paramVec pt.transform.cols p) true = some (Q (p i)) := by
      have := hM.state (p i); rwa [set_paramVec] at this
    rw [getJacobianSize_eq (m := m) (W := W) h1]
    obtain ⟨more, hm⟩ := getJacobian_finishes (E := { E with jacobianOffset := (List.range S.numJoints).map (rowsBefore m W S) })
      hK hJ hF h2 hW hd hN (hM.len (p i)) (ErrorBase.clean_of_good (hM.good _) (hM.len _)) hM.chain hen h1 rfl
      (show 0 + rowsBefore m W S S.numJoints ≤ _ by rw [Nat.zero_add]) (sched p) (fun _ _ => 0) fun _ => 0
    exact ⟨more, fun st h => by rw [hst] at h; cases h; exact hm⟩
  choose more hm using key
  exact ⟨more, hm⟩

/-- The gradient, given what the version of `getGradient` returns. -/
theorem gradient_deriv (hK : K.Measures r) (hD : MovesWith r D) (hF : E.base.Fits pt) {S : SimdStore ℝ n}
    (hN : S.numJoints ≤ E.base.skeleton.joints.length) (h1 : E.store = some S) (h2 : S.Holds C) (hW : 0 < W) (hd : W ∣ 4096)
    (sched : (Nat → ℝ) → List Nat) (gradient : (Nat → ℝ) → List JointState → Option (ℝ × (Nat → ℝ)))
    (p : Nat → ℝ) {i : Nat} (hi : i < pt.transform.cols) (hen : E.base.enabledParameters.mem i = true) (f : ℝ)
    (hg : ∀ st ch, st.length = E.base.skeleton.joints.length → (∀ js ∈ st, js.derivDirty = false) →
      (∀ j < E.base.skeleton.joints.length, Chain E.base.skeleton (some j) (ch j)) →
      E.base.stateFor pt (paramVec pt.transform.cols p) true = some st →
      ∃ g, gradient p st = some (((List.range S.numJoints).map (jointError r C st)).sum * K.scale * E.base.weight, g) ∧
      g i * f = ((List.range S.numJoints).map (jointGrad K.scale r D E.base.transform ch C st i)).sum * E.base.weight) :
    ((E.toErrorFunction K pt gradient sched).getGradient p).1 = (E.toErrorFunction K pt gradient sched).getError p ∧
      HasDerivAt (fun u => (E.toErrorFunction K pt gradient sched).getError (Function.update p i u))
        (((E.toErrorFunction K pt gradient sched).getGradient p).2 i * f) (p i) := by
  obtain ⟨θ, Q, Q', ch, hM⟩ := exists_motion hF h2 h1 hN hW hd hen (paramVec_length pt.transform.cols p) hi
  have hst : E.base.stateFor pt (paramVec pt.transform.cols p) true = some (Q (p i)) := by
    have := hM.state (p i); rwa [set_paramVec] at this
  have herr : ∀ u, (E.toErrorFunction K pt gradient sched).getError (Function.update p i u) =
      ((List.range S.numJoints).map (jointError r C (Q u))).sum * K.scale * E.base.weight := by
    intro u
    have hst' := hM.state' u
    rw [← StateError.paramVec_update] at hst'
    simp only [toErrorFunction, hst', Option.bind_some, hM.getError hK, Option.getD_some]
  obtain ⟨g, g1, g2⟩ := hg (Q (p i)) ch (hM.len _) (ErrorBase.clean_of_good (hM.good _) (hM.len _)) hM.chain hst
  have hgr : (E.toErrorFunction K pt gradient sched).getGradient p =
      (((List.range S.numJoints).map (jointError r C (Q (p i)))).sum * K.scale * E.base.weight, g) := by
    simp only [toErrorFunction, hst, Option.bind_some, g1, Option.getD_some]
  rw [hgr]
  refine ⟨?_, ?_⟩
  · have := herr (p i)
    rw [Function.update_eq_self] at this
    rw [this]
  · simp only [herr, g2]
    exact hM.error_deriv hD K.scale (p i)

end

theorem kSimdWeight_nonneg : 0 ≤ kSimdWeight := by unfold kSimdWeight; norm_num

end SimdError

/-! ## The error -/

/-- **C70**: `SimdPositionErrorFunction::getError` is the weighted sum of the squared distances of the points from their
targets, for every number of constraints up to 4096 per joint and every packet size. -/
theorem C70_error_position (W : Nat) (hW : 0 < W) (hd : W ∣ 4096) (E : SimdError 6) (N : Nat) (C : Nat → List (Fin 7 → ℝ))
    (hE : E.Has N C) (st : List JointState) (T : Nat → Transform ℝ)
    (hT : ∀ j < N, ∃ js, st[j]? = some js ∧ js.transform = T j) :
    E.getError (simdPosition (W := W)) st = some (simdErrorOf E.base.weight N C positionResidual T) :=
  error_spec position_measures rfl hE hW hd hT

/-- **C70**: the same for `SimdPositionErrorFunctionAVX`. -/
theorem C70_error_position_avx (E : SimdError 6) (N : Nat) (C : Nat → List (Fin 7 → ℝ))
    (hE : E.Has N C) (st : List JointState) (T : Nat → Transform ℝ)
    (hT : ∀ j < N, ∃ js, st[j]? = some js ∧ js.transform = T j) :
    E.getError simdPositionAvx st = some (simdErrorOf E.base.weight N C positionResidual T) :=
  error_spec positionAvx_measures rfl hE (by norm_num) (by norm_num) hT

/-- **C70**: `SimdPlaneErrorFunctionAVX::getError` is the weighted sum of the squared distances of the points from their
planes. -/
theorem C70_error_plane_avx (E : SimdError 7) (N : Nat) (C : Nat → List (Fin 8 → ℝ))
    (hE : E.Has N C) (st : List JointState) (T : Nat → Transform ℝ)
    (hT : ∀ j < N, ∃ js, st[j]? = some js ∧ js.transform = T j) :
    E.getError simdPlaneAvx st = some (simdErrorOf E.base.weight N C planeResidual T) :=
  error_spec planeAvx_measures rfl hE (by norm_num) (by norm_num) hT

/-- **C70**: `SimdNormalErrorFunction::getError` is the weighted sum of the squared distances of the targets from the planes
of the joints. -/
theorem C70_error_normal (W : Nat) (hW : 0 < W) (hd : W ∣ 4096) (E : SimdError 9) (N : Nat) (C : Nat → List (Fin 10 → ℝ))
    (hE : E.Has N C) (st : List JointState) (T : Nat → Transform ℝ)
    (hT : ∀ j < N, ∃ js, st[j]? = some js ∧ js.transform = T j) :
    E.getError (simdNormal (W := W)) st = some (simdErrorOf E.base.weight N C normalResidual T) :=
  error_spec normal_measures rfl hE hW hd hT

/-! ## The Jacobian -/

section
variable {pt : ParameterTransform ℝ} (gradient : (Nat → ℝ) → List JointState → Option (ℝ × (Nat → ℝ))) {N : Nat}

/-- **C70**: however its threads are scheduled, `SimdPositionErrorFunction::getJacobian` returns the residuals, whose squares
add up to the error, and their derivatives. -/
theorem C70_jacobian_position (W : Nat) (hW : 0 < W) (hd : W ∣ 4096) (E : SimdError 6) (hF : E.base.Fits pt)
    (hN : N ≤ E.base.skeleton.joints.length) (C : Nat → List (Fin 7 → ℝ)) (hE : E.Has N C) (hw : 0 ≤ E.base.weight)
    (hws : ∀ j < N, ∀ x ∈ C j, 0 ≤ x 6) (sched : (Nat → ℝ) → List Nat)
    (hfin : E.Finished (simdPosition (W := W)) pt sched) (p : Nat → ℝ) (i : Nat) (hi : i < pt.transform.cols)
    (hen : E.base.enabledParameters.mem i = true) :
    (E.toErrorFunction (simdPosition (W := W)) pt gradient sched).JacobianIsDerivative p i :=
  jacobian_isDerivative position_measures position_jac position_moves kSimdWeight_nonneg hF hN hE hW hd hw hws hfin _ p hi hen

/-- **C70**: the same for `SimdPositionErrorFunctionAVX`, when its block of the Jacobian starts at a multiple of eight rows. -/
theorem C70_jacobian_position_avx (E : SimdError 6) (hF : E.base.Fits pt) (hN : N ≤ E.base.skeleton.joints.length)
    (C : Nat → List (Fin 7 → ℝ)) (hE : E.Has N C) (hw : 0 ≤ E.base.weight) (hws : ∀ j < N, ∀ x ∈ C j, 0 ≤ x 6)
    (sched : (Nat → ℝ) → List Nat) (hfin : E.Finished simdPositionAvx pt sched) (p : Nat → ℝ) (i : Nat)
    (hi : i < pt.transform.cols) (hen : E.base.enabledParameters.mem i = true) :
    (E.toErrorFunction simdPositionAvx pt gradient sched).JacobianIsDerivative p i :=
  jacobian_isDerivative positionAvx_measures positionAvx_jac position_moves kSimdWeight_nonneg hF hN hE (by norm_num)
    (by norm_num) hw hws hfin _ p hi hen

/-- **C70**: the same for `SimdNormalErrorFunction`. -/
theorem C70_jacobian_normal (W : Nat) (hW : 0 < W) (hd : W ∣ 4096) (E : SimdError 9) (hF : E.base.Fits pt)
    (hN : N ≤ E.base.skeleton.joints.length) (C : Nat → List (Fin 10 → ℝ)) (hE : E.Has N C) (hw : 0 ≤ E.base.weight)
    (hws : ∀ j < N, ∀ x ∈ C j, 0 ≤ x 9) (sched : (Nat → ℝ) → List Nat)
    (hfin : E.Finished (simdNormal (W := W)) pt sched) (p : Nat → ℝ) (i : Nat) (hi : i < pt.transform.cols)
    (hen : E.base.enabledParameters.mem i = true) :
    (E.toErrorFunction (simdNormal (W := W)) pt gradient sched).JacobianIsDerivative p i :=
  jacobian_isDerivative normal_measures normal_jac normal_moves kSimdWeight_nonneg hF hN hE hW hd hw hws hfin _ p hi hen

/-- `SimdPlaneErrorFunctionAVX` on a block of `rows` rows. -/
noncomputable def SimdError.planeAvxFunction (E : SimdError 7) (pt : ParameterTransform ℝ)
    (gradient : (Nat → ℝ) → List JointState → Option (ℝ × (Nat → ℝ))) (sched : (Nat → ℝ) → List Nat) (rows : Nat) :
    ErrorFunction :=
  { E.toErrorFunction simdPlaneAvx pt gradient sched with
    getJacobian := fun p => ((E.base.stateFor pt (paramVec pt.transform.cols p) true).bind fun st =>
      getJacobianPlaneAvx (E.getJacobianSize 1 8).2 st (sched p) rows 0 (fun _ _ => 0) fun _ => 0).getD
        ⟨0, 0, fun _ _ => 0, fun _ => 0⟩ }

/-- **C70**, in part: `SimdPlaneErrorFunctionAVX::getJacobian` returns the residuals and their derivatives if the block has more
rows than `getJacobianSize` asks for.  With as many rows as that, as the solver has, the last packet is left out:
`C70_plane_avx_rows_wrong`. -/
theorem C70_jacobian_plane_avx_partial (E : SimdError 7) (hF : E.base.Fits pt) (hN : N ≤ E.base.skeleton.joints.length)
    (C : Nat → List (Fin 8 → ℝ)) (hE : E.Has N C) (hw : 0 ≤ E.base.weight) (hws : ∀ j < N, ∀ x ∈ C j, 0 ≤ x 7)
    (sched : (Nat → ℝ) → List Nat) (rows : Nat) (hrows : (E.getJacobianSize 1 8).1 < rows)
    (hfin : ∀ p st, E.base.stateFor pt (paramVec pt.transform.cols p) true = some st →
      (getJacobianPlaneAvx (E.getJacobianSize 1 8).2 st (sched p) rows 0 (fun _ _ => 0) fun _ => 0).isSome)
    (p : Nat → ℝ) (i : Nat) (hi : i < pt.transform.cols) (hen : E.base.enabledParameters.mem i = true) :
    (E.planeAvxFunction pt gradient sched rows).JacobianIsDerivative p i := by
  refine jacobian_of (E := E) (K := simdPlaneAvx) (sched := sched) planeAvx_measures planeAvx_jac plane_moves kSimdWeight_nonneg
    hF hN hE (by norm_num) (by norm_num) hw hws (fun p => rfl) rfl (fun p st hst => ?_) p hi hen
  obtain ⟨res, hr⟩ := Option.isSome_iff_exists.1 (hfin p st hst)
  obtain ⟨S, h1, -, -⟩ := hE.store
  have hsize := getJacobianSize_eq (m := 1) (W := 8) h1
  have hsize2 : (E.getJacobianSize 1 8).2.getJacobianSize 1 8 = E.getJacobianSize 1 8 := by
    rw [hsize]; exact getJacobianSize_eq (E := { E with jacobianOffset := (List.range S.numJoints).map (rowsBefore 1 8 S) }) h1
  have h := getJacobianPlaneAvx_eq (E := (E.getJacobianSize 1 8).2) (S := S) (by rw [hsize]; exact h1) (by rw [hsize]; simp)
    (rows := rows) (shift := 0) (by rw [hsize] at hrows; rw [Nat.zero_add]; exact hrows) st (sched p) (fun _ _ => 0) fun _ => 0
  rw [hsize2] at h
  rw [h] at hr
  obtain ⟨res', hr1, rfl⟩ := Option.map_eq_some_iff.1 hr
  refine ⟨rows, res', hrows.le, hr1, ?_⟩
  simp only [planeAvxFunction, hst, Option.bind_some, h, hr1, Option.map_some, Option.getD_some]

/-- **C70**: when the normals are unit vectors and no joint is scaled down to less than a hundredth,
`SimdNormalErrorFunctionAVX::getJacobian` returns what `SimdNormalErrorFunction::getJacobian` returns with packets of eight,
whatever the schedules. -/
theorem C70_jacobian_normal_avx (E : SimdError 9) (hF : E.base.Fits pt) (hN : N ≤ E.base.skeleton.joints.length)
    (C : Nat → List (Fin 10 → ℝ)) (hE : E.Has N C) (hunit : ∀ j < N, ∀ x ∈ C j, x 3 ^ 2 + x 4 ^ 2 + x 5 ^ 2 = 1)
    (p : Nat → ℝ) (st : List JointState) (hst : E.base.stateFor pt (paramVec pt.transform.cols p) true = some st)
    (hscale : ∀ js ∈ st, 1 / 100 ≤ js.transform.scale) (sched sched' : List Nat) (rows : Nat)
    (hrows : (E.getJacobianSize 1 8).1 ≤ rows) (J : Nat → Nat → ℝ) (R : Nat → ℝ) (a b : JacobianResult)
    (ha : (E.getJacobianSize 1 8).2.getJacobian simdNormalAvx st sched rows 0 J R = some a)
    (hb : (E.getJacobianSize 1 8).2.getJacobian (simdNormal (W := 8)) st sched' rows 0 J R = some b)
    (i : Nat) (hi : i < pt.transform.cols) (hen : E.base.enabledParameters.mem i = true) :
    a.rows = b.rows ∧ a.error = b.error ∧ ∀ t, a.residual t = b.residual t ∧ a.e i t = b.e i t := by
  obtain ⟨S, h1, rfl, h2⟩ := hE.store
  have hsize := getJacobianSize_eq (m := 1) (W := 8) h1
  rw [hsize] at ha hb hrows
  obtain ⟨θ, Q, Q', ch, hM⟩ := exists_motion (W := 8) hF h2 h1 hN (by norm_num) (by norm_num) hen
    (paramVec_length pt.transform.cols p) hi
  have hst' : E.base.stateFor pt (paramVec pt.transform.cols p) true = some (Q (p i)) := by
    have := hM.state (p i); rwa [set_paramVec] at this
  rw [hst'] at hst
  cases hst
  have hclean := ErrorBase.clean_of_good (hM.good (p i)) (hM.len _)
  obtain ⟨a1, a2, a3, a4⟩ := getJacobian_eq (E := { E with jacobianOffset := (List.range S.numJoints).map (rowsBefore 1 8 S) })
    normalAvx_measures normalAvx_jac hF h2 (by norm_num) (by norm_num) hN (hM.len (p i)) hclean hM.chain hen h1 rfl
    (by rw [Nat.zero_add]; exact hrows) _ _ _ ha
  obtain ⟨b1, b2, b3, b4⟩ := getJacobian_eq (E := { E with jacobianOffset := (List.range S.numJoints).map (rowsBefore 1 8 S) })
    (normal_measures (W := 8)) normal_jac hF h2 (by norm_num) (by norm_num) hN (hM.len (p i)) hclean hM.chain hen h1 rfl
    (by rw [Nat.zero_add]; exact hrows) _ _ _ hb
  have hn : ∀ j < S.numJoints, ∀ x ∈ C j, unitNormal x (stateAt (Q (p i)) j).transform =
      (stateAt (Q (p i)) j).transform.rotation.rotate ⟨x 3, x 4, x 5⟩ := by
    intro j hj x hx
    have hjl : j < (Q (p i)).length := by rw [hM.len]; omega
    refine unitNormal_eq ?_ ?_ (hunit j hj x hx)
    · rw [(hM.transform (p i) hj).1]
      exact ((hM.good (p i)).worldOf_unit hF.skeleton hF.unit _).1
    · have e : (Q (p i))[j]? = some (Q (p i))[j] := List.getElem?_eq_getElem hjl
      rw [stateAt_eq e]
      exact hscale _ (List.getElem_mem hjl)
  have hlane : ∀ j < S.numJoints, ∀ q < (S.count j + 8 - 1) / 8, ∀ t : Fin 8,
      laneAt S j (q * 8 + t) ∈ C j ∨ laneAt S j (q * 8 + t) (Fin.last 9) = 0 := by
    intro j hj q hq l
    rcases Nat.lt_or_ge (q * 8 + l) (C j).length with h | h
    · left
      have e : (C j)[q * 8 + l.val]? = some (C j)[q * 8 + l.val] := List.getElem?_eq_getElem h
      rw [laneAt_vals h2 hj e]
      exact List.getElem_mem h
    · right
      have h1 : S.count j ≤ kMaxConstraints := by rw [h2.count j hj]; exact h2.room j hj
      have h3 := packets_le (W := 8) (by norm_num) (by norm_num) h1
      have h4 : (q + 1) * 8 ≤ (S.count j + 8 - 1) / 8 * 8 := Nat.mul_le_mul_right _ hq
      have := l.isLt
      exact laneAt_unused h2 hj h (by omega)
  have hr : ∀ j < S.numJoints, ∀ x ∈ C j, ∀ c, normalAvxResidual x (stateAt (Q (p i)) j).transform c =
      normalResidual x (stateAt (Q (p i)) j).transform c := by
    intro j hj x hx c
    unfold normalAvxResidual normalResidual
    rw [hn j hj x hx]
  have hv : ∀ j < S.numJoints, ∀ x ∈ C j, ∀ c,
      residualVel normalAvxD E.base.transform (Q (p i)) (ch j) i j x c =
        residualVel normalD E.base.transform (Q (p i)) (ch j) i j x c := by
    intro j hj x hx c
    unfold residualVel normalAvxD normalD
    rw [hn j hj x hx]
  refine ⟨by rw [a1, b1], ?_, fun t => ?_⟩
  · rw [a2, b2]
    refine congrArg₂ (· * ·) rfl (congrArg List.sum (List.map_congr_left fun j hj => ?_))
    unfold jointError
    refine congrArg List.sum (List.map_congr_left fun x hx => ?_)
    simp only [hr j (List.mem_range.1 hj) x hx]
  · rcases Nat.lt_or_ge t (rowsBefore 1 8 S S.numJoints) with ht | ht
    · obtain ⟨j, hj, t', ht', rfl⟩ := row_joint ht
      obtain ⟨q, hq, c, l, rfl⟩ := row_lane ht'
      have a5 := a3 j hj q hq c l
      have b5 := b3 j hj q hq c l
      simp only [Nat.add_zero] at a5 b5
      rw [← Nat.add_assoc, ← Nat.add_assoc, a5.1, a5.2, b5.1, b5.2]
      rcases hlane j hj q hq l with h | h
      · rw [hr j hj _ h, hv j hj _ h]
        exact ⟨rfl, rfl⟩
      · rw [laneScale_zero h, laneScale_zero h]
        simp
    · have a5 := a4 t (Or.inr (by omega))
      have b5 := b4 t (Or.inr (by omega))
      rw [a5.1, b5.1, a5.2, b5.2]
      exact ⟨rfl, rfl⟩

end

/-! ## The gradient -/

section
variable {pt : ParameterTransform ℝ} (sched : (Nat → ℝ) → List Nat) {N : Nat}

/-- **C70**: however the joints are divided among the threads, `SimdPositionErrorFunctionAVX::getGradient` is the derivative of
the error. -/
theorem C70_gradient_position_avx (E : SimdError 6) (hF : E.base.Fits pt) (hN : N ≤ E.base.skeleton.joints.length)
    (C : Nat → List (Fin 7 → ℝ)) (hE : E.Has N C) (parts : (Nat → ℝ) → List (List Nat))
    (hparts : ∀ p, (parts p).flatten.Perm (List.range N)) (p : Nat → ℝ) (i : Nat) (hi : i < pt.transform.cols)
    (hen : E.base.enabledParameters.mem i = true) :
    (E.toErrorFunction simdPositionAvx pt (fun p st => E.getGradientAvx simdPositionAvx st (parts p) fun _ => 0)
      sched).GradientIsDerivative p i := by
  obtain ⟨S, h1, rfl, h2⟩ := hE.store
  have h := gradient_deriv (E := E) positionAvx_measures position_moves hF hN h1 h2 (by norm_num) (by norm_num) sched
    (fun p st => E.getGradientAvx simdPositionAvx st (parts p) fun _ => 0) p hi hen 1 (fun st ch hl hc hch _ => by
      obtain ⟨g, g1, g2⟩ := getGradientAvx_eq positionAvx_measures positionAvx_grad hF h2 (by norm_num) (by norm_num) hN hl hc
        hch hen h1 rfl (fun _ => 0) (parts p) (hparts p)
      exact ⟨g, g1, by rw [g2, zero_add, mul_one]⟩)
  rw [mul_one] at h
  exact h

/-- **C70**: the same for `SimdPlaneErrorFunctionAVX`. -/
theorem C70_gradient_plane_avx (E : SimdError 7) (hF : E.base.Fits pt) (hN : N ≤ E.base.skeleton.joints.length)
    (C : Nat → List (Fin 8 → ℝ)) (hE : E.Has N C) (parts : (Nat → ℝ) → List (List Nat))
    (hparts : ∀ p, (parts p).flatten.Perm (List.range N)) (p : Nat → ℝ) (i : Nat) (hi : i < pt.transform.cols)
    (hen : E.base.enabledParameters.mem i = true) :
    (E.toErrorFunction simdPlaneAvx pt (fun p st => E.getGradientAvx simdPlaneAvx st (parts p) fun _ => 0)
      sched).GradientIsDerivative p i := by
  obtain ⟨S, h1, rfl, h2⟩ := hE.store
  have h := gradient_deriv (E := E) planeAvx_measures plane_moves hF hN h1 h2 (by norm_num) (by norm_num) sched
    (fun p st => E.getGradientAvx simdPlaneAvx st (parts p) fun _ => 0) p hi hen 1 (fun st ch hl hc hch _ => by
      obtain ⟨g, g1, g2⟩ := getGradientAvx_eq planeAvx_measures planeAvx_grad hF h2 (by norm_num) (by norm_num) hN hl hc
        hch hen h1 rfl (fun _ => 0) (parts p) (hparts p)
      exact ⟨g, g1, by rw [g2, zero_add, mul_one]⟩)
  rw [mul_one] at h
  exact h

/-- **C70**, in part: `SimdPositionErrorFunction::getGradient` times the weight of the error function is the derivative of the
error, if no two threads interleave between reading and writing an entry.  Missing: the weight (`C70_gradient_weight_wrong`) and
the other schedules (`C70_gradient_race_wrong`). -/
theorem C70_gradient_position_partial (W : Nat) (hW : 0 < W) (hd : W ∣ 4096) (E : SimdError 6) (hF : E.base.Fits pt)
    (hN : N ≤ E.base.skeleton.joints.length) (C : Nat → List (Fin 7 → ℝ)) (hE : E.Has N C) (order : (Nat → ℝ) → List Nat)
    (hfin : ∀ p st, E.base.stateFor pt (paramVec pt.transform.cols p) true = some st →
      (E.getGradient (simdPosition (W := W)) st ((order p).flatMap fun t => [t, t]) fun _ => 0).isSome)
    (p : Nat → ℝ) (i : Nat) (hi : i < pt.transform.cols) (hen : E.base.enabledParameters.mem i = true) (f : ErrorFunction)
    (hf : f = E.toErrorFunction (simdPosition (W := W)) pt
      (fun p st => E.getGradient (simdPosition (W := W)) st ((order p).flatMap fun t => [t, t]) fun _ => 0) sched) :
    (f.getGradient p).1 = f.getError p ∧
      HasDerivAt (fun u => f.getError (Function.update p i u)) ((f.getGradient p).2 i * E.base.weight) (p i) := by
  subst hf
  obtain ⟨S, h1, rfl, h2⟩ := hE.store
  exact gradient_deriv (E := E) position_measures position_moves hF hN h1 h2 hW hd sched
    _ p hi hen E.base.weight (fun st ch hl hc hch hst => by
      obtain ⟨res, hr⟩ := Option.isSome_iff_exists.1 (hfin p st hst)
      obtain ⟨g1, g2⟩ := getGradient_eq position_measures position_grad hF h2 hW hd hN hl hc hch hen h1 rfl (fun _ => 0)
        (order p) hr
      refine ⟨res.2, ?_, by rw [g2, zero_add]⟩
      rw [hr]
      exact congrArg some (Prod.ext (by rw [g1]; ring) rfl))

/-- **C70**, in part: the same for `SimdNormalErrorFunction::getGradient`, which uses one thread.  Missing: the weight
(`C70_gradient_weight_wrong`). -/
theorem C70_gradient_normal_partial (W : Nat) (hW : 0 < W) (hd : W ∣ 4096) (E : SimdError 9) (hF : E.base.Fits pt)
    (hN : N ≤ E.base.skeleton.joints.length) (C : Nat → List (Fin 10 → ℝ)) (hE : E.Has N C)
    (p : Nat → ℝ) (i : Nat) (hi : i < pt.transform.cols) (hen : E.base.enabledParameters.mem i = true) (f : ErrorFunction)
    (hf : f = E.toErrorFunction (simdNormal (W := W)) pt
      (fun _ st => E.getGradientSerial (simdNormal (W := W)) st fun _ => 0) sched) :
    (f.getGradient p).1 = f.getError p ∧
      HasDerivAt (fun u => f.getError (Function.update p i u)) ((f.getGradient p).2 i * E.base.weight) (p i) := by
  subst hf
  obtain ⟨S, h1, rfl, h2⟩ := hE.store
  exact gradient_deriv (E := E) normal_measures normal_moves hF hN h1 h2 hW hd sched
    _ p hi hen E.base.weight (fun st ch hl hc hch hst => by
      obtain ⟨g, g1, g2⟩ := getGradientSerial_eq normal_measures normal_grad hF h2 hW hd hN hl hc hch hen h1 rfl (fun _ => 0)
      exact ⟨g, g1, by rw [g2, zero_add]⟩)

end

theorem SimdError.rows_kept {n m W : Nat} {K : SimdKernel n m W} {r : (Fin (n + 1) → ℝ) → Transform ℝ → Fin m → ℝ}
    {D : (Fin (n + 1) → ℝ) → Transform ℝ → JointState → Fin 7 → Fin m → ℝ} {pt : ParameterTransform ℝ} {E : SimdError n}
    {C : Nat → List (Fin (n + 1) → ℝ)} (hK : K.Measures r) (hJ : K.JacForm D) (hF : E.base.Fits pt) {N : Nat}
    (hN : N ≤ E.base.skeleton.joints.length) (hE : E.Has N C) (hW : 0 < W) (hd : W ∣ 4096) {i : Nat}
    (hi : i < pt.transform.cols) (hen : E.base.enabledParameters.mem i = true) (p : Nat → ℝ) (st : List JointState)
    (hst : E.base.stateFor pt (paramVec pt.transform.cols p) true = some st) (sched : List Nat) (rows : Nat)
    (hrows : (E.getJacobianSize m W).1 ≤ rows) (J : Nat → Nat → ℝ) (R : Nat → ℝ) (res : JacobianResult)
    (h : (E.getJacobianSize m W).2.getJacobian K st sched rows 0 J R = some res) (t : Nat)
    (ht : (E.getJacobianSize m W).1 ≤ t) : res.residual t = R t ∧ ∀ k, res.e k t = J k t := by
  obtain ⟨S, h1, rfl, h2⟩ := hE.store
  have hsize := getJacobianSize_eq (m := m) (W := W) h1
  rw [hsize] at h hrows ht
  obtain ⟨θ, Q, Q', ch, hM⟩ := exists_motion hF h2 h1 hN hW hd hen (paramVec_length pt.transform.cols p) hi
  have hst' : E.base.stateFor pt (paramVec pt.transform.cols p) true = some (Q (p i)) := by
    have := hM.state (p i); rwa [set_paramVec] at this
  rw [hst'] at hst
  cases hst
  obtain ⟨-, -, -, h4⟩ := getJacobian_eq (E := { E with jacobianOffset := (List.range S.numJoints).map (rowsBefore m W S) })
    hK hJ hF h2 hW hd hN (hM.len (p i)) (ErrorBase.clean_of_good (hM.good _) (hM.len _)) hM.chain hen h1 rfl
    (show 0 + rowsBefore m W S S.numJoints ≤ rows by rw [Nat.zero_add]; exact hrows) sched J R h
  exact h4 t (Or.inr (by rw [Nat.zero_add]; exact ht))

/-- **C70**: however the threads are scheduled, `getJacobian` leaves the rows behind those that `getJacobianSize` asks for as they
were, in the Jacobian and in the residual. -/
theorem C70_jacobian_rows {pt : ParameterTransform ℝ} {N i rows t : Nat} (hi : i < pt.transform.cols) (sched : List Nat)
    (p : Nat → ℝ) (st : List JointState) (J : Nat → Nat → ℝ) (R : Nat → ℝ) (res : JacobianResult) :
    (∀ (W : Nat) (_ : 0 < W) (_ : W ∣ 4096) (E : SimdError 6) (C : Nat → List (Fin 7 → ℝ)), E.base.Fits pt →
      N ≤ E.base.skeleton.joints.length → E.Has N C → E.base.enabledParameters.mem i = true →
      E.base.stateFor pt (paramVec pt.transform.cols p) true = some st → (E.getJacobianSize 3 W).1 ≤ rows →
      (E.getJacobianSize 3 W).2.getJacobian (simdPosition (W := W)) st sched rows 0 J R = some res →
      (E.getJacobianSize 3 W).1 ≤ t → res.residual t = R t ∧ ∀ k, res.e k t = J k t) ∧
    (∀ (E : SimdError 6) (C : Nat → List (Fin 7 → ℝ)), E.base.Fits pt →
      N ≤ E.base.skeleton.joints.length → E.Has N C → E.base.enabledParameters.mem i = true →
      E.base.stateFor pt (paramVec pt.transform.cols p) true = some st → (E.getJacobianSize 3 8).1 ≤ rows →
      (E.getJacobianSize 3 8).2.getJacobian simdPositionAvx st sched rows 0 J R = some res →
      (E.getJacobianSize 3 8).1 ≤ t → res.residual t = R t ∧ ∀ k, res.e k t = J k t) ∧
    (∀ (W : Nat) (_ : 0 < W) (_ : W ∣ 4096) (E : SimdError 9) (C : Nat → List (Fin 10 → ℝ)), E.base.Fits pt →
      N ≤ E.base.skeleton.joints.length → E.Has N C → E.base.enabledParameters.mem i = true →
      E.base.stateFor pt (paramVec pt.transform.cols p) true = some st → (E.getJacobianSize 1 W).1 ≤ rows →
      (E.getJacobianSize 1 W).2.getJacobian (simdNormal (W := W)) st sched rows 0 J R = some res →
      (E.getJacobianSize 1 W).1 ≤ t → res.residual t = R t ∧ ∀ k, res.e k t = J k t) ∧
    (∀ (E : SimdError 9) (C : Nat → List (Fin 10 → ℝ)), E.base.Fits pt →
      N ≤ E.base.skeleton.joints.length → E.Has N C → E.base.enabledParameters.mem i = true →
      E.base.stateFor pt (paramVec pt.transform.cols p) true = some st → (E.getJacobianSize 1 8).1 ≤ rows →
      (E.getJacobianSize 1 8).2.getJacobian simdNormalAvx st sched rows 0 J R = some res →
      (E.getJacobianSize 1 8).1 ≤ t → res.residual t = R t ∧ ∀ k, res.e k t = J k t) :=
  ⟨fun _ hW hd _ _ hF hN hE hen hst hr h ht =>
      rows_kept position_measures position_jac hF hN hE hW hd hi hen p st hst sched rows hr J R res h t ht,
    fun _ _ hF hN hE hen hst hr h ht =>
      rows_kept positionAvx_measures positionAvx_jac hF hN hE (by norm_num) (by norm_num) hi hen p st hst sched rows hr J R res h t ht,
    fun _ hW hd _ _ hF hN hE hen hst hr h ht =>
      rows_kept normal_measures normal_jac hF hN hE hW hd hi hen p st hst sched rows hr J R res h t ht,
    fun _ _ hF hN hE hen hst hr h ht =>
      rows_kept normalAvx_measures normalAvx_jac hF hN hE (by norm_num) (by norm_num) hi hen p st hst sched rows hr J R res h t ht⟩

/-! ## Schedules -/

theorem SimdError.plane_finishes {pt : ParameterTransform ℝ} {E : SimdError 7} {C : Nat → List (Fin 8 → ℝ)} (hF : E.base.Fits pt)
    {N : Nat} (hN : N ≤ E.base.skeleton.joints.length) (hE : E.Has N C) {i : Nat} (hi : i < pt.transform.cols)
    (hen : E.base.enabledParameters.mem i = true) (sched : (Nat → ℝ) → List Nat) {rows : Nat}
    (hrows : (E.getJacobianSize 1 8).1 < rows) : ∃ more : (Nat → ℝ) → List Nat, ∀ p st,
      E.base.stateFor pt (paramVec pt.transform.cols p) true = some st →
      (getJacobianPlaneAvx (E.getJacobianSize 1 8).2 st (sched p ++ more p) rows 0 (fun _ _ => 0) fun _ => 0).isSome := by
  obtain ⟨S, h1, rfl, h2⟩ := hE.store
  have hsize := getJacobianSize_eq (m := 1) (W := 8) h1
  have hsize2 : (E.getJacobianSize 1 8).2.getJacobianSize 1 8 = E.getJacobianSize 1 8 := by
    rw [hsize]; exact getJacobianSize_eq (E := { E with jacobianOffset := (List.range S.numJoints).map (rowsBefore 1 8 S) }) h1
  have key : ∀ p, ∃ more, ∀ st, E.base.stateFor pt (paramVec pt.transform.cols p) true = some st →
      (getJacobianPlaneAvx (E.getJacobianSize 1 8).2 st (sched p ++ more) rows 0 (fun _ _ => 0) fun _ => 0).isSome := by
    intro p
    obtain ⟨θ, Q, Q', ch, hM⟩ := exists_motion (W := 8) hF h2 h1 hN (by norm_num) (by norm_num) hen
      (paramVec_length pt.transform.cols p) hi
    have hst : E.base.stateFor pt (paramVec pt.transform.cols p) true = some (Q (p i)) := by
      have := hM.state (p i); rwa [set_paramVec] at this
    have hr : 0 + rowsBefore 1 8 S S.numJoints < rows := by rw [Nat.zero_add]; rw [hsize] at hrows; exact hrows
    obtain ⟨more, hm⟩ := getJacobian_finishes (E := { E with jacobianOffset := (List.range S.numJoints).map (rowsBefore 1 8 S) })
      planeAvx_measures planeAvx_jac hF h2 (by norm_num) (by norm_num) hN (hM.len (p i))
      (ErrorBase.clean_of_good (hM.good _) (hM.len _)) hM.chain hen h1 rfl hr.le (sched p) (fun _ _ => 0) fun _ => 0
    refine ⟨more, fun st h => ?_⟩
    rw [hst] at h
    cases h
    rw [getJacobianPlaneAvx_eq (E := (E.getJacobianSize 1 8).2) (S := S) (by rw [hsize]; exact h1) (by rw [hsize]; simp) hr, hsize2,
      Option.isSome_map, hsize]
    exact hm
  choose more hm using key
  exact ⟨more, hm⟩

/-- **C70**: every schedule of the threads of `getJacobian` can be continued until all of them are done. -/
theorem C70_finishes {pt : ParameterTransform ℝ} {N i : Nat} (hi : i < pt.transform.cols) (sched : (Nat → ℝ) → List Nat) :
    (∀ (W : Nat) (_ : 0 < W) (_ : W ∣ 4096) (E : SimdError 6) (C : Nat → List (Fin 7 → ℝ)), E.base.Fits pt →
      N ≤ E.base.skeleton.joints.length → E.Has N C → E.base.enabledParameters.mem i = true →
      ∃ more : (Nat → ℝ) → List Nat, E.Finished (simdPosition (W := W)) pt fun p => sched p ++ more p) ∧
    (∀ (E : SimdError 6) (C : Nat → List (Fin 7 → ℝ)), E.base.Fits pt →
      N ≤ E.base.skeleton.joints.length → E.Has N C → E.base.enabledParameters.mem i = true →
      ∃ more : (Nat → ℝ) → List Nat, E.Finished simdPositionAvx pt fun p => sched p ++ more p) ∧
    (∀ (W : Nat) (_ : 0 < W) (_ : W ∣ 4096) (E : SimdError 9) (C : Nat → List (Fin 10 → ℝ)), E.base.Fits pt →
      N ≤ E.base.skeleton.joints.length → E.Has N C → E.base.enabledParameters.mem i = true →
      ∃ more : (Nat → ℝ) → List Nat, E.Finished (simdNormal (W := W)) pt fun p => sched p ++ more p) ∧
    (∀ (E : SimdError 9) (C : Nat → List (Fin 10 → ℝ)), E.base.Fits pt →
      N ≤ E.base.skeleton.joints.length → E.Has N C → E.base.enabledParameters.mem i = true →
      ∃ more : (Nat → ℝ) → List Nat, E.Finished simdNormalAvx pt fun p => sched p ++ more p) ∧
    (∀ (E : SimdError 7) (C : Nat → List (Fin 8 → ℝ)) (rows : Nat), E.base.Fits pt →
      N ≤ E.base.skeleton.joints.length → E.Has N C → E.base.enabledParameters.mem i = true →
      (E.getJacobianSize 1 8).1 < rows → ∃ more : (Nat → ℝ) → List Nat, ∀ p st,
        E.base.stateFor pt (paramVec pt.transform.cols p) true = some st →
        (getJacobianPlaneAvx (E.getJacobianSize 1 8).2 st (sched p ++ more p) rows 0 (fun _ _ => 0) fun _ => 0).isSome) :=
  ⟨fun _ hW hd _ _ hF hN hE hen => finishes position_measures position_jac hF hN hE hW hd hi hen sched,
    fun _ _ hF hN hE hen => finishes positionAvx_measures positionAvx_jac hF hN hE (by norm_num) (by norm_num) hi hen sched,
    fun _ hW hd _ _ hF hN hE hen => finishes normal_measures normal_jac hF hN hE hW hd hi hen sched,
    fun _ _ hF hN hE hen => finishes normalAvx_measures normalAvx_jac hF hN hE (by norm_num) (by norm_num) hi hen sched,
    fun _ _ _ hF hN hE hen hrows => plane_finishes hF hN hE hi hen sched hrows⟩

end Momentum
