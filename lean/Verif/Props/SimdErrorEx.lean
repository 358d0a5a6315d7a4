import Verif.Props.SimdError
import Verif.Props.CollisionErrorEx

/-!
# C70: concrete cases, and what fails
-/

namespace Momentum
open Skeleton SimdError

/-- The skeleton of `exBase` with another weight. -/
def exSimdBase (w : ℝ) : ErrorBase := { exBase with weight := w }

theorem exSimd_fits (w : ℝ) : (exSimdBase w).Fits exBaseTransform :=
  ⟨exBase_fits.skeleton, exBase_fits.unit, exBase_fits.transform, exBase_fits.wf, exBase_fits.offs, exBase_fits.rows,
    exBase_fits.cols, exBase_fits.activeLength, exBase_fits.active⟩

theorem exSimd_enabled (w : ℝ) (i : Nat) (h : i < 2) : (exSimdBase w).enabledParameters.mem i = true := by
  have hi : i < kMaxModelParams := by unfold kMaxModelParams; omega
  simp [exSimdBase, exBase, ParameterSet.all, ParameterSet.mem, hi]

/-- A store with these constraints. -/
noncomputable def storeOf {n : Nat} (N : Nat) (C : Nat → List (Fin (n + 1) → ℝ)) : SimdStore ℝ n where
  numJoints := N
  mem a := ((C (a % (4096 * N) / 4096))[a % 4096]?.map fun c => c (Fin.ofNat (n + 1) (a / (4096 * N)))).getD 0
  count j := (C j).length

theorem storeOf_mem {n N : Nat} (C : Nat → List (Fin (n + 1) → ℝ)) (k : Fin (n + 1)) {j : Nat} (hj : j < N) {i : Nat}
    (hi : i < 4096) : (storeOf N C).mem (k * (4096 * N) + (j * 4096 + i)) = ((C j)[i]?.map fun c => c k).getD 0 := by
  have hlt : j * 4096 + i < 4096 * N := by
    have : (j + 1) * 4096 ≤ N * 4096 := Nat.mul_le_mul_right _ hj
    omega
  have e1 : (k * (4096 * N) + (j * 4096 + i)) % (4096 * N) = j * 4096 + i := by
    rw [Nat.mul_add_mod', Nat.mod_eq_of_lt hlt]
  have e2 : (k * (4096 * N) + (j * 4096 + i)) / (4096 * N) = k := by
    rw [Nat.add_comm, Nat.add_mul_div_right _ _ (by omega), Nat.div_eq_of_lt hlt, Nat.zero_add]
  have e3 : (k.val * (4096 * N) + (j * 4096 + i)) % 4096 = i := by
    rw [show k.val * (4096 * N) + (j * 4096 + i) = i + 4096 * (k.val * N + j) by ring, Nat.add_mul_mod_self_left,
      Nat.mod_eq_of_lt hi]
  have e4 : (j * 4096 + i) / 4096 = j := by omega
  simp only [storeOf, e1, e2, e3, e4]
  congr 2
  funext c
  congr 1
  exact Fin.ofNat_val_eq_self k

theorem storeOf_holds {n N : Nat} {C : Nat → List (Fin (n + 1) → ℝ)} (h : ∀ j < N, (C j).length ≤ 4096) :
    (storeOf N C).Holds C where
  count _ _ := rfl
  room := h
  vals j hj i c hc k := by
    have h1 := getElem?_lt hc
    have := storeOf_mem C k hj (i := i) (by have := h j hj; omega)
    rw [hc] at this
    exact this
  unused j hj i h1 h2 := by
    have := storeOf_mem C (Fin.last n) hj (i := i) h2
    rw [List.getElem?_eq_none h1] at this
    exact this

/-- The error function with these constraints. -/
noncomputable def exSimd {n : Nat} (w : ℝ) (C : Nat → List (Fin (n + 1) → ℝ)) : SimdError n :=
  ⟨exSimdBase w, some (storeOf 2 C), []⟩

theorem exSimd_has {n : Nat} (w : ℝ) {C : Nat → List (Fin (n + 1) → ℝ)} (h : ∀ j < 2, (C j).length ≤ 4096) :
    (exSimd w C).Has 2 C := ⟨storeOf 2 C, rfl, rfl, storeOf_holds h⟩

theorem exBase_apply (x t : ℝ) : exBaseTransform.apply [x, t] = some [x, 0, 0, 0, 0, 0, 0, 0, 0, 0, 0, 0, t, 0] := by
  simp [ParameterTransform.apply, exBaseTransform, exBase, addVec, SparseMat.mulVec, List.range, List.range.loop,
    List.replicate, List.filter_cons]

/-- The transforms of the joints. -/
theorem exSimd_state (w x t : ℝ) (cd : Bool) : ∃ j0 j1, (exSimdBase w).stateFor exBaseTransform [x, t] cd = some [j0, j1] ∧
    j0.transform = ⟨Quat.one, ⟨x, 0, 0⟩, 1⟩ ∧
    j1.transform = ⟨⟨Real.cos (t / 2), 0, 0, Real.sin (t / 2)⟩, ⟨1 + x, 0, 0⟩, 1⟩ ∧
    (cd = true → j0.translationAxis 0 = ⟨1, 0, 0⟩ ∧ j0.derivDirty = false ∧ j1.rotationAxis 2 = ⟨0, 0, 1⟩ ∧
      j1.derivDirty = false) := by
  unfold ErrorBase.stateFor
  rw [exBase_apply]
  simp only [Option.bind_some]
  refine ⟨_, _, by simp only [skeletonState, exSimdBase, exBase]; rfl, ?_, ?_, ?_⟩
  · rw [set_unrotated _ _ _ _ _ _ (by rfl) (by rfl) (by rfl)]
    ext <;> simp [jointSlice, Transform.one, Quat.one, Quat.rotate, Quat.vec, Vec3.cross]
  · rw [set_transform, localTransform_of_parts]
    simp only [parentT]
    rw [set_unrotated _ _ _ _ _ _ (by rfl) (by rfl) (by rfl)]
    ext <;> simp [jointSlice, Transform.one, Quat.one, Quat.rotate, Quat.vec, Vec3.cross, Quat.angleAxis, Vec3.unitZ,
      Vec3.unitY, Vec3.unitX, add_comm]
  · intro h
    subst h
    refine ⟨?_, ?_, ?_, ?_⟩
    · ext <;> simp [JointState.set, Quat.one, Transform.one, Mat3.one, Mat3.col]
    · rw [set_derivDirty]; rfl
    · rw [(set_rotationAxis _ _ _).1]
      simp only [parentT]
      rw [set_unrotated _ _ _ _ _ _ (by rfl) (by rfl) (by rfl)]
      ext <;> simp [jointSlice, Transform.one, Quat.one, Quat.rotate, Quat.vec, Vec3.cross, Vec3.unitZ]
    · rw [set_derivDirty]; rfl


theorem paramVec_two (p : Nat → ℝ) : paramVec exBaseTransform.transform.cols p = [p 0, p 1] := rfl

/-- One constraint for each joint: its origin should be at `j, 0, 0`. -/
def exPositions (j : Nat) : List (Fin 7 → ℝ) := [![0, 0, 0, j, 0, 0, 1]]

/-- One constraint for the root: the target, the origin, should be in its plane through `0, 0, 0` with normal `s, 0, 0`. -/
def exNormals (s : ℝ) (j : Nat) : List (Fin 10 → ℝ) := if j = 0 then [![0, 0, 0, s, 0, 0, 0, 0, 0, 1]] else []

/-- One constraint for joint `k`: the point `o` should be in the plane with normal `v` at distance `d`. -/
def exPlanes (k : Nat) (o v : Vec3 ℝ) (d : ℝ) (j : Nat) : List (Fin 8 → ℝ) :=
  if j = k then [![o.x, o.y, o.z, v.x, v.y, v.z, d, 1]] else []

/-- The hypotheses of the theorems about positions are met, with two threads that read before either writes. -/
example : ∃ sched : (Nat → ℝ) → List Nat, (∀ p, ∃ l, sched p = [0, 1, 0, 1] ++ l) ∧
    (exSimd 2 exPositions).base.Fits exBaseTransform ∧ 2 ≤ (exSimd 2 exPositions).base.skeleton.joints.length ∧
    (exSimd 2 exPositions).Has 2 exPositions ∧ 0 ≤ (exSimd 2 exPositions).base.weight ∧
    (∀ j < 2, ∀ x ∈ exPositions j, 0 ≤ x 6) ∧ (exSimd 2 exPositions).Finished (simdPosition (W := 8)) exBaseTransform sched ∧
    (exSimd 2 exPositions).base.enabledParameters.mem 1 = true ∧ ([[1], [0]] : List (List Nat)).flatten.Perm (List.range 2) := by
  have hE : (exSimd 2 exPositions).Has 2 exPositions := exSimd_has 2 fun j _ => by simp [exPositions]
  have hN : 2 ≤ (exSimd 2 exPositions).base.skeleton.joints.length := by simp [exSimd, exSimdBase, exBase]
  obtain ⟨more, hm⟩ := (C70_finishes (pt := exBaseTransform) (N := 2) (i := 1) (by decide) fun _ => [0, 1, 0, 1]).1 8 (by norm_num)
    (by norm_num) (exSimd 2 exPositions) exPositions (exSimd_fits 2) hN hE (exSimd_enabled 2 1 (by norm_num))
  refine ⟨_, fun p => ⟨more p, rfl⟩, exSimd_fits 2, hN, hE, ?_, ?_, hm, exSimd_enabled 2 1 (by norm_num), by decide⟩
  · simp [exSimd, exSimdBase]
  · intro j _ x hx
    simp only [exPositions, List.mem_cons, List.not_mem_nil, or_false] at hx
    subst hx
    exact zero_le_one

/-- The hypotheses of the theorems about normals are met. -/
example : ∃ sched : (Nat → ℝ) → List Nat, (exSimd 2 (exNormals 1)).base.Fits exBaseTransform ∧
    2 ≤ (exSimd 2 (exNormals 1)).base.skeleton.joints.length ∧ (exSimd 2 (exNormals 1)).Has 2 (exNormals 1) ∧
    (∀ j < 2, ∀ x ∈ exNormals 1 j, x 3 ^ 2 + x 4 ^ 2 + x 5 ^ 2 = 1 ∧ 0 ≤ x 9) ∧
    (exSimd 2 (exNormals 1)).Finished simdNormalAvx exBaseTransform sched ∧
    ∃ st, (exSimd 2 (exNormals 1)).base.stateFor exBaseTransform [1, 0] true = some st ∧
      ∀ js ∈ st, 1 / 100 ≤ js.transform.scale := by
  have hE : (exSimd 2 (exNormals 1)).Has 2 (exNormals 1) := exSimd_has 2 fun j _ => by unfold exNormals; split <;> simp
  have hN : 2 ≤ (exSimd 2 (exNormals 1)).base.skeleton.joints.length := by simp [exSimd, exSimdBase, exBase]
  obtain ⟨more, hm⟩ := (C70_finishes (pt := exBaseTransform) (N := 2) (i := 1) (by decide) fun _ => [0, 1]).2.2.2.1
    (exSimd 2 (exNormals 1)) (exNormals 1) (exSimd_fits 2) hN hE (exSimd_enabled 2 1 (by norm_num))
  obtain ⟨j0, j1, hs, t0, t1, -⟩ := exSimd_state 2 1 0 true
  refine ⟨_, exSimd_fits 2, hN, hE, ?_, hm, [j0, j1], hs, ?_⟩
  · intro j _ x hx
    unfold exNormals at hx
    split at hx <;> simp only [List.mem_cons, List.not_mem_nil, or_false] at hx
    subst hx
    simp
  · intro js hj
    simp only [List.mem_cons, List.not_mem_nil, or_false] at hj
    rcases hj with rfl | rfl
    · rw [t0]; norm_num
    · rw [t1]; norm_num

/-- The hypotheses of the theorem about the Jacobian of planes are met. -/
example : ∃ sched : (Nat → ℝ) → List Nat, (exSimd 2 (exPlanes 1 ⟨1, 0, 0⟩ ⟨0, 1, 0⟩ 2)).base.Fits exBaseTransform ∧
    2 ≤ (exSimd 2 (exPlanes 1 ⟨1, 0, 0⟩ ⟨0, 1, 0⟩ 2)).base.skeleton.joints.length ∧
    (exSimd 2 (exPlanes 1 ⟨1, 0, 0⟩ ⟨0, 1, 0⟩ 2)).Has 2 (exPlanes 1 ⟨1, 0, 0⟩ ⟨0, 1, 0⟩ 2) ∧
    ((exSimd 2 (exPlanes 1 ⟨1, 0, 0⟩ ⟨0, 1, 0⟩ 2)).getJacobianSize 1 8).1 < 9 ∧ ∀ p st,
      (exSimd 2 (exPlanes 1 ⟨1, 0, 0⟩ ⟨0, 1, 0⟩ 2)).base.stateFor exBaseTransform (paramVec 2 p) true = some st →
      (getJacobianPlaneAvx ((exSimd 2 (exPlanes 1 ⟨1, 0, 0⟩ ⟨0, 1, 0⟩ 2)).getJacobianSize 1 8).2 st (sched p) 9 0
        (fun _ _ => 0) fun _ => 0).isSome := by
  have hE : (exSimd 2 (exPlanes 1 ⟨1, 0, 0⟩ ⟨0, 1, 0⟩ 2)).Has 2 (exPlanes 1 ⟨1, 0, 0⟩ ⟨0, 1, 0⟩ 2) :=
    exSimd_has 2 fun j _ => by unfold exPlanes; split <;> simp
  have hN : 2 ≤ (exSimd 2 (exPlanes 1 ⟨1, 0, 0⟩ ⟨0, 1, 0⟩ 2)).base.skeleton.joints.length := by simp [exSimd, exSimdBase, exBase]
  have hr : ((exSimd 2 (exPlanes 1 ⟨1, 0, 0⟩ ⟨0, 1, 0⟩ 2)).getJacobianSize 1 8).1 < 9 := by
    simp [getJacobianSize, exSimd, List.range_succ, sizeStep, storeOf, rowsOf, exPlanes]
  obtain ⟨more, hm⟩ := (C70_finishes (pt := exBaseTransform) (N := 2) (i := 1) (by decide) fun _ => [0, 1]).2.2.2.2
    _ _ 9 (exSimd_fits 2) hN hE (exSimd_enabled 2 1 (by norm_num)) hr
  exact ⟨_, exSimd_fits 2, hN, hE, hr, hm⟩

/-- **C70** fails for the gradient of `SimdNormalErrorFunction` (and of `SimdPositionErrorFunction`, see
`C70_gradient_race_wrong`): the weight of the error function is missing. -/
theorem C70_gradient_weight_wrong (W : Nat) (hW : 0 < W) (hd : W ∣ 4096) (sched : (Nat → ℝ) → List Nat) :
    ∃ (E : SimdError 9) (C : Nat → List (Fin 10 → ℝ)) (pt : ParameterTransform ℝ), E.base.Fits pt ∧
      E.base.skeleton.joints.length = 2 ∧ E.Has 2 C ∧ E.base.enabledParameters.mem 0 = true ∧
      ¬ (E.toErrorFunction (simdNormal (W := W)) pt (fun _ st => E.getGradientSerial (simdNormal (W := W)) st fun _ => 0)
        sched).GradientIsDerivative (fun _ => 1) 0 := by
  have hE : (exSimd 2 (exNormals 1)).Has 2 (exNormals 1) := exSimd_has 2 fun j _ => by
    unfold exNormals; split <;> simp
  refine ⟨exSimd 2 (exNormals 1), exNormals 1, exBaseTransform, exSimd_fits 2, rfl, hE, exSimd_enabled 2 0 (by norm_num), ?_⟩
  obtain ⟨f, hf⟩ : ∃ f, f = (exSimd 2 (exNormals 1)).toErrorFunction (simdNormal (W := W)) exBaseTransform
    (fun _ st => (exSimd 2 (exNormals 1)).getGradientSerial (simdNormal (W := W)) st fun _ => 0) sched := ⟨_, rfl⟩
  rw [← hf]
  intro h
  obtain ⟨-, h2⟩ := C70_gradient_normal_partial sched W hW hd (exSimd 2 (exNormals 1)) (exSimd_fits 2) (by rfl) (exNormals 1) hE
    (fun _ => 1) 0 (by decide) (exSimd_enabled 2 0 (by norm_num)) f hf
  have h3 := h.2.unique h2
  have hw : (exSimd 2 (exNormals 1)).base.weight = 2 := rfl
  rw [hw] at h3
  have h4 := h.2
  have h0 : (f.getGradient fun _ => 1).2 0 = 0 := by linarith
  rw [h0] at h4
  have he : (fun u => f.getError (Function.update (fun _ => 1) 0 u)) = fun u => 2 / 10000 * u ^ 2 := by
    funext u
    obtain ⟨j0, j1, hs, t0, t1, -⟩ := exSimd_state 2 u 1 false
    have := C70_error_normal W hW hd (exSimd 2 (exNormals 1)) 2 (exNormals 1) hE [j0, j1] (fun j => (stateAt [j0, j1] j).transform)
      (fun j hj => by
        rcases j with _ | _ | j
        · exact ⟨j0, rfl, rfl⟩
        · exact ⟨j1, rfl, rfl⟩
        · omega)
    simp only [hf, toErrorFunction, paramVec_two]
    rw [show (exSimd 2 (exNormals 1)).base.stateFor exBaseTransform [Function.update (fun _ => (1 : ℝ)) 0 u 0,
      Function.update (fun _ => (1 : ℝ)) 0 u 1] false = some [j0, j1] from hs, Option.bind_some, this, Option.getD_some]
    simp [simdErrorOf, exNormals, normalResidual, List.range_succ, stateAt, t0, hw, Quat.one, Quat.rotate, Quat.vec, Vec3.cross,
      Vec3.dot, Transform.transformPoint, Fin.last]
    left; norm_num
  rw [he] at h4
  have h5 := ((hasDerivAt_pow 2 (1 : ℝ)).const_mul (2 / 10000))
  have := h4.unique h5
  norm_num at this

/-- The only packet of a joint with one constraint. -/
theorem storeOf_load {n : Nat} {C : Nat → List (Fin (n + 1) → ℝ)} (h : ∀ j < 2, (C j).length ≤ 4096) {j : Nat} (hj : j < 2)
    {c : Fin (n + 1) → ℝ} (hc : C j = [c]) :
    (storeOf 2 C).load 8 j 0 = some fun k l => if l = 0 then c k else 0 := by
  rw [load_eq (storeOf_holds h) (by norm_num) (by norm_num) hj (by simp [packetStarts, storeOf, hc])]
  congr 1
  funext k l
  have := storeOf_mem C k hj (i := l) (by have := l.isLt; omega)
  unfold lanesAt laneAt
  rw [Nat.zero_add]
  refine this.trans ?_
  rw [hc]
  fin_cases l <;> simp

/-- The assignments of the two tasks of `SimdPositionErrorFunction::getGradient`. -/
theorem exPositions_tasks {w x t : ℝ} {j0 j1 : JointState} (t0 : j0.transform = ⟨Quat.one, ⟨x, 0, 0⟩, 1⟩)
    (t1 : j1.transform = ⟨⟨Real.cos (t / 2), 0, 0, Real.sin (t / 2)⟩, ⟨1 + x, 0, 0⟩, 1⟩)
    (a0 : j0.translationAxis 0 = ⟨1, 0, 0⟩) (d0 : j0.derivDirty = false) (d1 : j1.derivDirty = false) :
    (gradTask (simdPosition (W := 8)) (exSimdBase w) (storeOf 2 exPositions) [j0, j1] 0).map (·.2) =
      some [⟨true, [(0, 2 / 10000 * x)]⟩] ∧
    (gradTask (simdPosition (W := 8)) (exSimdBase w) (storeOf 2 exPositions) [j0, j1] 1).map (·.2) =
      some [⟨true, [(1, 0)]⟩, ⟨true, [(0, 2 / 10000 * x)]⟩] := by
  have hl : ∀ j < 2, (exPositions j).length ≤ 4096 := fun j _ => by simp [exPositions]
  have hp : ∀ j, packetStarts 8 ((storeOf 2 exPositions).count j) = [0] := fun j => by
    simp [packetStarts, storeOf, exPositions]
  have g0 : ∀ d, j0.getTranslationDerivative d = some (j0.translationAxis d) := fun d => by
    simp [JointState.getTranslationDerivative, d0]
  have g1 : ∀ d, j1.getTranslationDerivative d = some (j1.translationAxis d) := fun d => by
    simp [JointState.getTranslationDerivative, d1]
  constructor
  · simp only [gradTask, hp, gradPacket, List.foldlM_cons, List.foldlM_nil, storeOf_load hl (show 0 < 2 by norm_num) rfl,
      Option.bind_some, List.getElem?_cons_zero]
    simp [chainWalk.eq_def, exSimdBase, exBase, simdPosition, sevenDofs, activeStep, g0, gradEmit]
    simp [positionDiff, laneVec, a0, t0, Transform.transformPoint, Quat.one, Quat.rotate, Quat.vec, Vec3.cross, Vec3.dot,
      kSimdWeight]
    ring
  · simp only [gradTask, hp, gradPacket, List.foldlM_cons, List.foldlM_nil, storeOf_load hl (show 1 < 2 by norm_num) rfl,
      Option.bind_some, List.getElem?_cons_zero, List.getElem?_cons_succ]
    simp [chainWalk.eq_def, exSimdBase, exBase, simdPosition, sevenDofs, activeStep, g0, g1, gradEmit]
    simp [positionDiff, laneVec, a0, t1, Transform.transformPoint, Quat.rotate, Quat.vec, Vec3.cross, Vec3.dot,
      kSimdWeight]
    ring

/-- The error of these constraints when the root is at `u`. -/
theorem exPositions_error (w u : ℝ) (gradient : (Nat → ℝ) → List JointState → Option (ℝ × (Nat → ℝ)))
    (sched : (Nat → ℝ) → List Nat) :
    ((exSimd w exPositions).toErrorFunction (simdPosition (W := 8)) exBaseTransform gradient sched).getError
      (Function.update (fun _ => 1) 0 u) = 2 * w / 10000 * u ^ 2 := by
  have hE : (exSimd w exPositions).Has 2 exPositions := exSimd_has w fun j _ => by simp [exPositions]
  obtain ⟨j0, j1, hs, t0, t1, -⟩ := exSimd_state w u 1 false
  have := C70_error_position 8 (by norm_num) (by norm_num) (exSimd w exPositions) 2 exPositions hE [j0, j1]
    (fun j => (stateAt [j0, j1] j).transform) (fun j hj => by
      rcases j with _ | _ | j
      · exact ⟨j0, rfl, rfl⟩
      · exact ⟨j1, rfl, rfl⟩
      · omega)
  have hw : (exSimd w exPositions).base.weight = w := rfl
  simp only [toErrorFunction, paramVec_two]
  rw [show (exSimd w exPositions).base.stateFor exBaseTransform [Function.update (fun _ => (1 : ℝ)) 0 u 0,
    Function.update (fun _ => (1 : ℝ)) 0 u 1] false = some [j0, j1] from hs, Option.bind_some, this, Option.getD_some]
  simp [simdErrorOf, exPositions, positionResidual, List.range_succ, stateAt, t0, t1, hw, Quat.one, Quat.rotate, Quat.vec,
    Vec3.cross, Vec3.toFn, Transform.transformPoint, Fin.last, Fin.sum_univ_three]
  ring

/-- What `getGradient` leaves in the first entry, for a given outcome of the two tasks. -/
theorem exPositions_gradient (w : ℝ) (schedule : List Nat) (p : Nat → ℝ) {g : Nat → ℝ}
    (hg : parRun [[⟨true, [(0, 2 / 10000 * p 0)]⟩], [⟨true, [(1, 0)]⟩, ⟨true, [(0, 2 / 10000 * p 0)]⟩]] schedule (fun _ => 0) =
      some g) (sched : (Nat → ℝ) → List Nat) :
    (∀ st, (exSimd w exPositions).base.stateFor exBaseTransform (paramVec exBaseTransform.transform.cols p) true = some st →
      ((exSimd w exPositions).getGradient (simdPosition (W := 8)) st schedule fun _ => 0).isSome) ∧
    (((exSimd w exPositions).toErrorFunction (simdPosition (W := 8)) exBaseTransform (fun _ st =>
      (exSimd w exPositions).getGradient (simdPosition (W := 8)) st schedule fun _ => 0) sched).getGradient p).2 = g := by
  obtain ⟨j0, j1, hs, t0, t1, h⟩ := exSimd_state w (p 0) (p 1) true
  obtain ⟨a0, d0, -, d1⟩ := h rfl
  obtain ⟨h0, h1⟩ := exPositions_tasks (w := w) t0 t1 a0 d0 d1
  obtain ⟨⟨e0, o0⟩, h0, q0⟩ := Option.map_eq_some_iff.1 h0
  obtain ⟨⟨e1, o1⟩, h1, q1⟩ := Option.map_eq_some_iff.1 h1
  simp only at q0 q1
  have hm : (List.range 2).mapM (gradTask (simdPosition (W := 8)) (exSimdBase w) (storeOf 2 exPositions) [j0, j1]) =
      some [(e0, o0), (e1, o1)] := by
    rw [show List.range 2 = [0, 1] from rfl, List.mapM_cons, h0, List.mapM_cons, h1]
    rfl
  have hr : (exSimd w exPositions).getGradient (simdPosition (W := 8)) [j0, j1] schedule (fun _ => 0) =
      some (kSimdWeight * w * (e0 + (e1 + 0)), g) := by
    unfold getGradient
    simp only [exSimd]
    rw [show (storeOf 2 exPositions).numJoints = 2 from rfl, hm, Option.bind_some]
    simp only [List.map_cons, List.map_nil, q0, q1, hg, Option.bind_some]
    rfl
  have hs' : (exSimd w exPositions).base.stateFor exBaseTransform (paramVec exBaseTransform.transform.cols p) true =
      some [j0, j1] := hs
  refine ⟨fun st h => ?_, ?_⟩
  · rw [hs'] at h
    cases h
    rw [hr]; rfl
  · simp only [toErrorFunction, hs', Option.bind_some, hr, Option.getD_some]

/-- **C70** fails for the gradient of `SimdPositionErrorFunction`: two threads read the same entry before either writes it, and
one contribution is lost.  The schedule gives all threads the steps they need. -/
theorem C70_gradient_race_wrong : ∃ (E : SimdError 6) (C : Nat → List (Fin 7 → ℝ)) (pt : ParameterTransform ℝ)
    (schedule : List Nat), E.base.Fits pt ∧ E.base.skeleton.joints.length = 2 ∧ E.Has 2 C ∧ E.base.weight = 1 ∧
      E.base.enabledParameters.mem 0 = true ∧
      (∀ p st, E.base.stateFor pt (paramVec pt.transform.cols p) true = some st →
        (E.getGradient (simdPosition (W := 8)) st schedule fun _ => 0).isSome) ∧
      ∀ sched, ¬ (E.toErrorFunction (simdPosition (W := 8)) pt
        (fun _ st => E.getGradient (simdPosition (W := 8)) st schedule fun _ => 0) sched).GradientIsDerivative (fun _ => 1) 0 := by
  have hE : (exSimd 1 exPositions).Has 2 exPositions := exSimd_has 1 fun j _ => by simp [exPositions]
  have hrun : ∀ v : ℝ, ∃ g, parRun [[⟨true, [(0, v)]⟩], [⟨true, [(1, 0)]⟩, ⟨true, [(0, v)]⟩]] [0, 1, 1, 1, 1, 0]
      (fun _ => 0) = some g ∧ g 0 = v := by
    intro v
    refine ⟨_, rfl, ?_⟩
    simp [parStep, PacketOp.write]
  refine ⟨exSimd 1 exPositions, exPositions, exBaseTransform, [0, 1, 1, 1, 1, 0], exSimd_fits 1, rfl, hE, rfl,
    exSimd_enabled 1 0 (by norm_num), fun p => ?_, fun sched h => ?_⟩
  · obtain ⟨g, hg, -⟩ := hrun (2 / 10000 * p 0)
    exact (exPositions_gradient 1 _ p hg fun _ => []).1
  · obtain ⟨g, hg, hv⟩ := hrun (2 / 10000 * (fun _ => 1 : Nat → ℝ) 0)
    have h1 := h.2
    rw [(exPositions_gradient 1 _ _ hg sched).2, hv] at h1
    simp only [exPositions_error] at h1
    have := h1.unique ((hasDerivAt_pow 2 (1 : ℝ)).const_mul (2 * 1 / 10000))
    norm_num at this

/-- **C70** fails for the gradient of `SimdPositionErrorFunction` even with one thread: the weight of the error function is
missing. -/
theorem C70_gradient_position_weight_wrong : ∃ (E : SimdError 6) (C : Nat → List (Fin 7 → ℝ)) (pt : ParameterTransform ℝ),
    E.base.Fits pt ∧ E.base.skeleton.joints.length = 2 ∧ E.Has 2 C ∧ E.base.enabledParameters.mem 0 = true ∧
      (∀ p st, E.base.stateFor pt (paramVec pt.transform.cols p) true = some st →
        (E.getGradient (simdPosition (W := 8)) st [0, 0, 1, 1, 1, 1] fun _ => 0).isSome) ∧
      ∀ sched, ¬ (E.toErrorFunction (simdPosition (W := 8)) pt (fun _ st =>
        E.getGradient (simdPosition (W := 8)) st [0, 0, 1, 1, 1, 1] fun _ => 0) sched).GradientIsDerivative (fun _ => 1) 0 := by
  have hE : (exSimd 2 exPositions).Has 2 exPositions := exSimd_has 2 fun j _ => by simp [exPositions]
  have hrun : ∀ v : ℝ, ∃ g, parRun [[⟨true, [(0, v)]⟩], [⟨true, [(1, 0)]⟩, ⟨true, [(0, v)]⟩]] [0, 0, 1, 1, 1, 1]
      (fun _ => 0) = some g ∧ g 0 = 2 * v := by
    intro v
    refine ⟨_, rfl, ?_⟩
    simp [parStep, PacketOp.write]
    ring
  refine ⟨exSimd 2 exPositions, exPositions, exBaseTransform, exSimd_fits 2, rfl, hE,
    exSimd_enabled 2 0 (by norm_num), fun p => ?_, fun sched h => ?_⟩
  · obtain ⟨g, hg, -⟩ := hrun (2 / 10000 * p 0)
    exact (exPositions_gradient 2 _ p hg fun _ => []).1
  · obtain ⟨g, hg, hv⟩ := hrun (2 / 10000 * (fun _ => 1 : Nat → ℝ) 0)
    have h1 := h.2
    rw [(exPositions_gradient 2 _ _ hg sched).2, hv] at h1
    simp only [exPositions_error] at h1
    have := h1.unique ((hasDerivAt_pow 2 (1 : ℝ)).const_mul (2 * 2 / 10000))
    norm_num at this

/-! ## Planes -/

/-- What `SimdPlaneErrorFunction` measures: the normal is turned with the joint. -/
noncomputable def turnedPlane (x : Fin 8 → ℝ) (T : Transform ℝ) (_ : Fin 1) : ℝ :=
  (T.transformPoint ⟨x 0, x 1, x 2⟩).dot (T.rotation.rotate ⟨x 3, x 4, x 5⟩) - x 6

theorem turnedPlane_measures {W : Nat} : (simdPlane (W := W)).Measures turnedPlane := by
  constructor
  · intro v js l
    simp only [simdPlane, turnedPlane, planeDist, laneVec, Finset.univ_unique, Finset.sum_singleton]
    rfl
  · intro w v js c l
    simp only [simdPlane, turnedPlane, planeDist, laneVec]
    rw [mul_comm]
    rfl

theorem exPlanes_length (k : Nat) (o v : Vec3 ℝ) (d : ℝ) (j : Nat) : (exPlanes k o v d j).length ≤ 4096 := by
  unfold exPlanes; split <;> simp

/-- **C70** fails for `SimdPlaneErrorFunction::getError`: the plane is turned with the joint, so that a point in the plane has
an error. -/
theorem C70_plane_error_wrong : ∃ (E : SimdError 7) (C : Nat → List (Fin 8 → ℝ)) (pt : ParameterTransform ℝ)
    (st : List JointState) (T : Nat → Transform ℝ) (e : ℝ), E.base.Fits pt ∧ E.Has 2 C ∧
      E.base.stateFor pt [0, Real.pi] false = some st ∧ (∀ j < 2, ∃ js, st[j]? = some js ∧ js.transform = T j) ∧
      E.getError (simdPlane (W := 8)) st = some e ∧ simdErrorOf E.base.weight 2 C planeResidual T = 0 ∧ e ≠ 0 := by
  obtain ⟨j0, j1, hs, t0, t1, -⟩ := exSimd_state 1 0 Real.pi false
  have hT : ∀ j < 2, ∃ js, [j0, j1][j]? = some js ∧ js.transform = (stateAt [j0, j1] j).transform := fun j hj => by
    rcases j with _ | _ | j
    · exact ⟨j0, rfl, rfl⟩
    · exact ⟨j1, rfl, rfl⟩
    · omega
  have hE := exSimd_has (n := 7) 1 (C := exPlanes 1 0 ⟨1, 0, 0⟩ 1) fun j _ => exPlanes_length _ _ _ _ j
  refine ⟨exSimd 1 (exPlanes 1 0 ⟨1, 0, 0⟩ 1), exPlanes 1 0 ⟨1, 0, 0⟩ 1, exBaseTransform, [j0, j1],
    fun j => (stateAt [j0, j1] j).transform, _, exSimd_fits 1, hE, hs, hT,
    error_spec turnedPlane_measures rfl hE (by norm_num) (by norm_num) hT, ?_, ?_⟩
  all_goals
    simp [simdErrorOf, exPlanes, planeResidual, turnedPlane, List.range_succ, stateAt, t1, exSimd, exSimdBase, Quat.rotate,
      Quat.vec, Vec3.cross, Vec3.dot, Transform.transformPoint, Fin.last]
  norm_num

/-- **C70** fails for `SimdPlaneErrorFunctionAVX::getJacobian` with the rows that `getJacobianSize` asks for: the last packet is
not computed.  Here the only constraint, which has an error, is left out, and seven rows of the eight are said to be used. -/
theorem C70_plane_avx_rows_wrong (schedule : List Nat) : ∃ (E : SimdError 7) (C : Nat → List (Fin 8 → ℝ))
    (pt : ParameterTransform ℝ) (st st' : List JointState) (e : ℝ) (res : JacobianResult), E.base.Fits pt ∧ E.Has 2 C ∧
      E.base.stateFor pt [1, 0] true = some st ∧ E.base.stateFor pt [1, 0] false = some st' ∧
      (E.getJacobianSize 1 8).1 = 8 ∧ E.getError simdPlaneAvx st' = some e ∧ e ≠ 0 ∧
      getJacobianPlaneAvx (E.getJacobianSize 1 8).2 st schedule 8 0 (fun _ _ => 0) (fun _ => 0) = some res ∧
      res.error = 0 ∧ res.rows = 7 ∧ (∀ t, res.residual t = 0) ∧ ∀ i t, res.e i t = 0 := by
  obtain ⟨j0, j1, hs, t0, t1, -⟩ := exSimd_state 1 1 0 true
  obtain ⟨k0, k1, hs', u0, u1, -⟩ := exSimd_state 1 1 0 false
  have hT : ∀ j < 2, ∃ js, [k0, k1][j]? = some js ∧ js.transform = (stateAt [k0, k1] j).transform := fun j hj => by
    rcases j with _ | _ | j
    · exact ⟨k0, rfl, rfl⟩
    · exact ⟨k1, rfl, rfl⟩
    · omega
  have hE := exSimd_has (n := 7) 1 (C := exPlanes 0 0 ⟨1, 0, 0⟩ 0) fun j _ => exPlanes_length _ _ _ _ j
  have hsz : (exSimd (n := 7) 1 (exPlanes 0 0 ⟨1, 0, 0⟩ 0)).getJacobianSize 1 8 =
      (8, ⟨exSimdBase 1, some (storeOf 2 (exPlanes 0 0 ⟨1, 0, 0⟩ 0)), [0, 8]⟩) := by
    simp [getJacobianSize, exSimd, List.range_succ, sizeStep, storeOf, rowsOf, exPlanes]
  have hpar : ∀ mem : JacCell → ℝ, parRun [[], []] schedule mem = some mem := by
    intro mem
    have : ∀ l : List Nat, l.foldl parStep (mem, [(⟨[], none⟩ : Worker JacCell), ⟨[], none⟩]) = (mem, [⟨[], none⟩, ⟨[], none⟩]) := by
      intro l
      induction l with
      | nil => rfl
      | cons t l ih =>
        rw [List.foldl_cons]
        have e : parStep (mem, [(⟨[], none⟩ : Worker JacCell), ⟨[], none⟩]) t = (mem, [⟨[], none⟩, ⟨[], none⟩]) := by
          rcases t with _ | _ | t <;> simp [parStep]
        rw [e, ih]
    simp [parRun, this]
  refine ⟨exSimd 1 (exPlanes 0 0 ⟨1, 0, 0⟩ 0), exPlanes 0 0 ⟨1, 0, 0⟩ 0, exBaseTransform, [j0, j1], [k0, k1], _,
    ⟨0, 7, fun _ _ => 0, fun _ => 0⟩, exSimd_fits 1, hE, hs, hs', by rw [hsz],
    C70_error_plane_avx _ 2 _ hE _ _ hT, ?_, ?_, rfl, rfl, fun _ => rfl, fun _ _ => rfl⟩
  · simp [simdErrorOf, exPlanes, planeResidual, List.range_succ, stateAt, u0, exSimd, exSimdBase, Quat.one, Quat.rotate,
      Quat.vec, Vec3.cross, Vec3.dot, Transform.transformPoint, Fin.last]
  · have hm : (List.range 2).mapM (planeTaskAvx ⟨exSimdBase 1, some (storeOf 2 (exPlanes 0 0 ⟨1, 0, 0⟩ 0)), [0, 8]⟩
        (storeOf 2 (exPlanes 0 0 ⟨1, 0, 0⟩ 0)) [j0, j1] 8 0) = some [(0, []), (0, [])] := by
      simp [List.range_succ, planeTaskAvx, packetStarts, storeOf, exPlanes, planePacketAvx]
    have hsz' : getJacobianSize (n := 7) ⟨exSimdBase 1, some (storeOf 2 (exPlanes 0 0 ⟨1, 0, 0⟩ 0)), [0, 8]⟩ 1 8 =
        (8, ⟨exSimdBase 1, some (storeOf 2 (exPlanes 0 0 ⟨1, 0, 0⟩ 0)), [0, 8]⟩) := by
      simp [getJacobianSize, List.range_succ, sizeStep, storeOf, rowsOf, exPlanes]
    rw [hsz]
    unfold getJacobianPlaneAvx
    simp only [hsz']
    rw [show (storeOf 2 (exPlanes 0 0 ⟨1, 0, 0⟩ 0)).numJoints = 2 from rfl, hm, if_pos (by simp)]
    simp [hpar, jacMem]

/-- **C70** fails for `SimdPlaneErrorFunction::getGradient`: it has the square of the distance where the derivative of the error
has the distance.  One constraint at the root, with weight one. -/
theorem C70_plane_gradient_wrong : ∃ (E : SimdError 7) (C : Nat → List (Fin 8 → ℝ)) (pt : ParameterTransform ℝ),
    E.base.Fits pt ∧ E.base.skeleton.joints.length = 2 ∧ E.Has 2 C ∧ E.base.weight = 1 ∧
      E.base.enabledParameters.mem 0 = true ∧
      (∀ p st, E.base.stateFor pt (paramVec pt.transform.cols p) true = some st →
        (E.getGradient (simdPlane (W := 8)) st [0, 0] fun _ => 0).isSome) ∧
      ∀ sched, ¬ (E.toErrorFunction (simdPlane (W := 8)) pt
        (fun _ st => E.getGradient (simdPlane (W := 8)) st [0, 0] fun _ => 0) sched).GradientIsDerivative (fun _ => 2) 0 := by
  have hl : ∀ j < 2, (exPlanes 0 0 ⟨1, 0, 0⟩ 0 j).length ≤ 4096 := fun j _ => exPlanes_length _ _ _ _ j
  have hE := exSimd_has (n := 7) 1 (C := exPlanes 0 0 ⟨1, 0, 0⟩ 0) hl
  have htask : ∀ (x : ℝ) (j0 j1 : JointState), j0.transform = ⟨Quat.one, ⟨x, 0, 0⟩, 1⟩ → j0.translationAxis 0 = ⟨1, 0, 0⟩ →
      j0.derivDirty = false → ∃ e, (List.range 2).mapM
        (gradTask (simdPlane (W := 8)) (exSimdBase 1) (storeOf 2 (exPlanes 0 0 ⟨1, 0, 0⟩ 0)) [j0, j1]) =
          some [(e, [⟨true, [(0, 2 / 10000 * x ^ 2)]⟩]), (0, [])] := by
    intro x j0 j1 t0 a0 d0
    have g0 : ∀ d, j0.getTranslationDerivative d = some (j0.translationAxis d) := fun d => by
      simp [JointState.getTranslationDerivative, d0]
    have hp0 : packetStarts 8 ((storeOf 2 (exPlanes 0 0 ⟨1, 0, 0⟩ 0)).count 0) = [0] := by
      simp [packetStarts, storeOf, exPlanes]
    have hp1 : packetStarts 8 ((storeOf 2 (exPlanes 0 0 ⟨1, 0, 0⟩ 0)).count 1) = [] := by
      simp [packetStarts, storeOf, exPlanes]
    have h0 : (gradTask (simdPlane (W := 8)) (exSimdBase 1) (storeOf 2 (exPlanes 0 0 ⟨1, 0, 0⟩ 0)) [j0, j1] 0).map (·.2) =
        some [⟨true, [(0, 2 / 10000 * x ^ 2)]⟩] := by
      simp only [gradTask, hp0, gradPacket, List.foldlM_cons, List.foldlM_nil, storeOf_load hl (show 0 < 2 by norm_num) rfl,
        Option.bind_some, List.getElem?_cons_zero]
      simp [chainWalk.eq_def, exSimdBase, exBase, simdPlane, sevenDofs, activeStep, g0, gradEmit]
      simp [planeDist, laneVec, a0, t0, Transform.transformPoint, Quat.one, Quat.rotate, Quat.vec, Vec3.cross, Vec3.dot,
        kSimdWeight]
      ring
    have h1 : gradTask (simdPlane (W := 8)) (exSimdBase 1) (storeOf 2 (exPlanes 0 0 ⟨1, 0, 0⟩ 0)) [j0, j1] 1 = some (0, []) := by
      simp only [gradTask, hp1]
      rfl
    obtain ⟨⟨e, o⟩, h0, q⟩ := Option.map_eq_some_iff.1 h0
    simp only at q
    refine ⟨e, ?_⟩
    rw [show List.range 2 = [0, 1] from rfl, List.mapM_cons, h0, List.mapM_cons, h1, q]
    rfl
  have hgrad : ∀ p : Nat → ℝ, ∃ st e g,
      (exSimd 1 (exPlanes 0 0 ⟨1, 0, 0⟩ 0)).base.stateFor exBaseTransform (paramVec exBaseTransform.transform.cols p) true = some st ∧
      (exSimd 1 (exPlanes 0 0 ⟨1, 0, 0⟩ 0)).getGradient (simdPlane (W := 8)) st [0, 0] (fun _ => 0) = some (e, g) ∧
      g 0 = 2 / 10000 * p 0 ^ 2 := by
    intro p
    obtain ⟨j0, j1, hs, t0, t1, h⟩ := exSimd_state 1 (p 0) (p 1) true
    obtain ⟨a0, d0, -, -⟩ := h rfl
    obtain ⟨e, hm⟩ := htask (p 0) j0 j1 t0 a0 d0
    have hrun : ∀ v : ℝ, ∃ g, parRun [[⟨true, [(0, v)]⟩], []] [0, 0] (fun _ => 0) = some g ∧ g 0 = v := by
      intro v
      refine ⟨_, rfl, ?_⟩
      simp [parStep, PacketOp.write]
    obtain ⟨g, hg, hv⟩ := hrun (2 / 10000 * p 0 ^ 2)
    refine ⟨[j0, j1], kSimdWeight * 1 * (e + (0 + 0)), g, hs, ?_, hv⟩
    unfold getGradient
    simp only [exSimd]
    rw [show (storeOf 2 (exPlanes 0 0 ⟨1, 0, 0⟩ 0)).numJoints = 2 from rfl, hm, Option.bind_some]
    simp only [List.map_cons, List.map_nil, hg, Option.bind_some]
    rfl
  refine ⟨exSimd 1 (exPlanes 0 0 ⟨1, 0, 0⟩ 0), exPlanes 0 0 ⟨1, 0, 0⟩ 0, exBaseTransform, exSimd_fits 1, rfl, hE, rfl,
    exSimd_enabled 1 0 (by norm_num), fun p st h => ?_, fun sched h => ?_⟩
  · obtain ⟨st', e, g, h1, h2, -⟩ := hgrad p
    rw [h1] at h
    cases h
    rw [h2]; rfl
  · obtain ⟨st', e, g, h1, h2, h3⟩ := hgrad fun _ => 2
    obtain ⟨-, h⟩ := h
    rw [show ∀ f : (Nat → ℝ) → List JointState → Option (ℝ × (Nat → ℝ)), f = (fun _ st =>
      (exSimd 1 (exPlanes 0 0 ⟨1, 0, 0⟩ 0)).getGradient (simdPlane (W := 8)) st [0, 0] fun _ => 0) →
      (((exSimd 1 (exPlanes 0 0 ⟨1, 0, 0⟩ 0)).toErrorFunction (simdPlane (W := 8)) exBaseTransform f sched).getGradient
        (fun _ => 2)).2 0 = 2 / 10000 * 2 ^ 2 by
        intro f hf
        simp only [toErrorFunction, h1, Option.bind_some, hf, h2, Option.getD_some, h3]] at h
    · have he : (fun u => ((exSimd 1 (exPlanes 0 0 ⟨1, 0, 0⟩ 0)).toErrorFunction (simdPlane (W := 8)) exBaseTransform (fun _ st =>
          (exSimd 1 (exPlanes 0 0 ⟨1, 0, 0⟩ 0)).getGradient (simdPlane (W := 8)) st [0, 0] fun _ => 0) sched).getError
            (Function.update (fun _ => 2) 0 u)) = fun u => 1 / 10000 * u ^ 2 := by
        funext u
        obtain ⟨j0, j1, hs, t0, t1, -⟩ := exSimd_state 1 u 2 false
        have hT : ∀ j < 2, ∃ js, [j0, j1][j]? = some js ∧ js.transform = (stateAt [j0, j1] j).transform := fun j hj => by
          rcases j with _ | _ | j
          · exact ⟨j0, rfl, rfl⟩
          · exact ⟨j1, rfl, rfl⟩
          · omega
        simp only [toErrorFunction, paramVec_two]
        rw [show (exSimd 1 (exPlanes 0 0 ⟨1, 0, 0⟩ 0)).base.stateFor exBaseTransform [Function.update (fun _ => (2 : ℝ)) 0 u 0,
          Function.update (fun _ => (2 : ℝ)) 0 u 1] false = some [j0, j1] from hs, Option.bind_some,
          error_spec (turnedPlane_measures (W := 8)) rfl hE (by norm_num) (by norm_num) hT, Option.getD_some]
        simp [simdErrorOf, exPlanes, turnedPlane, List.range_succ, stateAt, t0, exSimd, exSimdBase, Quat.one, Quat.rotate,
          Quat.vec, Vec3.cross, Vec3.dot, Transform.transformPoint, Fin.last]
      rw [he] at h
      have := h.unique ((hasDerivAt_pow 2 (2 : ℝ)).const_mul (1 / 10000))
      norm_num at this
    · rfl

/-- The derivatives in `SimdPlaneErrorFunction::getJacobian`. -/
noncomputable def turnedPlaneD (x : Fin 8 → ℝ) (T : Transform ℝ) (js : JointState) (d : Fin 7) (_ : Fin 1) : ℝ :=
  (T.rotation.rotate ⟨x 3, x 4, x 5⟩).dot (dofVel js (T.transformPoint ⟨x 0, x 1, x 2⟩) d)

theorem turnedPlane_jac {W : Nat} : (simdPlane (W := W)).JacForm turnedPlaneD := by
  refine ⟨_, dofs_perm, fun w v js js' hc => ?_⟩
  have ht : ∀ d, js'.getTranslationDerivative d = some (js'.translationAxis d) := fun d => by
    simp [JointState.getTranslationDerivative, hc]
  simp only [simdPlane]
  refine sevenDofs_eq _ ?_ ?_ ?_ ?_ ?_ ?_ ?_
  all_goals
    simp only [ht, Option.map_some, Option.some.injEq]
    funext c l
    simp only [laneVec, turnedPlaneD, dofVel, Vec3.dot, Vec3.cross, Vec3.sub_x, Vec3.sub_y, Vec3.sub_z, Vec3.smul_x, Vec3.smul_y, Vec3.smul_z]
    show _ = Real.sqrt (kSimdWeight * w * v 7 l) * _
    ring

/-- The chains of the two joints. -/
def exSimdChain (j : Nat) : List Nat := if j = 0 then [0] else [1, 0]

theorem exSimdChain_chain (w : ℝ) : ∀ j < (exSimdBase w).skeleton.joints.length, Chain (exSimdBase w).skeleton (some j) (exSimdChain j) := by
  intro j hj
  have h0 : Chain (exSimdBase w).skeleton (some 0) [0] := Chain.cons (jt := ⟨"root", none, Quat.one, 0⟩) rfl Chain.nil
  rcases j with _ | _ | j
  · exact h0
  · exact Chain.cons (jt := ⟨"child", some 0, Quat.one, ⟨1, 0, 0⟩⟩) rfl h0
  · simp [exSimdBase, exBase] at hj

/-- **C70** fails for `SimdPlaneErrorFunction::getJacobian`: the residual changes with the turning normal, the Jacobian does not
have this change. -/
theorem C70_plane_jacobian_wrong : ∃ (E : SimdError 7) (C : Nat → List (Fin 8 → ℝ)) (pt : ParameterTransform ℝ),
    E.base.Fits pt ∧ E.base.skeleton.joints.length = 2 ∧ E.Has 2 C ∧ E.base.weight = 1 ∧ (∀ j < 2, ∀ x ∈ C j, 0 ≤ x 7) ∧
      E.base.enabledParameters.mem 1 = true ∧ (∃ sched, E.Finished (simdPlane (W := 8)) pt sched) ∧
      ∀ sched, E.Finished (simdPlane (W := 8)) pt sched → ∀ gradient,
        ¬ (E.toErrorFunction (simdPlane (W := 8)) pt gradient sched).JacobianIsDerivative (fun _ => 0) 1 := by
  obtain ⟨C, hC⟩ : ∃ C, C = exPlanes 1 ⟨1, 0, 0⟩ ⟨0, 1, 0⟩ 0 := ⟨_, rfl⟩
  have hE := exSimd_has (n := 7) 1 (C := C) fun j _ => by rw [hC]; exact exPlanes_length _ _ _ _ j
  have hH := storeOf_holds (n := 7) (N := 2) (C := C) fun j _ => by rw [hC]; exact exPlanes_length _ _ _ _ j
  refine ⟨exSimd 1 C, C, exBaseTransform, exSimd_fits 1, rfl, hE, rfl, ?_, exSimd_enabled 1 1 (by norm_num), ?_, ?_⟩
  · intro j _ x hx
    rw [hC] at hx
    unfold exPlanes at hx
    split at hx
    · simp only [List.mem_cons, List.not_mem_nil, or_false] at hx
      subst hx
      exact zero_le_one
    · simp at hx
  · obtain ⟨more, hm⟩ := finishes (turnedPlane_measures (W := 8)) turnedPlane_jac (E := exSimd 1 C) (exSimd_fits 1)
      (show 2 ≤ _ from le_rfl) hE (by norm_num) (by norm_num) (i := 1) (by decide) (exSimd_enabled 1 1 (by norm_num)) fun _ => []
    exact ⟨_, hm⟩
  · intro sched hfin gradient h
    have hval : ∀ u : ℝ, ∃ j0 j1 res, j1.transform = (⟨⟨Real.cos (u / 2), 0, 0, Real.sin (u / 2)⟩, ⟨1, 0, 0⟩, 1⟩ : Transform ℝ) ∧
        j1.rotationAxis 2 = ⟨0, 0, 1⟩ ∧
        ((exSimd 1 C).toErrorFunction (simdPlane (W := 8)) exBaseTransform gradient sched).getJacobian
          (Function.update (fun _ => 0) 1 u) = res ∧ res.rows = 8 ∧
        res.residual 0 = Real.sqrt (kSimdWeight * 1 * 1) * turnedPlane ![1, 0, 0, 0, 1, 0, 0, 1] j1.transform 0 ∧
        res.e 1 0 = Real.sqrt (kSimdWeight * 1 * 1) *
          residualVel turnedPlaneD exBase.transform [j0, j1] [1, 0] 1 1 ![1, 0, 0, 0, 1, 0, 0, 1] 0 := by
      intro u
      obtain ⟨j0, j1, hs, t0, t1, hcd⟩ := exSimd_state 1 0 u true
      obtain ⟨-, d0, r1, d1⟩ := hcd rfl
      have hs' : (exSimd 1 C).base.stateFor exBaseTransform (paramVec exBaseTransform.transform.cols
        (Function.update (fun _ => 0) 1 u)) true = some [j0, j1] := hs
      obtain ⟨res, hr⟩ := Option.isSome_iff_exists.1 (hfin _ _ hs')
      have hsize := getJacobianSize_eq (m := 1) (W := 8) (E := exSimd 1 C) (S := storeOf 2 C) rfl
      have hb : rowsBefore 1 8 (storeOf 2 C) 1 = 0 := by
        simp [rowsBefore, rowsOf, storeOf, hC, exPlanes]
      have hb2 : rowsBefore 1 8 (storeOf 2 C) 2 = 8 := by
        simp [rowsBefore, rowsOf, storeOf, hC, exPlanes, Finset.sum_range_succ]
      have hlane : laneAt (storeOf 2 C) 1 0 = ![1, 0, 0, 0, 1, 0, 0, 1] :=
        laneAt_vals hH (by show 1 < 2; norm_num) (by rw [hC]; rfl)
      have hr' := hr
      rw [hsize] at hr'
      obtain ⟨g1, -, g3, -⟩ := getJacobian_eq
        (E := { exSimd 1 C with jacobianOffset := (List.range (storeOf 2 C).numJoints).map (rowsBefore 1 8 (storeOf 2 C)) })
        (ch := exSimdChain) (i := 1) (turnedPlane_measures (W := 8)) turnedPlane_jac (exSimd_fits 1) hH (by norm_num) (by norm_num)
        (show 2 ≤ 2 from le_rfl) (st := [j0, j1]) rfl
        (fun js hj => by
          simp only [List.mem_cons, List.not_mem_nil, or_false] at hj
          rcases hj with rfl | rfl
          · exact d0
          · exact d1) (exSimdChain_chain 1) (exSimd_enabled 1 1 (by norm_num)) rfl rfl (by rw [Nat.zero_add]) _ _ _ hr'
      have g4 := g3 1 (by show 1 < 2; norm_num) 0 (by simp [storeOf, hC, exPlanes]) 0 0
      refine ⟨j0, j1, res, by rw [t1, add_zero], r1, ?_, ?_, ?_, ?_⟩
      · simp only [toErrorFunction, hs', Option.bind_some, hr, Option.getD_some]
      · rw [g1]; exact hb2
      · have := g4.1
        simp only [hb, Nat.zero_mul, Nat.mul_zero, Fin.val_zero, Nat.add_zero, hlane] at this
        exact this
      · have := g4.2
        simp only [hb, Nat.zero_mul, Nat.mul_zero, Fin.val_zero, Nat.add_zero, hlane, zero_add] at this
        exact this
    have hk : Real.sqrt (kSimdWeight * 1 * 1) = 1 / 100 := by
      rw [show kSimdWeight * 1 * 1 = (1 / 100 : ℝ) ^ 2 by unfold kSimdWeight; norm_num, Real.sqrt_sq (by norm_num)]
    rw [hk] at hval
    obtain ⟨j0, j1, res, t1, r1, e1, e2, e3, e4⟩ := hval 0
    have hz : Function.update (fun _ => (0 : ℝ)) 1 0 = fun _ => 0 := Function.update_eq_self 1 (fun _ : Nat => (0 : ℝ))
    rw [hz] at e1
    have hd := h.deriv 0 (by rw [e1, e2]; norm_num)
    have hf : (fun u => (((exSimd 1 C).toErrorFunction (simdPlane (W := 8)) exBaseTransform gradient sched).getJacobian
        (Function.update (fun _ => 0) 1 u)).residual 0) = fun u => -(1 / 100 * (2 * Real.sin (u / 2) * Real.cos (u / 2))) := by
      funext u
      obtain ⟨k0, k1, res', t1', -, f1, -, f3, -⟩ := hval u
      rw [f1, f3, t1']
      have hsq := Real.sin_sq_add_cos_sq (u / 2)
      simp [turnedPlane, Quat.rotate, Quat.vec, Vec3.cross, Vec3.dot, Transform.transformPoint]
      nlinarith
    rw [hf, e1, e4] at hd
    have hv : residualVel turnedPlaneD exBase.transform [j0, j1] [1, 0] 1 1 ![1, 0, 0, 0, 1, 0, 0, 1] 0 = 1 := by
      simp [residualVel, Fin.sum_univ_seven, SparseMat.coeff, exBase, turnedPlaneD, dofVel, stateAt, t1, r1, Quat.rotate,
        Quat.vec, Vec3.cross, Vec3.dot, Transform.transformPoint]
    have hsin : (fun u : ℝ => -(1 / 100 * (2 * Real.sin (u / 2) * Real.cos (u / 2)))) = fun u => -(1 / 100 * Real.sin u) := by
      funext u
      rw [← Real.sin_two_mul, mul_div_cancel₀ u (by norm_num : (2 : ℝ) ≠ 0)]
    rw [hv, hsin] at hd
    have := hd.unique (((Real.hasDerivAt_sin 0).const_mul (1 / 100)).neg)
    rw [Real.cos_zero] at this
    norm_num at this

/-- **C70** fails for `SimdNormalErrorFunctionAVX` when a normal is not a unit vector: `getError`, which it inherits, is not the
error that `getJacobian` returns. -/
theorem C70_normal_avx_wrong : ∃ (E : SimdError 9) (C : Nat → List (Fin 10 → ℝ)) (pt : ParameterTransform ℝ)
    (st st' : List JointState) (e : ℝ), E.base.Fits pt ∧ E.Has 2 C ∧
      E.base.stateFor pt [1, 0] true = some st ∧ E.base.stateFor pt [1, 0] false = some st' ∧
      E.getError (simdNormal (W := 8)) st' = some e ∧ ∀ schedule res,
        (E.getJacobianSize 1 8).2.getJacobian simdNormalAvx st schedule (E.getJacobianSize 1 8).1 0 (fun _ _ => 0) (fun _ => 0) =
          some res → res.error ≠ e := by
  obtain ⟨j0, j1, hs, t0, t1, hcd⟩ := exSimd_state 1 1 0 true
  obtain ⟨-, d0, -, d1⟩ := hcd rfl
  obtain ⟨k0, k1, hs', u0, u1, -⟩ := exSimd_state 1 1 0 false
  have hT : ∀ j < 2, ∃ js, [k0, k1][j]? = some js ∧ js.transform = (stateAt [k0, k1] j).transform := fun j hj => by
    rcases j with _ | _ | j
    · exact ⟨k0, rfl, rfl⟩
    · exact ⟨k1, rfl, rfl⟩
    · omega
  have hl : ∀ j < 2, (exNormals 2 j).length ≤ 4096 := fun j _ => by unfold exNormals; split <;> simp
  have hE := exSimd_has (n := 9) 1 (C := exNormals 2) hl
  have hH := storeOf_holds (n := 9) (N := 2) (C := exNormals 2) hl
  refine ⟨exSimd 1 (exNormals 2), exNormals 2, exBaseTransform, [j0, j1], [k0, k1], _, exSimd_fits 1, hE, hs, hs',
    C70_error_normal 8 (by norm_num) (by norm_num) _ 2 _ hE _ _ hT, fun schedule res hr => ?_⟩
  have hsize := getJacobianSize_eq (m := 1) (W := 8) (E := exSimd 1 (exNormals 2)) (S := storeOf 2 (exNormals 2)) rfl
  rw [hsize] at hr
  obtain ⟨-, g2, -, -⟩ := getJacobian_eq (E := { exSimd 1 (exNormals 2) with
      jacobianOffset := (List.range (storeOf 2 (exNormals 2)).numJoints).map (rowsBefore 1 8 (storeOf 2 (exNormals 2))) })
    (ch := exSimdChain) (i := 1) normalAvx_measures normalAvx_jac (exSimd_fits 1) hH (by norm_num) (by norm_num)
    (show 2 ≤ 2 from le_rfl) (st := [j0, j1]) rfl
    (fun js hj => by
      simp only [List.mem_cons, List.not_mem_nil, or_false] at hj
      rcases hj with rfl | rfl
      · exact d0
      · exact d1) (exSimdChain_chain 1) (exSimd_enabled 1 1 (by norm_num)) rfl rfl (by rw [Nat.zero_add]) _ _ _ hr
  have hn : unitNormal ![0, 0, 0, 2, 0, 0, 0, 0, 0, 1] (⟨Quat.one, ⟨1, 0, 0⟩, 1⟩ : Transform ℝ) = ⟨1, 0, 0⟩ := by
    have h4 : Real.sqrt (max (2 * 2) 10000⁻¹) = 2 := by
      rw [max_eq_left (by norm_num), Real.sqrt_mul_self (by norm_num)]
    ext <;> simp [unitNormal, Quat.one, Quat.rotate, Quat.vec, Vec3.cross, Vec3.dot, h4]
  rw [show (Quat.one : Quat ℝ) = ⟨1, 0, 0, 0⟩ from rfl] at hn
  have g5 : res.error = 1 / 10000 := by
    rw [g2, show (storeOf 2 (exNormals 2)).numJoints = 2 from rfl]
    simp [jointError, List.range_succ, exNormals, normalAvxResidual, stateAt, t0, hn, Fin.last, Transform.transformPoint,
      Quat.one, Quat.rotate, Quat.vec, Vec3.cross, Vec3.dot, simdNormalAvx, kSimdWeight, exSimd, exSimdBase]
  rw [g5]
  simp [simdErrorOf, List.range_succ, exNormals, normalResidual, stateAt, u0, Fin.last, Transform.transformPoint,
    Quat.one, Quat.rotate, Quat.vec, Vec3.cross, Vec3.dot, exSimd, exSimdBase]
  norm_num

/-- **C70** fails for `SimdPositionErrorFunctionAVX::getJacobian` when its block does not start at a multiple of eight rows, as
happens after an error function with another number of rows: it then writes behind the end of its block. -/
theorem C70_avx_offset_wrong : ∃ (E : SimdError 6) (C : Nat → List (Fin 7 → ℝ)) (pt : ParameterTransform ℝ)
    (st : List JointState), E.base.Fits pt ∧ E.Has 2 C ∧ E.base.stateFor pt [1, 0] true = some st ∧
      ∀ start, start % 8 ≠ 0 → ∀ schedule, (E.getJacobianSize 3 8).2.getJacobian simdPositionAvx st schedule
        (E.getJacobianSize 3 8).1 (computeOffset start) (fun _ _ => 0) (fun _ => 0) = none := by
  obtain ⟨j0, j1, hs, t0, t1, -⟩ := exSimd_state 1 1 0 true
  have hl : ∀ j < 2, (exPositions j).length ≤ 4096 := fun j _ => by simp [exPositions]
  refine ⟨exSimd 1 exPositions, exPositions, exBaseTransform, [j0, j1], exSimd_fits 1, exSimd_has 1 hl, hs,
    fun start h0 schedule => ?_⟩
  obtain ⟨s, hs0, hs8⟩ : ∃ s, computeOffset start = s ∧ 0 < s := by
    refine ⟨_, rfl, ?_⟩
    unfold computeOffset
    simp only
    split <;> omega
  have hsz : (exSimd 1 exPositions).getJacobianSize 3 8 = (48, ⟨exSimdBase 1, some (storeOf 2 exPositions), [0, 24]⟩) := by
    simp [getJacobianSize, exSimd, List.range_succ, sizeStep, storeOf, rowsOf, exPositions]
  rw [hsz, hs0]
  have hp : packetStarts 8 ((storeOf 2 exPositions).count 1) = [0] := by simp [packetStarts, storeOf, exPositions]
  have ht : jacTask simdPositionAvx ⟨exSimdBase 1, some (storeOf 2 exPositions), [0, 24]⟩ (storeOf 2 exPositions) [j0, j1] 48 s 1 =
      none := by
    have hres : ∀ (r : Fin 3 → Lanes 8), resEmit 48 (24 + s) r [] = none := by
      intro r
      have e0 : 24 + s + 8 ≤ 48 ∨ 48 < 24 + s + 8 := by omega
      simp only [resEmit, List.finRange_succ, List.finRange_zero, List.map_cons, List.map_nil, List.foldlM_cons, List.foldlM_nil,
        Fin.val_zero]
      have e2 : ¬ 24 + s + 8 * (2 : Fin 3).val + 8 ≤ 48 := by simp; omega
      simp
      intros
      omega
    simp only [jacTask, hp, jacPacket, List.foldlM_cons, List.foldlM_nil, storeOf_load hl (show 1 < 2 by norm_num) rfl,
      Option.bind_some, List.getElem?_cons_zero, List.getElem?_cons_succ, Nat.zero_mul, Nat.add_zero, hres]
    rfl
  rw [getJacobian_def (S := storeOf 2 exPositions) rfl, if_pos (by show 2 ≤ 2; norm_num),
    show (storeOf 2 exPositions).numJoints = 2 from rfl, show List.range 2 = [0, 1] from rfl, List.mapM_cons, List.mapM_cons, ht]
  cases jacTask simdPositionAvx ⟨exSimdBase 1, some (storeOf 2 exPositions), [0, 24]⟩ (storeOf 2 exPositions) [j0, j1] 48 s 0 <;>
    rfl

end Momentum
