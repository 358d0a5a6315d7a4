import Verif.Lemmas.SimdError9

/-!
# The AVX versions of the plane and normal constraints
-/

namespace Momentum
open Skeleton

namespace SimdError

theorem foldlM_congr_mem {α β : Type} {f g : β → α → Option β} : ∀ {l : List α} (b : β), (∀ a ∈ l, ∀ b, f b a = g b a) →
    l.foldlM f b = l.foldlM g b
  | [], _, _ => rfl
  | a :: l, b, h => by
    rw [List.foldlM_cons, List.foldlM_cons, h a (by simp)]
    cases g b a with
    | none => rfl
    | some b' => exact foldlM_congr_mem b' fun a ha => h a (by simp [ha])

theorem mapM_congr_mem {α β : Type} {f g : α → Option β} : ∀ {l : List α}, (∀ a ∈ l, f a = g a) → l.mapM f = l.mapM g
  | [], _ => rfl
  | a :: l, h => by rw [List.mapM_cons, List.mapM_cons, h a (by simp), mapM_congr_mem fun a ha => h a (by simp [ha])]

/-- With a spare row no packet is skipped. -/
theorem getJacobianPlaneAvx_eq {E : SimdError 7} {S : SimdStore ℝ 7} (hE : E.store = some S)
    (hlen : S.numJoints ≤ E.jacobianOffset.length) {rows shift : Nat} (hrows : shift + rowsBefore 1 8 S S.numJoints < rows)
    (st : List JointState) (schedule : List Nat) (J : Nat → Nat → ℝ) (R : Nat → ℝ) :
    getJacobianPlaneAvx E st schedule rows shift J R =
      ((E.getJacobianSize 1 8).2.getJacobian simdPlaneAvx st schedule rows shift J R).map fun res =>
        { res with rows := (E.getJacobianSize 1 8).1 } := by
  have hs := getJacobianSize_eq (m := 1) (W := 8) hE
  unfold getJacobianPlaneAvx
  simp only [hE, if_pos hlen, hs]
  have hno : ¬ rows ≤ rowsBefore 1 8 S S.numJoints := by omega
  simp only [if_neg hno]
  rw [getJacobian_def (E := ⟨E.base, some S, (List.range S.numJoints).map (rowsBefore 1 8 S)⟩) (S := S) rfl, if_pos (by rw [List.length_map, List.length_range])]
  have ht : (List.range S.numJoints).mapM (planeTaskAvx ⟨E.base, some S, (List.range S.numJoints).map (rowsBefore 1 8 S)⟩
      S st rows shift) = (List.range S.numJoints).mapM
        (jacTask simdPlaneAvx ⟨E.base, some S, (List.range S.numJoints).map (rowsBefore 1 8 S)⟩ S st rows shift) := by
    refine mapM_congr_mem fun j hj => ?_
    rw [List.mem_range] at hj
    unfold planeTaskAvx jacTask
    congr 1
    funext js
    rw [List.getElem?_map, List.getElem?_range hj, Option.map_some, Option.bind_some, Option.bind_some]
    refine foldlM_congr_mem _ fun index hi s => ?_
    obtain ⟨q, hq, rfl⟩ := mem_packetStarts.1 hi
    unfold planePacketAvx
    rw [if_neg]
    have h1 := rowsBefore_mono (m := 1) (W := 8) (S := S) (show j + 1 ≤ S.numJoints from hj)
    rw [rowsBefore_succ] at h1
    have h2 : rowsOf 1 8 (S.count j) = (S.count j + 8 - 1) / 8 * 8 := by unfold rowsOf; rw [Nat.mul_one]
    have h3 : (q + 1) * 8 ≤ (S.count j + 8 - 1) / 8 * 8 := Nat.mul_le_mul_right _ hq
    omega
  rw [ht]
  cases (List.range S.numJoints).mapM
        (jacTask simdPlaneAvx ⟨E.base, some S, (List.range S.numJoints).map (rowsBefore 1 8 S)⟩ S st rows shift) with
  | none => rfl
  | some tasks =>
    simp only [Option.bind_some]
    cases parRun (tasks.map (·.2)) schedule (jacMem J R) with
    | none => rfl
    | some mem =>
      simp only [Option.bind_some, Option.map_some]
      rfl

/-- The direction of `normalAvx` for one constraint. -/
noncomputable def unitNormal (x : Fin 10 → ℝ) (T : Transform ℝ) : Vec3 ℝ :=
  let nml := T.rotation.rotate (T.scale • (⟨x 3, x 4, x 5⟩ : Vec3 ℝ))
  (Real.sqrt (max (nml.dot nml) (1 / 10000)))⁻¹ • nml

noncomputable def normalAvxResidual (x : Fin 10 → ℝ) (T : Transform ℝ) (_ : Fin 1) : ℝ :=
  (T.transformPoint ⟨x 0, x 1, x 2⟩ - ⟨x 6, x 7, x 8⟩).dot (unitNormal x T)

noncomputable def normalAvxD (x : Fin 10 → ℝ) (T : Transform ℝ) (js : JointState) (d : Fin 7) (_ : Fin 1) : ℝ :=
  (unitNormal x T).dot (dofVel js (T.transformPoint ⟨x 0, x 1, x 2⟩) d) +
    ((unitNormal x T).cross (T.transformPoint ⟨x 0, x 1, x 2⟩ - ⟨x 6, x 7, x 8⟩)).dot (dofSpin js d)

theorem normalAvx_lane {W : Nat} (v : Fin 10 → Lanes W) (js : JointState) (l : Fin W) :
    normalAvx v js l = unitNormal (fun k => v k l) js.transform := rfl

theorem normalAvx_measures : simdNormalAvx.Measures normalAvxResidual := by
  constructor
  · intro v js l
    simp only [simdNormalAvx, normalAvxResidual, normalAvx_lane, laneVec, Finset.univ_unique, Finset.sum_singleton]
    show v 9 l * _ = v 9 l * _
    simp only [Vec3.dot, Vec3.sub_x, Vec3.sub_y, Vec3.sub_z]
    ring
  · intro w v js c l
    simp only [simdNormalAvx, normalAvxResidual, normalAvx_lane, laneVec]
    show Real.sqrt (kSimdWeight * w * v 9 l) * _ = Real.sqrt (kSimdWeight * w * v 9 l) * _
    simp only [Vec3.dot, Vec3.sub_x, Vec3.sub_y, Vec3.sub_z]
    ring

theorem normalAvx_jac : simdNormalAvx.JacForm normalAvxD := by
  refine ⟨_, dofs_perm, fun w v js js' _ => ?_⟩
  simp only [simdNormalAvx]
  refine sevenDofs_eq _ ?_ ?_ ?_ ?_ ?_ ?_ ?_
  all_goals
    simp only [Option.some.injEq]
    funext c l
    simp only [normalAvx_lane, laneVec, normalAvxD, dofVel, dofSpin, Vec3.dot, Vec3.cross, Vec3.sub_x, Vec3.sub_y, Vec3.sub_z, Vec3.smul_x, Vec3.smul_y, Vec3.smul_z, Vec3.zero_x, Vec3.zero_y, Vec3.zero_z]
    show _ = Real.sqrt (kSimdWeight * w * v 9 l) * _
    ring

/-- A unit normal is only rotated, unless the joint is scaled down to less than a hundredth. -/
theorem unitNormal_eq {x : Fin 10 → ℝ} {T : Transform ℝ} (hT : T.rotation.normSq = 1) (hs : 1 / 100 ≤ T.scale)
    (hx : x 3 ^ 2 + x 4 ^ 2 + x 5 ^ 2 = 1) : unitNormal x T = T.rotation.rotate ⟨x 3, x 4, x 5⟩ := by
  unfold unitNormal
  simp only [Quat.rotate_smul]
  have h1 := Quat.dot_rotate hT ⟨x 3, x 4, x 5⟩ ⟨x 3, x 4, x 5⟩
  have h2 : (⟨x 3, x 4, x 5⟩ : Vec3 ℝ).dot ⟨x 3, x 4, x 5⟩ = 1 := by simp only [Vec3.dot]; nlinarith
  rw [h2] at h1
  have h3 : (T.scale • T.rotation.rotate ⟨x 3, x 4, x 5⟩).dot (T.scale • T.rotation.rotate ⟨x 3, x 4, x 5⟩) = T.scale ^ 2 := by
    have e : ∀ (s : ℝ) (v : Vec3 ℝ), (s • v).dot (s • v) = s ^ 2 * v.dot v := fun s v => by
      simp only [Vec3.dot, Vec3.smul_x, Vec3.smul_y, Vec3.smul_z]; ring
    rw [e, h1, mul_one]
  have h0 : 0 < T.scale := by linarith [show (0 : ℝ) < 1 / 100 by norm_num]
  rw [h3, max_eq_left (by nlinarith), Real.sqrt_sq h0.le]
  ext <;> simp only [Vec3.smul_x, Vec3.smul_y, Vec3.smul_z] <;> field_simp

theorem laneScale_zero {n m W : Nat} {K : SimdKernel n m W} {w : ℝ} {x : Fin (n + 1) → ℝ} (h : x (Fin.last n) = 0) :
    laneScale K w x = 0 := by
  unfold laneScale
  rw [h, mul_zero, Real.sqrt_zero]

end SimdError

end Momentum
