import Verif.Lemmas.SimdError7
import Verif.Spec.SimdError

/-!
# The classes
-/

namespace Momentum
open Skeleton
variable {W : Nat}

/-- The velocity that degree of freedom `d` of a joint gives to a point. -/
noncomputable def dofVel (js : JointState) (pos : Vec3 ℝ) : Fin 7 → Vec3 ℝ
  | 0 => js.translationAxis 0
  | 1 => js.translationAxis 1
  | 2 => js.translationAxis 2
  | 3 => (js.rotationAxis 0).cross (pos - js.transform.translation)
  | 4 => (js.rotationAxis 1).cross (pos - js.transform.translation)
  | 5 => (js.rotationAxis 2).cross (pos - js.transform.translation)
  | 6 => Real.log 2 • (pos - js.transform.translation)

/-- The angular velocity. -/
def dofSpin (js : JointState) : Fin 7 → Vec3 ℝ
  | 3 => js.rotationAxis 0
  | 4 => js.rotationAxis 1
  | 5 => js.rotationAxis 2
  | _ => 0

theorem jointVel_dot (js : JointState) (θ' : Nat → ℝ) (a : Nat) (pos M : Vec3 ℝ) :
    M.dot (jointVel js (ratesOf θ' a) pos) = ∑ d : Fin 7, M.dot (dofVel js pos d) * θ' (a * 7 + d) := by
  rw [Fin.sum_univ_seven]
  simp only [jointVel, jointSpin, ratesOf, dofVel, Nat.mul_comm 7 a, Vec3.dot, Vec3.cross, Vec3.add_x, Vec3.add_y, Vec3.add_z,
    Vec3.smul_x, Vec3.smul_y, Vec3.smul_z, Vec3.sub_x, Vec3.sub_y, Vec3.sub_z, Fin.isValue, Fin.val_zero, Fin.val_one]
  ring

theorem jointSpin_dot (js : JointState) (θ' : Nat → ℝ) (a : Nat) (M : Vec3 ℝ) :
    M.dot (jointSpin js (ratesOf θ' a)) = ∑ d : Fin 7, M.dot (dofSpin js d) * θ' (a * 7 + d) := by
  rw [Fin.sum_univ_seven]
  simp only [jointSpin, ratesOf, dofSpin, Nat.mul_comm 7 a, Vec3.dot, Vec3.add_x, Vec3.add_y, Vec3.add_z,
    Vec3.smul_x, Vec3.smul_y, Vec3.smul_z, Vec3.zero_x, Vec3.zero_y, Vec3.zero_z, Fin.isValue]
  ring

noncomputable def positionD (x : Fin 7 → ℝ) (T : Transform ℝ) (js : JointState) (d : Fin 7) (c : Fin 3) : ℝ :=
  (dofVel js (T.transformPoint ⟨x 0, x 1, x 2⟩) d).toFn c

noncomputable def planeD (x : Fin 8 → ℝ) (T : Transform ℝ) (js : JointState) (d : Fin 7) (_ : Fin 1) : ℝ :=
  (⟨x 3, x 4, x 5⟩ : Vec3 ℝ).dot (dofVel js (T.transformPoint ⟨x 0, x 1, x 2⟩) d)

noncomputable def normalD (x : Fin 10 → ℝ) (T : Transform ℝ) (js : JointState) (d : Fin 7) (_ : Fin 1) : ℝ :=
  (T.rotation.rotate ⟨x 3, x 4, x 5⟩).dot (dofVel js (T.transformPoint ⟨x 0, x 1, x 2⟩) d) +
    ((T.rotation.rotate ⟨x 3, x 4, x 5⟩).cross (T.transformPoint ⟨x 0, x 1, x 2⟩ - ⟨x 6, x 7, x 8⟩)).dot (dofSpin js d)

theorem plane_moves : MovesWith (n := 7) planeResidual planeD := by
  intro s hv hpre θ S hG hlen t θ' hθ j l hc x c
  have h := (chain_vel hv hpre hG hlen hθ hc ⟨x 0, x 1, x 2⟩).dot (HasVecDerivAt.const (⟨x 3, x 4, x 5⟩ : Vec3 ℝ) t)
  have h' := h.sub_const (x 6)
  refine h'.congr_deriv ?_
  have e : (l.map fun a => ∑ d : Fin 7, planeD x (worldOf (S t) (some j)) (stateAt (S t) a) d c * θ' (a * 7 + d)) =
      l.map fun a => (⟨x 3, x 4, x 5⟩ : Vec3 ℝ).dot (jointVel (stateAt (S t) a) (ratesOf θ' a)
        ((worldOf (S t) (some j)).transformPoint ⟨x 0, x 1, x 2⟩)) :=
    List.map_congr_left fun a _ => (jointVel_dot _ _ _ _ _).symm
  rw [e, ← list_sum_vec_dot]
  simp only [Vec3.dot, Vec3.zero_x, Vec3.zero_y, Vec3.zero_z]
  ring

theorem vec_dot_basis (v : Vec3 ℝ) : v.x = Vec3.unitX.dot v ∧ v.y = Vec3.unitY.dot v ∧ v.z = Vec3.unitZ.dot v := by
  simp [Vec3.dot, Vec3.unitX, Vec3.unitY, Vec3.unitZ]

theorem toFn_dot (v : Vec3 ℝ) (c : Fin 3) : v.toFn c = (rotationAxisOf c).dot v := by
  fin_cases c <;> simp [Vec3.toFn, rotationAxisOf, Vec3.dot, Vec3.unitX, Vec3.unitY, Vec3.unitZ]

theorem position_moves : MovesWith (n := 6) positionResidual positionD := by
  intro s hv hpre θ S hG hlen t θ' hθ j l hc x c
  have h := (chain_vel hv hpre hG hlen hθ hc ⟨x 0, x 1, x 2⟩).sub (HasVecDerivAt.const (⟨x 3, x 4, x 5⟩ : Vec3 ℝ) t)
  refine (h.toFn c).congr_deriv ?_
  have e : (l.map fun a => ∑ d : Fin 7, positionD x (worldOf (S t) (some j)) (stateAt (S t) a) d c * θ' (a * 7 + d)) =
      l.map fun a => (rotationAxisOf c).dot (jointVel (stateAt (S t) a) (ratesOf θ' a)
        ((worldOf (S t) (some j)).transformPoint ⟨x 0, x 1, x 2⟩)) :=
    List.map_congr_left fun a _ => by
      rw [jointVel_dot]
      exact Finset.sum_congr rfl fun d _ => by rw [positionD, toFn_dot]
  rw [e, ← list_sum_vec_dot, toFn_dot]
  simp only [Vec3.dot, Vec3.zero_x, Vec3.zero_y, Vec3.zero_z, Vec3.sub_x, Vec3.sub_y, Vec3.sub_z, sub_zero]

theorem normal_moves : MovesWith (n := 9) normalResidual normalD := by
  intro s hv hpre θ S hG hlen t θ' hθ j l hc x c
  have h := ((chain_vel hv hpre hG hlen hθ hc ⟨x 0, x 1, x 2⟩).sub (HasVecDerivAt.const (⟨x 6, x 7, x 8⟩ : Vec3 ℝ) t)).dot
    (chain_spin hv hpre hG hlen hθ hc ⟨x 3, x 4, x 5⟩)
  refine h.congr_deriv ?_
  have e : (l.map fun a => ∑ d : Fin 7, normalD x (worldOf (S t) (some j)) (stateAt (S t) a) d c * θ' (a * 7 + d)) =
      l.map fun a => ((worldOf (S t) (some j)).rotation.rotate ⟨x 3, x 4, x 5⟩).dot (jointVel (stateAt (S t) a) (ratesOf θ' a)
        ((worldOf (S t) (some j)).transformPoint ⟨x 0, x 1, x 2⟩)) +
        (((worldOf (S t) (some j)).rotation.rotate ⟨x 3, x 4, x 5⟩).cross
          ((worldOf (S t) (some j)).transformPoint ⟨x 0, x 1, x 2⟩ - ⟨x 6, x 7, x 8⟩)).dot
          (jointSpin (stateAt (S t) a) (ratesOf θ' a)) :=
    List.map_congr_left fun a _ => by
      rw [jointVel_dot, jointSpin_dot, ← Finset.sum_add_distrib]
      exact Finset.sum_congr rfl fun d _ => by rw [normalD]; ring
  rw [e, List.sum_map_add, ← list_sum_vec_dot, ← list_sum_vec_dot]
  simp only [Vec3.dot, Vec3.cross, Vec3.zero_x, Vec3.zero_y, Vec3.zero_z, Vec3.sub_x, Vec3.sub_y, Vec3.sub_z, sub_zero]
  ring

theorem dofs_perm : ([0, 3, 1, 4, 2, 5, 6] : List (Fin 7)).Perm (List.finRange 7) := by decide

theorem position_measures : (simdPosition (W := W)).Measures positionResidual := by
  constructor
  · intro v js l
    simp only [simdPosition, positionResidual, Fin.sum_univ_three, Vec3.toFn, positionDiff, laneVec, Vec3.dot]
    show v 6 l * _ = v 6 l * _
    ring
  · intro w v js c l; rfl

theorem positionAvx_measures : simdPositionAvx.Measures positionResidual := by
  constructor
  · intro v js l
    simp only [simdPositionAvx, positionResidual, Fin.sum_univ_three, Vec3.toFn, positionDiff, laneVec, Vec3.dot]
    show v 6 l * _ = v 6 l * _
    ring
  · intro w v js c l; rfl

theorem planeAvx_measures : simdPlaneAvx.Measures planeResidual := by
  constructor
  · intro v js l
    simp only [simdPlaneAvx, planeResidual, planeDistAvx, laneVec, Finset.univ_unique, Finset.sum_singleton]
    show v 7 l * _ = v 7 l * _
    ring
  · intro w v js c l; rfl

theorem normal_measures : (simdNormal (W := W)).Measures normalResidual := by
  constructor
  · intro v js l
    simp only [simdNormal, normalResidual, normalDist, laneVec, Finset.univ_unique, Finset.sum_singleton]
    rfl
  · intro w v js c l
    simp only [simdNormal, normalResidual, normalDist, laneVec]
    rw [show v 9 l * kSimdWeight * w = kSimdWeight * w * v (Fin.last 9) l by
      show v 9 l * kSimdWeight * w = kSimdWeight * w * v 9 l; ring]
    ring

theorem sevenDofs_eq {α : Type} {t r : Fin 3 → Option α} {s : Option α} (f : Fin 7 → α) (h0 : t 0 = some (f 0))
    (h1 : t 1 = some (f 1)) (h2 : t 2 = some (f 2)) (h3 : r 0 = some (f 3)) (h4 : r 1 = some (f 4)) (h5 : r 2 = some (f 5))
    (h6 : s = some (f 6)) : sevenDofs t r s = ([0, 3, 1, 4, 2, 5, 6] : List (Fin 7)).map fun d => (d.val, some (f d)) := by
  simp [sevenDofs, h0, h1, h2, h3, h4, h5, h6]

theorem position_grad : (simdPosition (W := W)).GradForm positionResidual positionD := by
  refine ⟨_, dofs_perm, fun v js js' hc => ?_⟩
  have ht : ∀ d, js'.getTranslationDerivative d = some (js'.translationAxis d) := fun d => by
    simp [JointState.getTranslationDerivative, hc]
  simp only [simdPosition]
  refine sevenDofs_eq _ ?_ ?_ ?_ ?_ ?_ ?_ ?_
  all_goals
    simp only [ht, Option.map_some, Option.some.injEq]
    funext l
    simp only [positionDiff, laneVec, positionResidual, positionD, dofVel, Fin.sum_univ_three, Vec3.toFn, Vec3.dot, Vec3.cross, Vec3.sub_x, Vec3.sub_y, Vec3.sub_z, Vec3.smul_x, Vec3.smul_y, Vec3.smul_z, Vec3.zero_x, Vec3.zero_y, Vec3.zero_z]
    show _ = 2 * kSimdWeight * v 6 l * _
    ring

theorem positionAvx_grad : simdPositionAvx.GradForm positionResidual positionD := by
  refine ⟨_, dofs_perm, fun v js js' _ => ?_⟩
  simp only [simdPositionAvx]
  refine sevenDofs_eq _ ?_ ?_ ?_ ?_ ?_ ?_ ?_
  all_goals
    simp only [Option.some.injEq]
    funext l
    simp only [positionDiff, laneVec, positionResidual, positionD, dofVel, Fin.sum_univ_three, Vec3.toFn, Vec3.dot, Vec3.cross, Vec3.sub_x, Vec3.sub_y, Vec3.sub_z, Vec3.smul_x, Vec3.smul_y, Vec3.smul_z, Vec3.zero_x, Vec3.zero_y, Vec3.zero_z]
    show _ = 2 * kSimdWeight * v 6 l * _
    ring

theorem planeAvx_grad : simdPlaneAvx.GradForm planeResidual planeD := by
  refine ⟨_, dofs_perm, fun v js js' _ => ?_⟩
  simp only [simdPlaneAvx]
  refine sevenDofs_eq _ ?_ ?_ ?_ ?_ ?_ ?_ ?_
  all_goals
    simp only [Option.some.injEq]
    funext l
    simp only [planeDistAvx, laneVec, planeResidual, planeD, dofVel, Finset.univ_unique, Finset.sum_singleton, Vec3.dot, Vec3.cross, Vec3.sub_x, Vec3.sub_y, Vec3.sub_z, Vec3.smul_x, Vec3.smul_y, Vec3.smul_z, Vec3.zero_x, Vec3.zero_y, Vec3.zero_z]
    show _ = 2 * kSimdWeight * v 7 l * _
    ring

theorem normal_grad : (simdNormal (W := W)).GradForm normalResidual normalD := by
  refine ⟨_, dofs_perm, fun v js js' hc => ?_⟩
  have ht : ∀ d, js'.getTranslationDerivative d = some (js'.translationAxis d) := fun d => by
    simp [JointState.getTranslationDerivative, hc]
  simp only [simdNormal]
  refine sevenDofs_eq _ ?_ ?_ ?_ ?_ ?_ ?_ ?_
  all_goals
    simp only [ht, Option.map_some, Option.some.injEq]
    funext l
    simp only [normalDist, laneVec, normalResidual, normalD, dofVel, dofSpin, Finset.univ_unique, Finset.sum_singleton, Vec3.dot, Vec3.cross, Vec3.sub_x, Vec3.sub_y, Vec3.sub_z, Vec3.smul_x, Vec3.smul_y, Vec3.smul_z, Vec3.zero_x, Vec3.zero_y, Vec3.zero_z]
    show _ = 2 * kSimdWeight * v 9 l * _
    ring

theorem position_jac : (simdPosition (W := W)).JacForm positionD := by
  refine ⟨_, dofs_perm, fun w v js js' hc => ?_⟩
  have ht : ∀ d, js'.getTranslationDerivative d = some (js'.translationAxis d) := fun d => by
    simp [JointState.getTranslationDerivative, hc]
  simp only [simdPosition]
  refine sevenDofs_eq _ ?_ ?_ ?_ ?_ ?_ ?_ ?_
  all_goals
    simp only [ht, Option.map_some, Option.some.injEq]
    funext c l
    fin_cases c
    all_goals
      simp only [positionDiff, laneVec, positionD, dofVel, Vec3.toFn, Vec3.dot, Vec3.cross, Vec3.sub_x, Vec3.sub_y, Vec3.sub_z, Vec3.smul_x, Vec3.smul_y, Vec3.smul_z, Vec3.zero_x, Vec3.zero_y, Vec3.zero_z]
      show _ = Real.sqrt (kSimdWeight * w * v 6 l) * _
      ring

theorem positionAvx_jac : simdPositionAvx.JacForm positionD := by
  refine ⟨_, dofs_perm, fun w v js js' _ => ?_⟩
  simp only [simdPositionAvx]
  refine sevenDofs_eq _ ?_ ?_ ?_ ?_ ?_ ?_ ?_
  all_goals
    simp only [Option.some.injEq]
    funext c l
    fin_cases c
    all_goals
      simp only [positionDiff, laneVec, positionD, dofVel, Vec3.toFn, Vec3.dot, Vec3.cross, Vec3.sub_x, Vec3.sub_y, Vec3.sub_z, Vec3.smul_x, Vec3.smul_y, Vec3.smul_z, Vec3.zero_x, Vec3.zero_y, Vec3.zero_z]
      show _ = Real.sqrt (kSimdWeight * w * v 6 l) * _
      ring

theorem planeAvx_jac : simdPlaneAvx.JacForm planeD := by
  refine ⟨_, dofs_perm, fun w v js js' _ => ?_⟩
  simp only [simdPlaneAvx]
  refine sevenDofs_eq _ ?_ ?_ ?_ ?_ ?_ ?_ ?_
  all_goals
    simp only [Option.some.injEq]
    funext c l
    simp only [planeDistAvx, laneVec, planeResidual, planeD, dofVel, Finset.univ_unique, Finset.sum_singleton, Vec3.dot, Vec3.cross, Vec3.sub_x, Vec3.sub_y, Vec3.sub_z, Vec3.smul_x, Vec3.smul_y, Vec3.smul_z, Vec3.zero_x, Vec3.zero_y, Vec3.zero_z]
    show _ = Real.sqrt (kSimdWeight * w * v 7 l) * _
    ring

theorem normal_jac : (simdNormal (W := W)).JacForm normalD := by
  refine ⟨[0, 1, 2, 3, 4, 5, 6], by decide, fun w v js js' hc => ?_⟩
  have ht : ∀ d, js'.getTranslationDerivative d = some (js'.translationAxis d) := fun d => by
    simp [JointState.getTranslationDerivative, hc]
  have hw : ∀ l, v 9 l * kSimdWeight * w = kSimdWeight * w * v (Fin.last 9) l := fun l => by
    show v 9 l * kSimdWeight * w = kSimdWeight * w * v 9 l; ring
  simp only [simdNormal, ht, Option.map_some, List.map_cons, List.map_nil, hw]
  refine List.cons_eq_cons.2 ⟨?_, List.cons_eq_cons.2 ⟨?_, List.cons_eq_cons.2 ⟨?_, List.cons_eq_cons.2 ⟨?_,
    List.cons_eq_cons.2 ⟨?_, List.cons_eq_cons.2 ⟨?_, List.cons_eq_cons.2 ⟨?_, rfl⟩⟩⟩⟩⟩⟩⟩
  all_goals
    refine Prod.ext rfl ?_
    simp only [Option.some.injEq]
    funext c l
    simp only [laneVec, normalD, dofVel, dofSpin, Vec3.dot, Vec3.cross, Vec3.sub_x, Vec3.sub_y, Vec3.sub_z, Vec3.smul_x, Vec3.smul_y, Vec3.smul_z, Vec3.zero_x, Vec3.zero_y, Vec3.zero_z]
    ring

end Momentum
