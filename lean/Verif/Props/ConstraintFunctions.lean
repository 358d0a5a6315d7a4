import Verif.Props.ConstraintError
import Mathlib.Analysis.SpecialFunctions.Trigonometric.InverseDeriv

/-!
# C57: the functions of the constraints and the derivatives they report
-/

namespace Momentum

/-- **C57**, position constraints: the difference between the placed point and its target. -/
theorem C57_position (offset target : Vec3 ℝ) :
    Describes (evalPosition offset target) 1 (fun _ => offset) (fun y => (y 0 - target).toFn) ∧
      ∀ js, IsDerivOf (fun y => (y 0 - target).toFn) (evalPosition offset target js).v (evalPosition offset target js).dfdv := by
  refine ⟨⟨fun js => ?_, fun js => ?_⟩, fun js y y' t _ h i => ?_⟩
  · funext k; simp [evalPosition, placed]
  · simp [evalPosition, placed]
  · have := ((h 0).sub (HasVecDerivAt.const target t)).toFn i
    refine this.congr_deriv ?_
    simp [evalPosition, idRows_dot]

/-- The function of a plane constraint: the signed distance, or its negative part for a half plane. -/
noncomputable def planeFn (halfPlane : Bool) (normal : Vec3 ℝ) (d : ℝ) (y : Fin 1 → Vec3 ℝ) (_ : Fin 1) : ℝ :=
  if halfPlane then min ((y 0).dot normal - d) 0 else (y 0).dot normal - d

theorem planeFn_eq (halfPlane : Bool) (offset normal : Vec3 ℝ) (d : ℝ) (js : JointState) :
    (evalPlane halfPlane offset normal d js).f = planeFn halfPlane normal d (fun _ => js.transform.transformPoint offset) := by
  funext b
  unfold evalPlane planeFn
  cases halfPlane
  · simp
  · simp only [true_and, if_true]
    split_ifs with h
    · rw [min_eq_right h.le]
    · rw [min_eq_left (not_lt.1 h)]

/-- **C57**, plane constraints: the signed distance, or its negative part for a half plane.  The derivative is that of
the function everywhere but on the boundary of a half plane, and that of its square everywhere. -/
theorem C57_plane (halfPlane : Bool) (offset normal : Vec3 ℝ) (d : ℝ) :
    Describes (evalPlane halfPlane offset normal d) 1 (fun _ => offset) (planeFn halfPlane normal d) ∧
      (∀ js, IsSqDerivOf (planeFn halfPlane normal d) (evalPlane halfPlane offset normal d js).v
        (evalPlane halfPlane offset normal d js).dfdv) ∧
      ∀ js, (halfPlane = false ∨ (js.transform.transformPoint offset).dot normal ≠ d) →
        IsDerivOf (planeFn halfPlane normal d) (evalPlane halfPlane offset normal d js).v
          (evalPlane halfPlane offset normal d js).dfdv := by
  have hmain : ∀ js, (halfPlane = false ∨ (js.transform.transformPoint offset).dot normal ≠ d) →
        IsDerivOf (planeFn halfPlane normal d) (evalPlane halfPlane offset normal d js).v
          (evalPlane halfPlane offset normal d js).dfdv := by
    intro js hjs y y' t hy h i
    have h1 : HasDerivAt (fun u => (y u 0).dot normal - d) (normal.dot (y' 0)) t := by
      refine (((h 0).dot (HasVecDerivAt.const normal t)).sub_const d).congr_deriv ?_
      simp [Vec3.dot]; ring
    have hy0 : y t 0 = js.transform.transformPoint offset := by rw [hy]; rfl
    simp only [Fin.sum_univ_one]
    unfold planeFn evalPlane
    cases halfPlane
    · simpa using h1
    · simp only [true_and, if_true, Bool.true_eq_false, false_or]
      have hne : (y t 0).dot normal - d ≠ 0 := by
        rcases hjs with hjs | hjs
        · cases hjs
        · rw [hy0]; exact sub_ne_zero.2 hjs
      rw [hy0] at hne
      have hcont := h1.continuousAt
      rcases lt_or_gt_of_ne hne with hneg | hpos
      · rw [if_neg (not_lt.2 hneg.le), if_pos hneg]
        refine h1.congr_of_eventuallyEq ?_
        have := hcont.eventually (gt_mem_nhds (show (y t 0).dot normal - d < 0 by rw [hy0]; exact hneg))
        filter_upwards [this] with u hu
        exact min_eq_left hu.le
      · rw [if_pos hpos, if_neg (lt_irrefl _), zero_dot_left]
        refine (hasDerivAt_const t (0 : ℝ)).congr_of_eventuallyEq ?_
        have := hcont.eventually (lt_mem_nhds (show 0 < (y t 0).dot normal - d by rw [hy0]; exact hpos))
        filter_upwards [this] with u hu
        exact min_eq_right hu.le
  refine ⟨⟨fun js => ?_, fun js => ?_⟩, fun js => ?_, hmain⟩
  · funext k; simp [evalPlane, placed]
  · rw [planeFn_eq]; congr 1; funext k; simp [placed]
  · by_cases hc : halfPlane = false ∨ (js.transform.transformPoint offset).dot normal ≠ d
    · exact (hmain js hc).sq
    · -- on the boundary
      rw [not_or, not_not] at hc
      obtain ⟨hh, hd⟩ := hc
      have hh : halfPlane = true := by cases halfPlane <;> simp_all
      subst hh
      intro y y' t hy h
      have h1 : HasDerivAt (fun u => (y u 0).dot normal - d) (normal.dot (y' 0)) t := by
        refine (((h 0).dot (HasVecDerivAt.const normal t)).sub_const d).congr_deriv ?_
        simp [Vec3.dot]; ring
      have hy0 : y t 0 = js.transform.transformPoint offset := by rw [hy]; rfl
      have h0 : (y t 0).dot normal - d = 0 := by rw [hy0, hd, sub_self]
      have hsq : HasDerivAt (fun u => ((y u 0).dot normal - d) ^ 2) 0 t := by
        refine (h1.pow 2).congr_deriv ?_
        rw [h0]; simp
      have hrhs : ∑ i : Fin 1, 2 * planeFn true normal d (evalPlane true offset normal d js).v i *
          ∑ k, ((evalPlane true offset normal d js).dfdv k i).dot (y' k) = 0 := by
        refine Finset.sum_eq_zero fun i _ => ?_
        have : planeFn true normal d (evalPlane true offset normal d js).v i = 0 := by
          unfold planeFn evalPlane
          simp [hd]
        rw [this]; simp
      rw [hrhs]
      simp only [Fin.sum_univ_one]
      have habs : ∀ u, planeFn true normal d (y u) 0 ^ 2 ≤ ((y u 0).dot normal - d) ^ 2 := by
        intro u
        unfold planeFn
        simp only [if_true]
        rcases le_total ((y u 0).dot normal - d) 0 with hle | hle
        · rw [min_eq_left hle]
        · rw [min_eq_right hle]; simp [sq_nonneg]
      have hz : planeFn true normal d (y t) 0 ^ 2 = 0 := by
        unfold planeFn; simp [h0]
      rw [hasDerivAt_iff_isLittleO] at hsq ⊢
      simp only [hz, h0, smul_zero, sub_zero, ne_eq, OfNat.ofNat_ne_zero, not_false_eq_true, zero_pow] at hsq ⊢
      refine Asymptotics.IsBigO.trans_isLittleO (Asymptotics.IsBigO.of_norm_le fun u => ?_) hsq
      rw [Real.norm_of_nonneg (sq_nonneg _)]
      exact habs u

/-- **C57**, orientation constraints: the differences of the columns of the two rotation matrices. -/
theorem C57_orientation (offset target : Quat ℝ) :
    Describes (evalOrientation offset target) 0 offset.toMat.col
        (fun y i => (y (i.divNat (m := 3) (n := 3)) - target.toMat.col (i.divNat (m := 3) (n := 3))).toFn
          (i.modNat (m := 3) (n := 3))) ∧
      ∀ js, IsDerivOf (fun y i => (y (i.divNat (m := 3) (n := 3)) - target.toMat.col (i.divNat (m := 3) (n := 3))).toFn
          (i.modNat (m := 3) (n := 3))) (evalOrientation offset target js).v (evalOrientation offset target js).dfdv := by
  have hcol : ∀ (js : JointState) (k : Fin 3), (js.transform.rotation.toMat.mul offset.toMat).col k =
      js.transform.rotation.rotate (offset.toMat.col k) := by
    intro js k
    rw [← Quat.toMat_mulVec]
    fin_cases k <;> rfl
  refine ⟨⟨fun js => ?_, fun js => ?_⟩, fun js y y' t _ h i => ?_⟩
  · funext k
    simp only [evalOrientation, placed, hcol]
    rw [if_neg (by omega)]
  · funext i
    simp only [evalOrientation, placed, hcol]
    rw [if_neg (by omega)]
  · have := ((h (i.divNat (m := 3) (n := 3))).sub (HasVecDerivAt.const (target.toMat.col (i.divNat (m := 3) (n := 3))) t)).toFn
      (i.modNat (m := 3) (n := 3))
    refine this.congr_deriv ?_
    rw [Finset.sum_eq_single (i.divNat (m := 3) (n := 3))]
    · simp [evalOrientation, idRows_dot]
    · intro k _ hk
      simp only [evalOrientation]
      rw [if_neg (fun hh => hk hh.symm), zero_dot_left]
    · intro hh; exact absurd (Finset.mem_univ _) hh

/-- **C57**, aim constraints by distance: the vector from the target to its projection on the ray. -/
theorem C57_aimDist (localPoint localDir globalTarget : Vec3 ℝ) :
    Describes (evalAimDist localPoint localDir globalTarget) 1 ![localPoint, localDir]
        (fun y => ((y 1).dot (globalTarget - y 0) • y 1 - (globalTarget - y 0)).toFn) ∧
      ∀ js, IsDerivOf (fun y => ((y 1).dot (globalTarget - y 0) • y 1 - (globalTarget - y 0)).toFn)
        (evalAimDist localPoint localDir globalTarget js).v (evalAimDist localPoint localDir globalTarget js).dfdv := by
  refine ⟨⟨fun js => ?_, fun js => ?_⟩, fun js y y' t hy h i => ?_⟩
  · funext k; fin_cases k <;> simp [evalAimDist, placed]
  · simp [evalAimDist, placed]
  · have hs := (HasVecDerivAt.const globalTarget t).sub (h 0)
    have := ((HasVecDerivAt.smul ((h 1).dot hs) (h 1)).sub hs).toFn i
    refine this.congr_deriv ?_
    have e0 : y t 0 = js.transform.transformPoint localPoint := by rw [hy]; rfl
    have e1 : y t 1 = js.transform.rotation.rotate localDir := by rw [hy]; rfl
    rw [Fin.sum_univ_two]
    simp only [evalAimDist, if_true, Fin.isValue, one_ne_zero, if_false, ← e0, ← e1, dot_sub_left, dot_add_left,
      dot_smul_left, idRows_dot, toFn_sub, toFn_add, toFn_smul, toFn_zero]
    simp only [Vec3.dot, Vec3.sub_x, Vec3.sub_y, Vec3.sub_z, Vec3.zero_x, Vec3.zero_y, Vec3.zero_z]
    ring

/-- The direction of a vector; zero for very short ones. -/
noncomputable def direction (v : Vec3 ℝ) : Vec3 ℝ :=
  open Classical in if Real.sqrt v.sqNorm > 1 / 10 ^ 16 then (1 / Real.sqrt v.sqNorm) • v else 0

/-- **C57**, aim constraints by direction: the difference between the axis and the direction to the target, as long as
the target is not within 1e-16 of the point. -/
theorem C57_aimDir (localPoint localDir globalTarget : Vec3 ℝ) :
    Describes (evalAimDir localPoint localDir globalTarget) 1 ![localPoint, localDir]
        (fun y => (y 1 - direction (globalTarget - y 0)).toFn) ∧
      ∀ js, Real.sqrt (globalTarget - js.transform.transformPoint localPoint).sqNorm > 1 / 10 ^ 16 →
        IsDerivOf (fun y => (y 1 - direction (globalTarget - y 0)).toFn)
        (evalAimDir localPoint localDir globalTarget js).v (evalAimDir localPoint localDir globalTarget js).dfdv := by
  refine ⟨⟨fun js => ?_, fun js => ?_⟩, fun js hn y y' t hy h i => ?_⟩
  · funext k; fin_cases k <;> simp [evalAimDir, placed]
  · simp [evalAimDir, placed, direction]
  · have e0 : y t 0 = js.transform.transformPoint localPoint := by rw [hy]; rfl
    have e1 : y t 1 = js.transform.rotation.rotate localDir := by rw [hy]; rfl
    have hs := (HasVecDerivAt.const globalTarget t).sub (h 0)
    have hsq : HasDerivAt (fun u => (globalTarget - y u 0).sqNorm) (2 * (globalTarget - y t 0).dot (0 - y' 0)) t := by
      refine (hs.dot hs).congr_deriv ?_
      simp [Vec3.dot]; ring
    set N := Real.sqrt (globalTarget - y t 0).sqNorm with hN
    have hN0 : 0 < N := by
      rw [hN, e0]; exact lt_trans (by positivity) hn
    have hne : (globalTarget - y t 0).sqNorm ≠ 0 := by
      intro hz; rw [hN, hz, Real.sqrt_zero] at hN0; exact lt_irrefl _ hN0
    have hroot := hsq.sqrt hne
    have hinv : HasDerivAt (fun u => 1 / Real.sqrt (globalTarget - y u 0).sqNorm)
        (-((globalTarget - y t 0).dot (0 - y' 0)) / N ^ 3) t := by
      have := hroot.inv (ne_of_gt hN0)
      simp only [one_div]
      refine this.congr_deriv ?_
      rw [← hN]
      field_simp
    have hdir : HasVecDerivAt (fun u => direction (globalTarget - y u 0))
        ((-((globalTarget - y t 0).dot (0 - y' 0)) / N ^ 3) • (globalTarget - y t 0) + (1 / N) • (0 - y' 0)) t := by
      have h1 := HasVecDerivAt.smul hinv hs
      have hev : ∀ᶠ u in nhds t, direction (globalTarget - y u 0) =
          (1 / Real.sqrt (globalTarget - y u 0).sqNorm) • (globalTarget - y u 0) := by
        have hc := hroot.continuousAt
        have := hc.eventually (lt_mem_nhds (show (1 : ℝ) / 10 ^ 16 < Real.sqrt (globalTarget - y t 0).sqNorm by
          rw [e0]; exact hn))
        filter_upwards [this] with u hu
        unfold direction; rw [if_pos hu]
      have h1 := h1.congr_deriv' (g' := (-((globalTarget - y t 0).dot (0 - y' 0)) / N ^ 3) • (globalTarget - y t 0) +
        (1 / N) • (0 - y' 0)) (by ext <;> simp [hN] <;> ring)
      refine ⟨h1.1.congr_of_eventuallyEq ?_, h1.2.1.congr_of_eventuallyEq ?_, h1.2.2.congr_of_eventuallyEq ?_⟩
      · filter_upwards [hev] with u hu; rw [hu]
      · filter_upwards [hev] with u hu; rw [hu]
      · filter_upwards [hev] with u hu; rw [hu]
    refine (((h 1).sub hdir).toFn i).congr_deriv ?_
    rw [Fin.sum_univ_two]
    simp only [evalAimDir, if_true, Fin.isValue, one_ne_zero, if_false, if_pos hn, dot_sub_left, dot_add_left,
      dot_smul_left, idRows_dot, toFn_sub, toFn_add, toFn_smul, toFn_zero]
    rw [← e0, ← hN]
    simp only [Vec3.dot, Vec3.sub_x, Vec3.sub_y, Vec3.sub_z, Vec3.zero_x, Vec3.zero_y, Vec3.zero_z]
    field_simp
    ring

/-- **C57**, fixed axis constraints: the difference of the axes. -/
theorem C57_fixedAxisDiff (localAxis globalAxis : Vec3 ℝ) :
    Describes (evalFixedAxisDiff localAxis globalAxis) 0 (fun _ => localAxis) (fun y => (y 0 - globalAxis).toFn) ∧
      ∀ js, IsDerivOf (fun y => (y 0 - globalAxis).toFn) (evalFixedAxisDiff localAxis globalAxis js).v
        (evalFixedAxisDiff localAxis globalAxis js).dfdv := by
  refine ⟨⟨fun js => ?_, fun js => ?_⟩, fun js y y' t _ h i => ?_⟩
  · funext k; simp [evalFixedAxisDiff, placed]
  · simp [evalFixedAxisDiff, placed]
  · have := ((h 0).sub (HasVecDerivAt.const globalAxis t)).toFn i
    refine this.congr_deriv ?_
    simp [evalFixedAxisDiff, idRows_dot]

/-- **C57**, fixed axis constraints by cosine: one minus the cosine of the angle. -/
theorem C57_fixedAxisCos (localAxis globalAxis : Vec3 ℝ) :
    Describes (evalFixedAxisCos localAxis globalAxis) 0 (fun _ => localAxis) (fun y _ => 1 - (y 0).dot globalAxis) ∧
      ∀ js, IsDerivOf (fun y _ => 1 - (y 0).dot globalAxis) (evalFixedAxisCos localAxis globalAxis js).v
        (evalFixedAxisCos localAxis globalAxis js).dfdv := by
  refine ⟨⟨fun js => ?_, fun js => ?_⟩, fun js y y' t _ h i => ?_⟩
  · funext k; simp [evalFixedAxisCos, placed]
  · simp [evalFixedAxisCos, placed]
  · refine (((h 0).dot (HasVecDerivAt.const globalAxis t)).const_sub 1).congr_deriv ?_
    simp [evalFixedAxisCos, Vec3.dot]; ring

/-- **C57**, fixed axis constraints by angle: the angle between the axes, as long as its sine is more than 1e-9. -/
theorem C57_fixedAxisAngle (localAxis globalAxis : Vec3 ℝ) :
    Describes (evalFixedAxisAngle localAxis globalAxis) 0 (fun _ => localAxis)
        (fun y _ => Real.arccos ((y 0).dot globalAxis)) ∧
      ∀ js, Real.sqrt (1 - (js.transform.rotation.rotate localAxis).dot globalAxis ^ 2) > 1 / 10 ^ 9 →
        IsDerivOf (fun y _ => Real.arccos ((y 0).dot globalAxis)) (evalFixedAxisAngle localAxis globalAxis js).v
        (evalFixedAxisAngle localAxis globalAxis js).dfdv := by
  refine ⟨⟨fun js => ?_, fun js => ?_⟩, fun js hn y y' t hy h i => ?_⟩
  · funext k; simp [evalFixedAxisAngle, placed]
  · funext b
    simp only [evalFixedAxisAngle, placed, not_lt_zero, if_false]
    generalize (js.transform.rotation.rotate localAxis).dot globalAxis = d
    rcases le_total d (-1) with h1 | h1
    · rw [Real.arccos_of_le_neg_one h1, min_eq_left (by linarith), max_eq_left h1, Real.arccos_neg_one]
    · rcases le_total d 1 with h2 | h2
      · rw [min_eq_left h2, max_eq_right h1]
      · rw [Real.arccos_of_one_le h2, min_eq_right h2, max_eq_right (by norm_num), Real.arccos_one]
  · have e0 : y t 0 = js.transform.rotation.rotate localAxis := by rw [hy]; rfl
    have hd := (h 0).dot (HasVecDerivAt.const globalAxis t)
    have hpos : 0 < 1 - (y t 0).dot globalAxis ^ 2 := by
      rw [e0]
      by_contra hc
      rw [Real.sqrt_eq_zero_of_nonpos (not_lt.1 hc)] at hn
      norm_num at hn
    have h1 : (y t 0).dot globalAxis ≠ -1 := by
      intro hc; rw [hc] at hpos; norm_num at hpos
    have h2 : (y t 0).dot globalAxis ≠ 1 := by
      intro hc; rw [hc] at hpos; norm_num at hpos
    refine ((Real.hasDerivAt_arccos h1 h2).comp t hd).congr_deriv ?_
    rw [Fin.sum_univ_one]
    simp only [evalFixedAxisAngle]
    rw [if_pos (by rw [← sq]; exact hn), ← e0, ← sq, dot_smul_left, dot_neg_left, dot_comm_real globalAxis]
    simp [Vec3.dot]
    ring

/-- **C57**, normal constraints: the distance of the point along the normal. -/
theorem C57_normal (localPoint localNormal globalPoint : Vec3 ℝ) :
    Describes (evalNormal localPoint localNormal globalPoint) 1 ![localPoint, localNormal]
        (fun y _ => (y 1).dot (y 0 - globalPoint)) ∧
      ∀ js, IsDerivOf (fun y _ => (y 1).dot (y 0 - globalPoint)) (evalNormal localPoint localNormal globalPoint js).v
        (evalNormal localPoint localNormal globalPoint js).dfdv := by
  refine ⟨⟨fun js => ?_, fun js => ?_⟩, fun js y y' t hy h i => ?_⟩
  · funext k; fin_cases k <;> simp [evalNormal, placed]
  · funext b; simp [evalNormal, placed]
  · refine ((h 1).dot ((h 0).sub (HasVecDerivAt.const globalPoint t))).congr_deriv ?_
    have e0 : y t 0 = js.transform.transformPoint localPoint := by rw [hy]; rfl
    have e1 : y t 1 = js.transform.rotation.rotate localNormal := by rw [hy]; rfl
    rw [Fin.sum_univ_two]
    simp only [evalNormal, if_true, Fin.isValue, one_ne_zero, if_false, ← e0, ← e1]
    simp only [Vec3.dot, Vec3.sub_x, Vec3.sub_y, Vec3.sub_z, Vec3.zero_x, Vec3.zero_y, Vec3.zero_z]
    ring

/-- **C57.**  The flags that `setEnabledParameters` computes are what `Valid` asks for: there is one for each joint
parameter, and every joint parameter that an enabled model parameter moves is flagged. -/
theorem C57_flags (pt : ParameterTransform ℝ) (hwf : pt.transform.WF) (hcols : pt.transform.cols ≤ kMaxModelParams)
    (ps : ParameterSet) : ∃ fl, pt.computeActiveJointParams ps = some fl ∧ fl.length = pt.transform.rows ∧
      ∀ r i, ps.mem i = true → pt.transform.coeff r i ≠ 0 → fl[r]? = some true := by
  suffices gen : ∀ (l : List (Triplet ℝ)), (∀ e ∈ l, e ∈ pt.transform.entries) → ∀ acc : List Bool,
      acc.length = pt.transform.rows → ∃ fl, l.foldlM (fun acc (e : Triplet ℝ) => do
        let b ← ps.test e.col
        some (if b then acc.set e.row true else acc)) acc = some fl ∧ fl.length = pt.transform.rows ∧
      (∀ r : Nat, acc[r]? = some true → fl[r]? = some true) ∧
      ∀ e ∈ l, ps.mem e.col = true → fl[e.row]? = some true by
    obtain ⟨fl, f1, f2, -, f4⟩ := gen pt.transform.entries (fun _ h => h) (List.replicate pt.transform.rows false) (by simp)
    refine ⟨fl, f1, f2, fun r i hi hne => ?_⟩
    unfold SparseMat.coeff at hne
    by_contra hc
    apply hne
    refine List.sum_eq_zero fun x hx => ?_
    obtain ⟨e, he, rfl⟩ := List.mem_map.1 hx
    obtain ⟨he1, he2⟩ := List.mem_filter.1 he
    simp only [Bool.and_eq_true, beq_iff_eq] at he2
    exact absurd (by rw [← he2.1]; exact f4 e he1 (by rw [he2.2]; exact hi)) hc
  intro l
  induction l with
  | nil => intro _ acc h; exact ⟨acc, rfl, h, fun _ h => h, by simp⟩
  | cons e l ih =>
    intro hl acc hacc
    have he := hwf e (hl e List.mem_cons_self)
    have ht := ConstraintError.test_mem ps (i := e.col) (by omega)
    rw [List.foldlM_cons, ht]
    simp only [Option.bind_eq_bind, Option.bind_some]
    obtain ⟨fl, f1, f2, f3, f4⟩ := ih (fun x hx => hl x (List.mem_cons_of_mem _ hx))
      (if ps.mem e.col then acc.set e.row true else acc) (by split_ifs <;> simp [hacc])
    refine ⟨fl, f1, f2, fun r hr => f3 r ?_, fun x hx hm => ?_⟩
    · split_ifs
      · rw [List.getElem?_set]
        split_ifs with h1 h2
        · rfl
        · subst h1; exact absurd (by rw [hacc]; exact he.1) h2
        · exact hr
      · exact hr
    · rcases List.mem_cons.1 hx with rfl | hx
      · apply f3
        rw [if_pos hm, List.getElem?_set_self (by rw [hacc]; exact he.1)]
      · exact f4 x hx hm


namespace ConstraintError

/-- A root and a child one unit along x; the first model parameter moves the root along x, the second turns the child
about z. -/
def exChain : Skeleton ℝ :=
  ⟨[⟨"root", none, Quat.one, 0⟩, ⟨"child", some 0, Quat.one, ⟨1, 0, 0⟩⟩]⟩

def exChainTransform : ParameterTransform ℝ where
  name := ["tx", "rz"]
  transform := ⟨14, 2, [⟨0, 0, 1⟩, ⟨12, 1, 1⟩]⟩
  offsets := List.replicate 14 0
  activeJointParams := []
  parameterSets := []
  poseConstraints := []
  blendShapeParameters := []
  faceExpressionParameters := []

/-- One position constraint on the child, two units along its x axis, with the target `x` on the world's x axis. -/
noncomputable def exError (x : ℝ) : ConstraintError 3 1 where
  skeleton := exChain
  transform := exChainTransform.transform
  weight := 2
  activeJointParams := (List.replicate 14 false).set 0 true |>.set 12 true
  enabledParameters := ParameterSet.all
  loss := ⟨2, 1 / (1 * 1), lossTypeOf 2⟩
  constraints := [⟨1, 3, evalPosition ⟨2, 0, 0⟩ ⟨x, 0, 0⟩⟩]
  numPos := 1
  precision := 1 / 10 ^ 12
  tiny := 1 / 10 ^ 16

theorem exError_valid (x : ℝ) : (exError x).Valid exChainTransform where
  skeleton := by
    intro j jt q h h2
    rcases j with _ | _ | j
    · cases h; cases h2
    · cases h; cases h2; omega
    · simp [exError, exChain] at h
  unit := by
    intro jt h
    simp only [exError, exChain, List.mem_cons, List.not_mem_nil, or_false] at h
    rcases h with rfl | rfl <;> simp [Quat.one, Quat.normSq]
  transform := rfl
  wf := by
    intro e h
    simp only [exChainTransform, List.mem_cons, List.not_mem_nil, or_false] at h
    rcases h with rfl | rfl <;> simp [exChainTransform]
  offs := by simp [exChainTransform]
  rows := by simp [exChainTransform, exError, exChain]
  cols := by simp [exChainTransform, kMaxModelParams]
  activeLength := by simp [exChainTransform, exError]
  active := by
    intro r i _ h
    by_cases h0 : r = 0
    · subst h0; simp [exError]
    · by_cases h1 : r = 12
      · subst h1; simp [exError]
      · exfalso; apply h
        simp [SparseMat.coeff, exChainTransform, List.filter_cons]
        rw [if_neg (fun hh => h0 hh.1.symm), if_neg (fun hh => h1 hh.1.symm)]; rfl
  parents := by simp [exError, exChain]

/-- The child's world transform with both parameters zero. -/
theorem exChain_state (cd : Bool) : ∃ st js, (exError 0).stateFor exChainTransform [0, 0] cd = some st ∧ st[1]? = some js ∧
    st.length = 2 ∧ js.transform.transformPoint ⟨2, 0, 0⟩ = ⟨3, 0, 0⟩ := by
  obtain ⟨jp, hjp⟩ : ∃ jp, exChainTransform.apply [0, 0] = some jp := by
    unfold ParameterTransform.apply; simp [exChainTransform]
  have hz := (C13_apply_affine _ (exError_valid 0).wf _ _).1 hjp
  have hv : ∀ r : Nat, jp.getD r 0 = 0 := by
    intro r
    by_cases hr : r < 14
    · rw [List.getD_eq_getElem?_getD, hz.2.2.2 r hr, Option.getD_some]
      have e1 : exChainTransform.offsets.getD r 0 = 0 := by
        rw [List.getD_eq_getElem?_getD]
        simp only [exChainTransform, List.getElem?_replicate]
        split_ifs <;> rfl
      rw [e1, add_zero]
      refine Finset.sum_eq_zero fun j hj => ?_
      have : j = 0 ∨ j = 1 := by
        have := Finset.mem_range.1 hj
        simp only [exChainTransform] at this; omega
      rcases this with rfl | rfl <;> simp
    · rw [List.getD_eq_getElem?_getD, List.getElem?_eq_none (by rw [hz.2.2.1]; simpa [exChainTransform] using hr)]; rfl
  obtain ⟨st, s1, s2, s3⟩ := skeletonState_good (exError_valid 0).skeleton (params := jp) cd (by
    rw [hz.2.2.1]; exact (exError_valid 0).rows)
  have hl : st.length = 2 := s3
  have hs : ∀ j, jointSlice jp j = fun _ => 0 := fun j => funext fun k => hv _
  refine ⟨st, st[1], by unfold stateFor; rw [hjp, Option.bind_some, s1], List.getElem?_eq_getElem _, hl, ?_⟩
  have r0 := s2.eq 0 ⟨"root", none, Quat.one, 0⟩ st[0] rfl (List.getElem?_eq_getElem _)
  have r1 := s2.eq 1 ⟨"child", some 0, Quat.one, ⟨1, 0, 0⟩⟩ st[1] rfl (List.getElem?_eq_getElem _)
  rw [hs] at r0 r1
  have e0 : st[0]? = some st[0] := List.getElem?_eq_getElem _
  simp only [Option.bind_some, e0] at r1
  have q0 : ∀ v : Vec3 ℝ, Quat.angleAxis 0 v = Quat.one := by
    intro v; simp [Quat.angleAxis, Quat.one]
  have qq : Quat.one * Quat.one = (Quat.one : Quat ℝ) := by ext <;> simp [Quat.one]
  have t0 : st[0].transform = Transform.one := by
    rw [r0]
    simp [JointState.set, rotationStep, q0, qq]
    rw [Transform.one_mul']
    ext <;> simp [Transform.one]
  rw [r1]
  simp [JointState.set, rotationStep, q0, t0, qq, Transform.one_mul']
  ext <;> simp [Transform.transformPoint, Quat.rotate, Quat.vec, Quat.one, Vec3.cross]
  norm_num

theorem exError_stateFor (x : ℝ) (p : List ℝ) (cd : Bool) :
    (exError x).stateFor exChainTransform p cd = (exError 0).stateFor exChainTransform p cd := rfl

/-- The theorems apply to a constraint on a rotating joint of a moving root, with the tolerances of the code. -/
example : ∃ st, (exError 10).stateFor exChainTransform [0, 0] true = some st ∧ (exError 10).Valid exChainTransform ∧
    GeneralizedLoss.make 2 1 = some (exError 10).loss ∧
    ∀ c ∈ (exError 10).constraints, c.weight ≠ 0 → (exError 10).Differentiable st c ∧
      (exError 10).RowsDifferentiable st c := by
  obtain ⟨st, js, h1, h2, -, h4⟩ := exChain_state true
  refine ⟨st, h1, exError_valid 10, by simp [GeneralizedLoss.make, exError], fun c hc _ => ?_⟩
  have hd := C57_position ⟨2, 0, 0⟩ ⟨10, 0, 0⟩
  simp only [exError, List.mem_cons, List.not_mem_nil, or_false] at hc
  subst hc
  have hng : (exError 10).NotNegligible (evalPosition ⟨2, 0, 0⟩ ⟨10, 0, 0⟩ js) := by
    refine ⟨Or.inr ⟨0, ?_⟩, fun k => Or.inr ⟨0, Or.inl ?_⟩⟩
    · simp only [evalPosition, h4, exError, Vec3.toFn]
      norm_num
    · simp only [evalPosition, exError, idRows, Vec3.unitX]
      norm_num
  refine ⟨fun js' hj => ?_, fun js' hj => ?_⟩
  · rw [h2] at hj; cases hj
    exact ⟨hng, _, _, hd.1, (hd.2 js).sq⟩
  · rw [h2] at hj; cases hj
    refine ⟨hng, Or.inr ?_, _, _, hd.1, hd.2 js⟩
    have : lossTypeOf 2 = .L2 := by unfold lossTypeOf; simp
    simp only [rowScale, exError, GeneralizedLoss.deriv, this]
    rw [Real.le_sqrt (by positivity)] <;> norm_num

end ConstraintError

/-- **C57** (what is missing).  A constraint whose function is not zero but within the tolerance of `isZero` is left out
by `getGradient`, both from the error and from the gradient, although `getError` counts it. -/
theorem C57_small_values_dropped : ∃ (E : ConstraintError 3 1) (pt : ParameterTransform ℝ) (p : List ℝ) (st : List JointState),
    E.Valid pt ∧ GeneralizedLoss.make 2 1 = some E.loss ∧ E.stateFor pt p true = some st ∧
      E.getGradient st (fun _ => 0) = some (0, fun _ => 0) ∧ ∃ err, 0 < err ∧ E.errorAt pt p = some err := by
  obtain ⟨st, js, h1, h2, hl, h4⟩ := ConstraintError.exChain_state true
  obtain ⟨st', js', k1, k2, kl, k4⟩ := ConstraintError.exChain_state false
  refine ⟨ConstraintError.exError (3 - 1 / 10 ^ 13), ConstraintError.exChainTransform, [0, 0], st,
    ConstraintError.exError_valid _, by simp [GeneralizedLoss.make, ConstraintError.exError], h1, ?_,
    6 / 10 ^ 26, by norm_num, ?_⟩
  · unfold ConstraintError.getGradient
    have hz : isZeroFn (1 / 10 ^ 12) (evalPosition ⟨2, 0, 0⟩ ⟨3 - 1 / 10 ^ 13, 0, 0⟩ js).f = true := by
      unfold isZeroFn
      rw [decide_eq_true_iff]
      intro i
      simp only [evalPosition, h4]
      fin_cases i
      · simp [Vec3.toFn]; norm_num
      · simp [Vec3.toFn]
      · simp [Vec3.toFn]
    have hstep : ConstraintError.gradStep (ConstraintError.exError (3 - 1 / 10 ^ 13)) st (0, fun _ => 0)
        ⟨1, 3, evalPosition ⟨2, 0, 0⟩ ⟨3 - 1 / 10 ^ 13, 0, 0⟩⟩ = some (0, fun _ => 0) := by
      unfold ConstraintError.gradStep
      rw [if_neg (by norm_num)]
      simp only [h2, Option.bind_eq_bind, Option.bind_some]
      exact if_pos hz
    show (([_] : List (Constraint 3 1)).foldlM _ _ >>= _) = _
    rw [List.foldlM_cons, hstep]
    simp
  · unfold ConstraintError.errorAt
    rw [ConstraintError.exError_stateFor, k1, Option.bind_some, ConstraintError.getError_eq]
    · have e := stateAt_eq k2
      have : lossTypeOf 2 = .L2 := by unfold lossTypeOf; simp
      simp only [ConstraintError.exError, List.map_cons, List.map_nil, List.sum_cons, List.sum_nil, add_zero,
        ConstraintError.errorTerm, e, evalPosition, k4, GeneralizedLoss.value, this, l2Loss, sqNormFn, Fin.sum_univ_three,
        Vec3.toFn]
      rw [if_neg (by norm_num)]
      congr 1
      simp
      norm_num
    · intro c hc
      simp only [ConstraintError.exError, List.mem_cons, List.not_mem_nil, or_false] at hc
      subst hc
      show 1 < st'.length
      omega

end Momentum
