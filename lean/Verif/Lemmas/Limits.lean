import Verif.Spec.Limits
import Verif.Lemmas.ParameterTransform2
import Mathlib.Analysis.Calculus.Deriv.Comp
import Mathlib.Analysis.Calculus.Deriv.Mul
import Mathlib.Analysis.Calculus.Deriv.Add
import Mathlib.Analysis.SpecialFunctions.Sqrt

namespace Momentum

/-! ### Passive limits -/

section passive
variable {K : Type} [LinearOrder K]

theorem passiveStep_ok {n : Nat} {res : List K} {l : ParameterLimit K} (hn : res.length = n)
    (h : ∀ k ∈ l.passiveIndex, k < n) :
    ∃ r, passiveStep n res l = .ok r ∧ r.length = n ∧
      ∀ k, r[k]? = (res[k]?).map fun x => match l.passiveOn k with
        | some iv => clampTo iv.1 iv.2 x
        | none => x := by
  obtain ⟨d, w⟩ := l
  cases d with
  | minMaxJointPassive j d lo hi =>
    have hlt : j * 7 + d < n := h _ rfl
    have hx : res[j * 7 + d]? = some res[j * 7 + d] := List.getElem?_eq_getElem (by omega)
    refine ⟨_, by unfold passiveStep; simp only; rw [if_pos hlt.le, hx], by simpa using hn, ?_⟩
    intro k
    by_cases hk : j * 7 + d = k
    · subst hk
      rw [List.getElem?_set_self (by omega), hx]
      simp only [ParameterLimit.passiveOn, if_true, Option.map_some, clampTo]
      congr 1
      have e1 : (if res[j * 7 + d] < lo then lo else res[j * 7 + d]) = max lo res[j * 7 + d] := by
        rcases lt_or_ge res[j * 7 + d] lo with h | h
        · rw [if_pos h, max_eq_left h.le]
        · rw [if_neg (not_lt.mpr h), max_eq_right h]
      rw [e1]
      rcases lt_or_ge hi (max lo res[j * 7 + d]) with h | h
      · rw [if_pos h, min_eq_left h.le]
      · rw [if_neg (not_lt.mpr h), min_eq_right h]
    · rw [List.getElem?_set_ne hk]
      simp [ParameterLimit.passiveOn, hk]
  | _ => exact ⟨res, rfl, hn, fun k => by simp [ParameterLimit.passiveOn]⟩

theorem passive_fold_ok {n : Nat} (limits : List (ParameterLimit K)) (res : List K) (hn : res.length = n)
    (h : ∀ l ∈ limits, ∀ k ∈ l.passiveIndex, k < n) :
    ∃ r, limits.foldl (fun (acc : Outcome (List K)) l => acc.bind fun res => passiveStep n res l) (.ok res) = .ok r ∧
      r.length = n ∧
      ∀ k, r[k]? = (res[k]?).map fun x =>
        (limits.filterMap (·.passiveOn k)).foldl (fun x iv => clampTo iv.1 iv.2 x) x := by
  induction limits generalizing res with
  | nil => exact ⟨res, rfl, hn, fun k => by simp⟩
  | cons l limits ih =>
    obtain ⟨r1, h1, h2, h3⟩ := passiveStep_ok hn (h l List.mem_cons_self)
    obtain ⟨r, h4, h5, h6⟩ := ih r1 h2 fun l' hl' => h l' (List.mem_cons_of_mem _ hl')
    refine ⟨r, ?_, h5, ?_⟩
    · rw [List.foldl_cons]; simp only [Outcome.bind, h1]; exact h4
    · intro k
      rw [h6 k, h3 k, Option.map_map]
      congr 1
      funext x
      cases hp : l.passiveOn k with
      | none => simp [List.filterMap_cons, hp]
      | some iv => simp [List.filterMap_cons, hp]

theorem outcome_foldl_stuck {α β : Type} (f : α → β → Outcome α) (l : List β) (o : Outcome α)
    (ho : o = .ub ∨ o = .throws) : l.foldl (fun acc b => acc.bind fun a => f a b) o = o := by
  induction l with
  | nil => rfl
  | cons b l ih => rw [List.foldl_cons]; rcases ho with rfl | rfl <;> exact ih

theorem clampTo_mono (lo hi : K) {x y : K} (h : x ≤ y) : clampTo lo hi x ≤ clampTo lo hi y :=
  min_le_min_left _ (max_le_max_left _ h)

theorem clampTo_cases (lo hi y : K) : clampTo lo hi y = y ∨
    (clampTo lo hi y < y ∧ ∀ z, y ≤ z → clampTo lo hi z = clampTo lo hi y) ∨
    (y < clampTo lo hi y ∧ ∀ z, z ≤ y → clampTo lo hi z = clampTo lo hi y) := by
  unfold clampTo
  rcases lt_trichotomy (min hi (max lo y)) y with h | h | h
  · right; left
    have hy : hi < y := by
      rcases min_lt_iff.mp h with h | h
      · exact h
      · exact absurd (le_max_right lo y) (not_le.mpr h)
    refine ⟨h, fun z hz => ?_⟩
    rw [min_eq_left (hy.le.trans (hz.trans (le_max_right _ _))),
      min_eq_left (hy.le.trans (le_max_right _ _))]
  · left; exact h
  · right; right
    obtain ⟨h1, h2⟩ := lt_min_iff.mp h
    have hl : y < lo := by
      rcases lt_max_iff.mp h2 with h | h
      · exact h
      · exact absurd h (lt_irrefl _)
    refine ⟨h, fun z hz => ?_⟩
    rw [max_eq_left hl.le, max_eq_left (hz.trans hl.le)]

theorem clamp_comp {a b : K} (hab : a ≤ b) (lo hi x : K) :
    clampTo lo hi (clampTo a b x) = clampTo (clampTo lo hi a) (clampTo lo hi b) x := by
  have hm : clampTo lo hi a ≤ clampTo lo hi b := clampTo_mono lo hi hab
  have hR : ∀ A B : K, clampTo A B x = min B (max A x) := fun _ _ => rfl
  rw [hR (clampTo lo hi a) (clampTo lo hi b)]
  rcases le_total x a with h1 | h1
  · have e : clampTo a b x = a := by unfold clampTo; rw [max_eq_left h1, min_eq_right hab]
    rw [e]
    have h3 := clampTo_cases lo hi a
    generalize clampTo lo hi a = A at *
    rcases h3 with h | ⟨h, h'⟩ | ⟨h, h'⟩
    · subst h; rw [max_eq_left h1, min_eq_right hm]
    · rw [h' b hab, min_eq_left (le_max_left _ _)]
    · rw [max_eq_left (h1.trans h.le), min_eq_right hm]
  · rcases le_total x b with h2 | h2
    · have e : clampTo a b x = x := by unfold clampTo; rw [max_eq_right h1, min_eq_right h2]
      rw [e]
      have m1 := clampTo_mono lo hi h1
      have m2 := clampTo_mono lo hi h2
      rcases clampTo_cases lo hi x with h | ⟨h, h'⟩ | ⟨h, h'⟩
      · rw [h] at m1 m2 ⊢; rw [max_eq_right m1, min_eq_right m2]
      · rw [h' b h2, min_eq_left (h.le.trans (le_max_right _ _))]
      · rw [h' a h1, max_eq_left h.le, min_eq_right m2]
    · have e : clampTo a b x = b := by unfold clampTo; rw [max_eq_right h1, min_eq_left h2]
      rw [e]
      rcases clampTo_cases lo hi b with h | ⟨h, h'⟩ | ⟨h, h'⟩
      · rw [h] at hm ⊢; rw [min_eq_left (h2.trans (le_max_right _ _))]
      · rw [min_eq_left ((h.le.trans h2).trans (le_max_right _ _))]
      · rw [h' a hab, min_eq_left (le_max_left _ _)]

/-- A composition of clamps is a clamp, hence idempotent. -/
theorem clamp_fold (ivs : List (K × K)) :
    (ivs = []) ∨ ∃ a b : K, a ≤ b ∧ ∀ x, ivs.foldl (fun x iv => clampTo iv.1 iv.2 x) x = clampTo a b x := by
  induction ivs using List.reverseRecOn with
  | nil => exact Or.inl rfl
  | append_singleton ivs iv ih =>
    right
    rcases ih with rfl | ⟨a, b, hab, ih⟩
    · obtain ⟨lo, hi⟩ := iv
      refine ⟨min lo hi, hi, min_le_right _ _, fun x => ?_⟩
      simp only [List.nil_append, List.foldl_cons, List.foldl_nil, clampTo]
      rcases le_total lo hi with h | h
      · rw [min_eq_left h]
      · rw [min_eq_right h, min_eq_left (le_max_left _ _), min_eq_left (h.trans (le_max_left _ _))]
    · obtain ⟨lo, hi⟩ := iv
      refine ⟨clampTo lo hi a, clampTo lo hi b, ?_, fun x => ?_⟩
      · exact min_le_min_left _ (max_le_max_left _ hab)
      · rw [List.foldl_append, List.foldl_cons, List.foldl_nil, ih]
        simp only [clampTo]
        exact clamp_comp hab lo hi x

theorem clamp_idem {a b : K} (x : K) : clampTo a b (clampTo a b x) = clampTo a b x := by
  simp only [clampTo]
  simp only [max_def, min_def]; split_ifs <;> order

end passive

/-! ### The error of one limit as a total function -/

/-- Penalty for `x ≥ 0`. -/
noncomputable def hinge (x : ℝ) : ℝ := if x < 0 then x * x else 0
/-- Derivative of the penalty. -/
noncomputable def dhinge (x : ℝ) : ℝ := if x < 0 then 2 * x else 0

theorem hinge_nonneg (x : ℝ) : 0 ≤ hinge x := by
  unfold hinge; split
  · exact mul_self_nonneg x
  · exact le_rfl

theorem hinge_eq_zero {x : ℝ} : hinge x = 0 ↔ 0 ≤ x := by
  unfold hinge; split
  · rename_i h
    constructor
    · intro h2; have := mul_self_eq_zero.mp h2; linarith
    · intro h2; linarith
  · rename_i h; simpa using h

theorem hinge_eq_min (x : ℝ) : hinge x = min x 0 * min x 0 := by
  unfold hinge
  split
  · rename_i h; rw [min_eq_left h.le]
  · rename_i h; rw [min_eq_right (not_lt.mp h)]; ring

theorem hasDerivAt_hinge (x : ℝ) : HasDerivAt hinge (dhinge x) x := by
  unfold dhinge
  rcases lt_trichotomy x 0 with h | h | h
  · rw [if_pos h]
    have h1 : HasDerivAt (fun y : ℝ => y * y) (2 * x) x := by
      have := (hasDerivAt_id x).mul (hasDerivAt_id x)
      refine HasDerivAt.congr_deriv this ?_
      simp only [id]; ring
    refine h1.congr_of_eventuallyEq ?_
    filter_upwards [Iio_mem_nhds h] with y hy
    unfold hinge; rw [if_pos (show y < 0 from hy)]
  · subst h
    rw [if_neg (lt_irrefl _)]
    rw [hasDerivAt_iff_isLittleO]
    simp only [sub_zero, smul_zero]
    have h0 : hinge 0 = 0 := by unfold hinge; simp
    rw [h0]
    simp only [sub_zero]
    rw [Asymptotics.isLittleO_iff]
    intro c hc
    filter_upwards [Metric.ball_mem_nhds (0 : ℝ) hc] with y hy
    rw [Metric.mem_ball, dist_zero_right, Real.norm_eq_abs] at hy
    rw [Real.norm_eq_abs, Real.norm_eq_abs, abs_of_nonneg (hinge_nonneg y)]
    unfold hinge
    split
    · rw [← abs_mul_abs_self]; exact mul_le_mul_of_nonneg_right hy.le (abs_nonneg y)
    · positivity
  · rw [if_neg (not_lt.mpr h.le)]
    refine (hasDerivAt_const x (0 : ℝ)).congr_of_eventuallyEq ?_
    filter_upwards [Ioi_mem_nhds h] with y hy
    unfold hinge; rw [if_neg (not_lt.mpr (le_of_lt hy))]

namespace LimitErrorFunction

/-- Value of `errorOne` as a total function of parameter functions. -/
noncomputable def errVal (f : LimitErrorFunction) (p jp : Nat → ℝ) (l : ParameterLimit ℝ) : ℝ :=
  match l.data with
  | .minMax i lo hi => if f.enabledParameters.mem i then (hinge (p i - lo) + hinge (hi - p i)) * l.weight else 0
  | .minMaxJoint j d lo hi => if f.activeJointParams.getD (j * 7 + d) false
      then (hinge (jp (j * 7 + d) - lo) + hinge (hi - jp (j * 7 + d))) * l.weight else 0
  | .linear r t sc off rmin rmax =>
      if (f.enabledParameters.mem t || f.enabledParameters.mem r) && isInRange rmin rmax (p t)
      then (p t * sc - off - p r) * (p t * sc - off - p r) * l.weight else 0
  | .halfPlane a b n0 n1 off => if f.enabledParameters.mem a || f.enabledParameters.mem b
      then hinge (p a * n0 + p b * n1 - off) * l.weight else 0
  | _ => 0

/-- The derivative contribution of one limit for parameter `k`; `lw` is the weight used for linear and
half-plane limits. -/
noncomputable def gradVal (f : LimitErrorFunction) (lw : ℝ) (p jp : Nat → ℝ) (k : Nat) (l : ParameterLimit ℝ) : ℝ :=
  match l.data with
  | .minMax i lo hi => if f.enabledParameters.mem i
      then (if i = k then (dhinge (p i - lo) - dhinge (hi - p i)) * l.weight else 0) else 0
  | .minMaxJoint j d lo hi => if f.activeJointParams.getD (j * 7 + d) false
      then (dhinge (jp (j * 7 + d) - lo) - dhinge (hi - jp (j * 7 + d))) * l.weight
        * f.transform.coeff (j * 7 + d) k else 0
  | .linear r t sc off rmin rmax =>
      if isInRange rmin rmax (p t) then 2 * (p t * sc - off - p r) * lw *
        ((if t = k ∧ f.enabledParameters.mem t then sc else 0) - (if r = k ∧ f.enabledParameters.mem r then 1 else 0))
      else 0
  | .halfPlane a b n0 n1 off => dhinge (p a * n0 + p b * n1 - off) * lw *
      ((if a = k ∧ f.enabledParameters.mem a then n0 else 0) + (if b = k ∧ f.enabledParameters.mem b then n1 else 0))
  | _ => 0

variable {f : LimitErrorFunction} {n m : Nat} {params jp : List ℝ}

theorem test_mem {s : ParameterSet} {i : Nat} (h : i < 2048) : s.test i = some (s.mem i) := by
  unfold ParameterSet.test ParameterSet.mem
  rw [dif_pos (show i < kMaxModelParams from h), dif_pos (show i < kMaxModelParams from h)]

theorem getElem?_getD {α : Type} {l : List α} {i : Nat} (h : i < l.length) (d : α) : l[i]? = some (l.getD i d) := by
  rw [List.getElem?_eq_getElem h, List.getD_eq_getElem _ _ h]

theorem lo_part (x lo w : ℝ) : (if x < lo then (lo - x) * (lo - x) * w else 0) = hinge (x - lo) * w := by
  unfold hinge
  by_cases h : x < lo
  · rw [if_pos h, if_pos (by linarith)]; ring
  · rw [if_neg h, if_neg (by linarith)]; ring

theorem hi_part (x hi w : ℝ) : (if x > hi then (hi - x) * (hi - x) * w else 0) = hinge (hi - x) * w := by
  unfold hinge
  by_cases h : x > hi
  · rw [if_pos h, if_pos (by linarith)]
  · rw [if_neg h, if_neg (by linarith)]; ring

theorem errorOne_eq (hp : params.length = n) (hj : jp.length = m) (hn : n ≤ 2048)
    (ha : f.activeJointParams.length = m) {l : ParameterLimit ℝ} (h : LimitInRange n m l.data) :
    f.errorOne params jp l = some (f.errVal (params.getD · 0) (jp.getD · 0) l) := by
  obtain ⟨d, w⟩ := l
  cases d with
  | minMax i lo hi =>
    simp only [LimitInRange] at h
    simp only [errorOne, errVal]
    rw [if_pos (by omega), test_mem (by omega), getElem?_getD (by omega : i < params.length) (0 : ℝ)]
    simp only [Option.bind_eq_bind, Option.bind_some, lo_part, hi_part]
    split
    · congr 1; ring
    · rfl
  | minMaxJoint j d lo hi =>
    simp only [LimitInRange] at h
    simp only [errorOne, errVal]
    rw [getElem?_getD (by omega : j * 7 + d < jp.length) (0 : ℝ),
      getElem?_getD (by omega : j * 7 + d < f.activeJointParams.length) false]
    simp only [Option.bind_eq_bind, Option.bind_some, lo_part, hi_part]
    split
    · congr 1; ring
    · rfl
  | minMaxJointPassive j d lo hi => rfl
  | linear r t sc off rmin rmax =>
    simp only [LimitInRange] at h
    simp only [errorOne, errVal]
    rw [getElem?_getD (by omega : r < params.length) (0 : ℝ), getElem?_getD (by omega : t < params.length) (0 : ℝ),
      test_mem (by omega), test_mem (by omega)]
    simp only [Option.bind_eq_bind, Option.bind_some]
    split <;> rfl
  | halfPlane a b n0 n1 off =>
    simp only [LimitInRange] at h
    simp only [errorOne, errVal]
    rw [getElem?_getD (by omega : a < params.length) (0 : ℝ), getElem?_getD (by omega : b < params.length) (0 : ℝ),
      test_mem (by omega), test_mem (by omega)]
    simp only [Option.bind_eq_bind, Option.bind_some]
    split
    · unfold hinge
      split
      · rfl
      · rw [zero_mul]
    · rfl
  | ellipsoid a b => exact absurd h (by simp [LimitInRange])

theorem sumM {α : Type} (g : α → Option ℝ) (v : α → ℝ) (l : List α) (h : ∀ a ∈ l, g a = some (v a)) (x : ℝ) :
    l.foldlM (init := x) (fun acc a => do let e ← g a; some (acc + e)) = some (x + (l.map v).sum) := by
  induction l generalizing x with
  | nil => simp
  | cons a l ih =>
    rw [List.foldlM_cons, h a List.mem_cons_self]
    simp only [Option.bind_eq_bind, Option.bind_some]
    have := ih (fun a' ha' => h a' (List.mem_cons_of_mem _ ha')) (x + v a)
    simp only [Option.bind_eq_bind] at this
    rw [this, List.map_cons, List.sum_cons, add_assoc]

theorem getError_eq (hp : params.length = n) (hj : jp.length = m) (hn : n ≤ 2048) (hm : m = f.numJoints * 7)
    (ha : f.activeJointParams.length = m) (h : ∀ l ∈ f.limits, LimitInRange n m l.data) :
    f.getError params jp = some ((f.limits.map (f.errVal (params.getD · 0) (jp.getD · 0))).sum
      * kLimitWeight * f.weight) := by
  unfold getError
  rw [if_pos (by omega), sumM _ _ _ (fun l hl => errorOne_eq hp hj hn ha (h l hl)) 0]
  simp

theorem errVal_nonneg (p jp : Nat → ℝ) {l : ParameterLimit ℝ} (hw : 0 ≤ l.weight) : 0 ≤ f.errVal p jp l := by
  obtain ⟨d, w⟩ := l
  have hw : 0 ≤ w := hw
  have hh := hinge_nonneg
  cases d <;> simp only [errVal] <;> try exact le_rfl
  all_goals split
  all_goals first | exact le_rfl | skip
  · exact mul_nonneg (add_nonneg (hh _) (hh _)) hw
  · exact mul_nonneg (add_nonneg (hh _) (hh _)) hw
  · exact mul_nonneg (mul_self_nonneg _) hw
  · exact mul_nonneg (hh _) hw

theorem isInRange_iff {rmin rmax v : ℝ} :
    isInRange rmin rmax v = true ↔ (rmin = 0 ∧ rmax = 0) ∨ (rmin ≤ v ∧ v < rmax) := by
  unfold isInRange
  split
  · rename_i h; simp [h]
  · rename_i h; simp [h]

theorem errVal_eq_zero (p jp : Nat → ℝ) {l : ParameterLimit ℝ} (hw : 0 < l.weight) :
    f.errVal p jp l = 0 ↔
      LimitSatisfied f.enabledParameters.mem (f.activeJointParams.getD · false) p jp l.data := by
  obtain ⟨d, w⟩ := l
  have hw0 : w ≠ 0 := ne_of_gt hw
  have key : ∀ lo hi x : ℝ, (hinge (x - lo) + hinge (hi - x)) * w = 0 ↔ lo ≤ x ∧ x ≤ hi := by
    intro lo hi x
    rw [mul_eq_zero, or_iff_left hw0, add_eq_zero_iff_of_nonneg (hinge_nonneg _) (hinge_nonneg _),
      hinge_eq_zero, hinge_eq_zero, sub_nonneg, sub_nonneg]
  cases d with
  | minMax i lo hi =>
    simp only [errVal, LimitSatisfied]
    split
    · rename_i h; rw [key]; simp [h]
    · rename_i h; simp [h]
  | minMaxJoint j d lo hi =>
    simp only [errVal, LimitSatisfied]
    split
    · rename_i h; rw [key]; exact ⟨fun h' _ => h', fun h' => h' h⟩
    · rename_i h; simp only [true_iff]; intro h'; exact absurd h' h
  | minMaxJointPassive j d lo hi => simp [errVal, LimitSatisfied]
  | linear r t sc off rmin rmax =>
    simp only [errVal, LimitSatisfied]
    split
    · rename_i h
      rw [Bool.and_eq_true, Bool.or_eq_true, isInRange_iff] at h
      rw [mul_eq_zero, or_iff_left hw0, mul_self_eq_zero]
      constructor
      · intro h' _ _; linarith
      · intro h'; have := h' h.1 h.2; linarith
    · rename_i h
      rw [Bool.and_eq_true, Bool.or_eq_true, isInRange_iff] at h
      simp only [true_iff]
      intro h1 h2; exact absurd ⟨h1, h2⟩ h
  | halfPlane a b n0 n1 off =>
    simp only [errVal, LimitSatisfied]
    split
    · rename_i h
      rw [Bool.or_eq_true] at h
      rw [mul_eq_zero, or_iff_left hw0, hinge_eq_zero]
      constructor
      · intro h' _; linarith
      · intro h'; have := h' h; linarith
    · rename_i h
      rw [Bool.or_eq_true] at h
      simp only [true_iff]
      intro h1; exact absurd h1 h
  | ellipsoid a b => simp [errVal, LimitSatisfied]

/-! ### Derivatives -/

theorem isInRange_eventually {rmin rmax x : ℝ} (h : (rmin = 0 ∧ rmax = 0) ∨ (x ≠ rmin ∧ x ≠ rmax)) :
    ∀ᶠ y in nhds x, isInRange rmin rmax y = isInRange rmin rmax x := by
  rcases h with h | ⟨h1, h2⟩
  · exact Filter.Eventually.of_forall fun y => by unfold isInRange; rw [if_pos h, if_pos h]
  · rcases lt_or_gt_of_ne h1 with h1 | h1 <;> rcases lt_or_gt_of_ne h2 with h2 | h2
    · filter_upwards [Iio_mem_nhds h1] with y hy
      have hy : y < rmin := hy
      rw [Bool.eq_iff_iff, isInRange_iff, isInRange_iff]
      constructor <;> rintro (h | ⟨a, b⟩) <;> first | exact Or.inl h | linarith
    · filter_upwards [Iio_mem_nhds h1] with y hy
      have hy : y < rmin := hy
      rw [Bool.eq_iff_iff, isInRange_iff, isInRange_iff]
      constructor <;> rintro (h | ⟨a, b⟩) <;> first | exact Or.inl h | linarith
    · filter_upwards [Ioi_mem_nhds h1, Iio_mem_nhds h2] with y hy hy2
      have hy : rmin < y := hy
      have hy2 : y < rmax := hy2
      rw [Bool.eq_iff_iff, isInRange_iff, isInRange_iff]
      constructor <;> intro _ <;> right <;> constructor <;> linarith
    · filter_upwards [Ioi_mem_nhds h2] with y hy
      have hy : rmax < y := hy
      rw [Bool.eq_iff_iff, isInRange_iff, isInRange_iff]
      constructor <;> rintro (h | ⟨a, b⟩) <;> first | exact Or.inl h | linarith

theorem hasDerivAt_minmax {u : ℝ → ℝ} {c t0 : ℝ} (hu : HasDerivAt u c t0) (lo hi w : ℝ) :
    HasDerivAt (fun t => (hinge (u t - lo) + hinge (hi - u t)) * w)
      ((dhinge (u t0 - lo) - dhinge (hi - u t0)) * w * c) t0 := by
  have h1 := (hasDerivAt_hinge (u t0 - lo)).comp t0 (hu.sub_const lo)
  have h2 := (hasDerivAt_hinge (hi - u t0)).comp t0 (hu.const_sub hi)
  have := (h1.add h2).mul_const w
  refine HasDerivAt.congr_deriv this ?_
  ring

theorem hasDerivAt_errVal {P J : ℝ → Nat → ℝ} {k : Nat} {t0 : ℝ} (hk : f.enabledParameters.mem k = true)
    (hP : ∀ i, HasDerivAt (fun t => P t i) (if i = k then 1 else 0) t0)
    (hJ : ∀ i, HasDerivAt (fun t => J t i) (f.transform.coeff i k) t0)
    {l : ParameterLimit ℝ} (he : OffRangeEdge (P t0) l.data) :
    HasDerivAt (fun t => f.errVal (P t) (J t) l) (f.gradVal l.weight (P t0) (J t0) k l) t0 := by
  obtain ⟨d, w⟩ := l
  cases d with
  | minMax i lo hi =>
    simp only [errVal, gradVal]
    split
    · have := hasDerivAt_minmax (hP i) lo hi w
      refine HasDerivAt.congr_deriv this ?_
      split <;> ring
    · exact hasDerivAt_const _ _
  | minMaxJoint j d lo hi =>
    simp only [errVal, gradVal]
    split
    · exact hasDerivAt_minmax (hJ (j * 7 + d)) lo hi w
    · exact hasDerivAt_const _ _
  | minMaxJointPassive j d lo hi => exact hasDerivAt_const _ _
  | linear r t sc off rmin rmax =>
    simp only [errVal, gradVal]
    have hev : ∀ᶠ y in nhds t0, isInRange rmin rmax (P y t) = isInRange rmin rmax (P t0 t) :=
      (hP t).continuousAt.eventually (isInRange_eventually he)
    have hu : HasDerivAt (fun y => P y t * sc - off - P y r)
        ((if t = k then 1 else 0) * sc - (if r = k then 1 else 0)) t0 :=
      (((hP t).mul_const sc).sub_const off).sub (hP r)
    cases hin : isInRange rmin rmax (P t0 t) with
    | false =>
      simp only [Bool.false_eq_true, if_false]
      refine (hasDerivAt_const t0 (0 : ℝ)).congr_of_eventuallyEq ?_
      filter_upwards [hev] with y hy
      rw [hy, hin]; simp
    | true =>
      rw [if_pos rfl]
      by_cases hor : t = k ∨ r = k
      · have hen : (f.enabledParameters.mem t || f.enabledParameters.mem r) = true := by
          rcases hor with rfl | rfl <;> simp [hk]
        have h2 := (hu.mul hu).mul_const w
        refine HasDerivAt.congr_of_eventuallyEq (f := fun y => (P y t * sc - off - P y r) *
          (P y t * sc - off - P y r) * w) ?_ ?_
        · refine HasDerivAt.congr_deriv h2 ?_
          have e1 : (if t = k ∧ f.enabledParameters.mem t then sc else 0) = (if t = k then 1 else 0) * sc := by
            by_cases h : t = k
            · subst h; simp [hk]
            · simp [h]
          have e2 : (if r = k ∧ f.enabledParameters.mem r then (1 : ℝ) else 0) = (if r = k then 1 else 0) := by
            by_cases h : r = k
            · subst h; simp [hk]
            · simp [h]
          rw [e1, e2]
          ring
        · filter_upwards [hev] with y hy
          rw [hy, hin, hen]; simp
      · rw [not_or] at hor
        rw [if_neg (fun h => hor.1 h.1), if_neg (fun h => hor.2 h.1)]
        rw [if_neg hor.1, if_neg hor.2] at hu
        have h2 := (hu.mul hu).mul_const w
        by_cases hen : (f.enabledParameters.mem t || f.enabledParameters.mem r) = true
        · refine HasDerivAt.congr_of_eventuallyEq (f := fun y => (P y t * sc - off - P y r) *
            (P y t * sc - off - P y r) * w) ?_ ?_
          · refine HasDerivAt.congr_deriv h2 ?_
            ring
          · filter_upwards [hev] with y hy
            rw [hy, hin, hen]; simp
        · refine HasDerivAt.congr_deriv (f' := 0) ?_ (by ring)
          refine (hasDerivAt_const t0 (0 : ℝ)).congr_of_eventuallyEq ?_
          filter_upwards with y
          rw [if_neg]
          simp only [Bool.and_eq_true]; exact fun h => hen h.1
  | halfPlane a b n0 n1 off =>
    simp only [errVal, gradVal]
    have hu : HasDerivAt (fun y => P y a * n0 + P y b * n1 - off)
        ((if a = k then 1 else 0) * n0 + (if b = k then 1 else 0) * n1) t0 :=
      (((hP a).mul_const n0).add ((hP b).mul_const n1)).sub_const off
    have h2 := ((hasDerivAt_hinge (P t0 a * n0 + P t0 b * n1 - off)).comp t0 hu).mul_const w
    have e : ∀ (i : Nat) (c : ℝ), (if i = k ∧ f.enabledParameters.mem i then c else 0) = (if i = k then 1 else 0) * c := by
      intro i c
      by_cases h : i = k
      · subst h; simp [hk]
      · simp [h]
    rw [e, e]
    by_cases hen : (f.enabledParameters.mem a || f.enabledParameters.mem b) = true
    · simp only [hen, if_true]
      refine HasDerivAt.congr_deriv h2 ?_
      ring
    · have ha : a ≠ k := by rintro rfl; exact hen (by simp [hk])
      have hb : b ≠ k := by rintro rfl; exact hen (by simp [hk])
      simp only [hen, ha, hb, if_false]
      refine HasDerivAt.congr_deriv (hasDerivAt_const _ _) (by ring)
  | ellipsoid a b => exact hasDerivAt_const _ _

theorem hasDerivAt_list_sum {α : Type} (l : List α) (g : α → ℝ → ℝ) (g' : α → ℝ) (t0 : ℝ)
    (h : ∀ a ∈ l, HasDerivAt (g a) (g' a) t0) :
    HasDerivAt (fun t => (l.map fun a => g a t).sum) (l.map g').sum t0 := by
  induction l with
  | nil => simpa using hasDerivAt_const t0 (0 : ℝ)
  | cons a l ih =>
    simp only [List.map_cons, List.sum_cons]
    exact (h a List.mem_cons_self).add (ih fun b hb => h b (List.mem_cons_of_mem _ hb))

/-! ### The gradient accumulated by the code -/

theorem addAt_spec {g : List ℝ} {i : Nat} (h : i < g.length) (x : ℝ) :
    ∃ g', addAt g i x = some g' ∧ g'.length = g.length ∧
      ∀ k, g'.getD k 0 = g.getD k 0 + if i = k then x else 0 := by
  refine ⟨g.set i (g.getD i 0 + x), ?_, by simp, ?_⟩
  · unfold addAt; rw [getElem?_getD h (0 : ℝ)]; rfl
  · intro k
    rw [List.getD_eq_getElem?_getD, List.getD_eq_getElem?_getD (l := g) (i := k)]
    by_cases hk : i = k
    · subst hk
      rw [List.getElem?_set_self h, List.getElem?_eq_getElem h, List.getD_eq_getElem _ _ h]; simp
    · rw [List.getElem?_set_ne hk]; simp [hk]

theorem addEntries_spec (x : ℝ) (es : List (Triplet ℝ)) (g : List ℝ) (h : ∀ e ∈ es, e.col < g.length) :
    ∃ g', es.foldlM (init := g) (fun g e => addAt g e.col (x * e.val)) = some g' ∧ g'.length = g.length ∧
      ∀ k, g'.getD k 0 = g.getD k 0 + x * ((es.filter fun e => e.col == k).map (·.val)).sum := by
  induction es generalizing g with
  | nil => exact ⟨g, rfl, rfl, fun k => by simp⟩
  | cons e es ih =>
    obtain ⟨g1, h1, h2, h3⟩ := addAt_spec (h e List.mem_cons_self) (x * e.val)
    obtain ⟨g', h4, h5, h6⟩ := ih g1 fun e' he' => by rw [h2]; exact h e' (List.mem_cons_of_mem _ he')
    refine ⟨g', ?_, by rw [h5, h2], ?_⟩
    · rw [List.foldlM_cons, h1]; exact h4
    · intro k
      rw [h6, h3, List.filter_cons]
      by_cases hk : e.col = k
      · simp [hk]; ring
      · simp [hk]

theorem addRow_spec {A : SparseMat ℝ} {n : Nat} (hA : ∀ e ∈ A.entries, e.col < n) (row : Nat) (x : ℝ)
    {g : List ℝ} (hg : g.length = n) :
    ∃ g', addRow A row x g = some g' ∧ g'.length = n ∧
      ∀ k, g'.getD k 0 = g.getD k 0 + x * A.coeff row k := by
  obtain ⟨g', h1, h2, h3⟩ := addEntries_spec x (A.entries.filter (·.row == row)) g
    (fun e he => by rw [hg]; exact hA e (List.mem_filter.mp he).1)
  refine ⟨g', h1, by rw [h2, hg], fun k => ?_⟩
  rw [h3, SparseMat.coeff, List.filter_filter]
  congr 4
  apply List.filter_congr
  intro e _
  rw [Bool.and_comm]

/-- The error accumulated by `getGradient` for one limit. -/
noncomputable def gErr (f : LimitErrorFunction) (p jp : Nat → ℝ) (l : ParameterLimit ℝ) : ℝ :=
  match l.data with
  | .linear r t sc off rmin rmax => if isInRange rmin rmax (p t)
      then (p t * sc - off - p r) * (p t * sc - off - p r) * l.weight else 0
  | _ => f.errVal p jp l

theorem dlo (x lo : ℝ) : dhinge (x - lo) = if x < lo then 2 * (x - lo) else 0 := by
  unfold dhinge; simp only [sub_neg]
theorem dhi (x hi : ℝ) : dhinge (hi - x) = if x > hi then -(2 * (x - hi)) else 0 := by
  unfold dhinge; simp only [sub_neg, gt_iff_lt]; split <;> ring
theorem hlo (x lo : ℝ) : hinge (x - lo) = if x < lo then (x - lo) * (x - lo) else 0 := by
  unfold hinge; simp only [sub_neg]
theorem hhi (x hi : ℝ) : hinge (hi - x) = if x > hi then (x - hi) * (x - hi) else 0 := by
  unfold hinge; simp only [sub_neg, gt_iff_lt]; split <;> ring

theorem gradStep_spec (hp : params.length = n) (hj : jp.length = m) (hn : n ≤ 2048)
    (ha : f.activeJointParams.length = m) (hA : ∀ e ∈ f.transform.entries, e.col < n)
    {l : ParameterLimit ℝ} (h : LimitInRange n m l.data) (st : ℝ × List ℝ) (hst : st.2.length = n) :
    ∃ st', f.gradStep params jp st l = some st' ∧ st'.2.length = n ∧
      st'.1 = st.1 + kLimitWeight * f.weight * f.gErr (params.getD · 0) (jp.getD · 0) l ∧
      ∀ k, st'.2.getD k 0 = st.2.getD k 0 +
        kLimitWeight * f.weight * f.gradVal 1 (params.getD · 0) (jp.getD · 0) k l := by
  obtain ⟨d, w⟩ := l
  obtain ⟨e, g⟩ := st
  simp only at hst
  cases d with
  | minMax i lo hi =>
    simp only [LimitInRange] at h
    simp only [gradStep, gErr, errVal, gradVal]
    rw [test_mem (by omega), getElem?_getD (by omega : i < params.length) (0 : ℝ)]
    simp only [Option.bind_eq_bind, Option.bind_some]
    generalize params.getD i 0 = x
    cases hen : f.enabledParameters.mem i with
    | false => exact ⟨_, rfl, hst, by simp, by simp⟩
    | true =>
      simp only [if_true, dlo, dhi, hlo, hhi]
      by_cases h1 : x < lo
      · obtain ⟨g1, a1, a2, a3⟩ := addAt_spec (g := g) (i := i) (by omega) (2 * (x - lo) * (kLimitWeight * f.weight) * w)
        simp only [h1, if_true, a1, Option.bind_some]
        by_cases h2 : x > hi
        · obtain ⟨g2, b1, b2, b3⟩ := addAt_spec (g := g1) (i := i) (by omega) (2 * (x - hi) * (kLimitWeight * f.weight) * w)
          simp only [h2, if_true, b1, Option.bind_some]
          refine ⟨_, rfl, by simp only; omega, by simp only; ring, fun k => ?_⟩
          simp only [b3, a3]; split <;> ring
        · simp only [h2, if_false]
          refine ⟨_, rfl, by simp only; omega, by simp only; ring, fun k => ?_⟩
          simp only [a3]; split <;> ring
      · simp only [h1, if_false, Option.bind_some]
        by_cases h2 : x > hi
        · obtain ⟨g2, b1, b2, b3⟩ := addAt_spec (g := g) (i := i) (by omega) (2 * (x - hi) * (kLimitWeight * f.weight) * w)
          simp only [h2, if_true, b1, Option.bind_some]
          refine ⟨_, rfl, by simp only; omega, by simp only; ring, fun k => ?_⟩
          simp only [b3]; split <;> ring
        · simp only [h2, if_false]
          refine ⟨_, rfl, by simp only; omega, by simp only; ring, fun k => ?_⟩
          split <;> simp
  | minMaxJoint j d lo hi =>
    simp only [LimitInRange] at h
    simp only [gradStep, gErr, errVal, gradVal]
    rw [getElem?_getD (by omega : j * 7 + d < jp.length) (0 : ℝ),
      getElem?_getD (by omega : j * 7 + d < f.activeJointParams.length) false]
    simp only [Option.bind_eq_bind, Option.bind_some]
    generalize jp.getD (j * 7 + d) 0 = x
    cases hen : f.activeJointParams.getD (j * 7 + d) false with
    | false => exact ⟨_, rfl, hst, by simp, by simp⟩
    | true =>
      simp only [if_true, dlo, dhi, hlo, hhi]
      by_cases h1 : x < lo
      · obtain ⟨g1, a1, a2, a3⟩ := addRow_spec hA (j * 7 + d) (2 * (x - lo) * (kLimitWeight * f.weight) * w) hst
        simp only [h1, if_true, a1, Option.bind_some]
        by_cases h2 : x > hi
        · obtain ⟨g2, b1, b2, b3⟩ := addRow_spec hA (j * 7 + d) (2 * (x - hi) * (kLimitWeight * f.weight) * w) a2
          simp only [h2, if_true, b1, Option.bind_some]
          refine ⟨_, rfl, by simp only; omega, by simp only; ring, fun k => ?_⟩
          simp only [b3, a3]; ring
        · simp only [h2, if_false]
          refine ⟨_, rfl, by simp only; omega, by simp only; ring, fun k => ?_⟩
          simp only [a3]; ring
      · simp only [h1, if_false, Option.bind_some]
        by_cases h2 : x > hi
        · obtain ⟨g2, b1, b2, b3⟩ := addRow_spec hA (j * 7 + d) (2 * (x - hi) * (kLimitWeight * f.weight) * w) hst
          simp only [h2, if_true, b1, Option.bind_some]
          refine ⟨_, rfl, by simp only; omega, by simp only; ring, fun k => ?_⟩
          simp only [b3]; ring
        · simp only [h2, if_false]
          refine ⟨_, rfl, by simp only; omega, by simp only; ring, fun k => ?_⟩
          simp
  | minMaxJointPassive j d lo hi => exact ⟨_, rfl, hst, by simp [gErr, errVal], by simp [gradVal]⟩
  | linear r t sc off rmin rmax =>
    simp only [LimitInRange] at h
    simp only [gradStep, gErr, errVal, gradVal]
    rw [getElem?_getD (by omega : r < params.length) (0 : ℝ), getElem?_getD (by omega : t < params.length) (0 : ℝ),
      test_mem (by omega), test_mem (by omega)]
    simp only [Option.bind_eq_bind, Option.bind_some]
    generalize params.getD r 0 = xr
    generalize params.getD t 0 = xt
    cases hin : isInRange rmin rmax xt with
    | false => exact ⟨_, rfl, hst, by simp, by simp⟩
    | true =>
      simp only [if_true]
      obtain ⟨g1, a1, a2, a3⟩ : ∃ g1, addAtIf (f.enabledParameters.mem t) (g) t (2 * (xt * sc - off - xr) * sc * (kLimitWeight * f.weight)) = some g1 ∧
          g1.length = n ∧ ∀ k, g1.getD k 0 = g.getD k 0 +
            2 * (xt * sc - off - xr) * (kLimitWeight * f.weight) * (if t = k ∧ f.enabledParameters.mem t then sc else 0) := by
        cases hen : f.enabledParameters.mem t with
        | false => exact ⟨g, by simp [addAtIf, setAtIf], hst, by simp⟩
        | true =>
          obtain ⟨g1, a1, a2, a3⟩ := addAt_spec (g := g) (i := t) (by omega)
            (2 * (xt * sc - off - xr) * sc * (kLimitWeight * f.weight))
          refine ⟨g1, by simpa [addAtIf, setAtIf] using a1, by omega, fun k => ?_⟩
          rw [a3]; simp only [and_true]; split <;> ring
      rw [a1]
      simp only [Option.bind_some]
      obtain ⟨g2, b1, b2, b3⟩ : ∃ g2, addAtIf (f.enabledParameters.mem r) (g1) r (-(2 * (xt * sc - off - xr) * (kLimitWeight * f.weight))) = some g2 ∧
          g2.length = n ∧ ∀ k, g2.getD k 0 = g1.getD k 0 -
            2 * (xt * sc - off - xr) * (kLimitWeight * f.weight) * (if r = k ∧ f.enabledParameters.mem r then 1 else 0) := by
        cases hen : f.enabledParameters.mem r with
        | false => exact ⟨g1, by simp [addAtIf, setAtIf], a2, by simp⟩
        | true =>
          obtain ⟨g2, b1, b2, b3⟩ := addAt_spec (g := g1) (i := r) (by omega)
            (-(2 * (xt * sc - off - xr) * (kLimitWeight * f.weight)))
          refine ⟨g2, by simpa [addAtIf, setAtIf] using b1, by omega, fun k => ?_⟩
          rw [b3]; simp only [and_true]; split <;> ring
      rw [b1]
      refine ⟨_, rfl, b2, by simp only; ring, fun k => ?_⟩
      simp only [b3, a3]; ring
  | halfPlane a b n0 n1 off =>
    simp only [LimitInRange] at h
    simp only [gradStep, gErr, errVal, gradVal]
    rw [getElem?_getD (by omega : a < params.length) (0 : ℝ), getElem?_getD (by omega : b < params.length) (0 : ℝ),
      test_mem (by omega), test_mem (by omega)]
    simp only [Option.bind_eq_bind, Option.bind_some]
    generalize params.getD a 0 = xa
    generalize params.getD b 0 = xb
    cases hen : (f.enabledParameters.mem a || f.enabledParameters.mem b) with
    | false =>
      rw [Bool.or_eq_false_iff] at hen
      exact ⟨_, rfl, hst, by simp, by simp [hen.1, hen.2]⟩
    | true =>
      simp only [if_true, hinge, dhinge]
      by_cases hr : xa * n0 + xb * n1 - off < 0
      · simp only [hr, if_true]
        obtain ⟨g1, a1, a2, a3⟩ : ∃ g1, addAtIf (f.enabledParameters.mem a) (g) a (2 * (xa * n0 + xb * n1 - off) * n0 * (kLimitWeight * f.weight)) = some g1 ∧
            g1.length = n ∧ ∀ k, g1.getD k 0 = g.getD k 0 +
              2 * (xa * n0 + xb * n1 - off) * (kLimitWeight * f.weight) * (if a = k ∧ f.enabledParameters.mem a then n0 else 0) := by
          cases hen : f.enabledParameters.mem a with
          | false => exact ⟨g, by simp [addAtIf, setAtIf], hst, by simp⟩
          | true =>
            obtain ⟨g1, a1, a2, a3⟩ := addAt_spec (g := g) (i := a) (by omega)
              (2 * (xa * n0 + xb * n1 - off) * n0 * (kLimitWeight * f.weight))
            refine ⟨g1, by simpa [addAtIf, setAtIf] using a1, by omega, fun k => ?_⟩
            rw [a3]; simp only [and_true]; split <;> ring
        rw [a1]
        simp only [Option.bind_some]
        obtain ⟨g2, b1, b2, b3⟩ : ∃ g2, addAtIf (f.enabledParameters.mem b) (g1) b (2 * (xa * n0 + xb * n1 - off) * n1 * (kLimitWeight * f.weight)) = some g2 ∧
            g2.length = n ∧ ∀ k, g2.getD k 0 = g1.getD k 0 +
              2 * (xa * n0 + xb * n1 - off) * (kLimitWeight * f.weight) * (if b = k ∧ f.enabledParameters.mem b then n1 else 0) := by
          cases hen : f.enabledParameters.mem b with
          | false => exact ⟨g1, by simp [addAtIf, setAtIf], a2, by simp⟩
          | true =>
            obtain ⟨g2, b1, b2, b3⟩ := addAt_spec (g := g1) (i := b) (by omega)
              (2 * (xa * n0 + xb * n1 - off) * n1 * (kLimitWeight * f.weight))
            refine ⟨g2, by simpa [addAtIf, setAtIf] using b1, by omega, fun k => ?_⟩
            rw [b3]; simp only [and_true]; split <;> ring
        rw [b1]
        refine ⟨_, rfl, b2, by simp only; ring, fun k => ?_⟩
        simp only [b3, a3]; ring
      · simp only [hr, if_false]
        exact ⟨_, rfl, hst, by simp, by simp⟩
  | ellipsoid a b => exact absurd h (by simp [LimitInRange])

theorem getGradient_spec (hp : params.length = n) (hj : jp.length = m) (hn : n ≤ 2048)
    (ha : f.activeJointParams.length = m) (hA : ∀ e ∈ f.transform.entries, e.col < n)
    (L : List (ParameterLimit ℝ)) (h : ∀ l ∈ L, LimitInRange n m l.data) (st : ℝ × List ℝ) (hst : st.2.length = n) :
    ∃ st', L.foldlM (f.gradStep params jp) st = some st' ∧ st'.2.length = n ∧
      st'.1 = st.1 + kLimitWeight * f.weight * (L.map (f.gErr (params.getD · 0) (jp.getD · 0))).sum ∧
      ∀ k, st'.2.getD k 0 = st.2.getD k 0 +
        kLimitWeight * f.weight * (L.map (f.gradVal 1 (params.getD · 0) (jp.getD · 0) k)).sum := by
  induction L generalizing st with
  | nil => exact ⟨st, rfl, hst, by simp, by simp⟩
  | cons l L ih =>
    obtain ⟨s1, h1, h2, h3, h4⟩ := gradStep_spec hp hj hn ha hA (h l List.mem_cons_self) st hst
    obtain ⟨s2, h5, h6, h7, h8⟩ := ih (fun l' hl' => h l' (List.mem_cons_of_mem _ hl')) s1 h2
    refine ⟨s2, by rw [List.foldlM_cons, h1]; exact h5, h6, ?_, fun k => ?_⟩
    · rw [h7, h3, List.map_cons, List.sum_cons]; ring
    · rw [h8, h4, List.map_cons, List.sum_cons]; ring

/-! ### The Jacobian -/

theorem setAt_spec {g : List ℝ} {i : Nat} (h : i < g.length) (x : ℝ) :
    ∃ g', setAt g i x = some g' ∧ g'.length = g.length ∧
      ∀ k, g'.getD k 0 = if i = k then x else g.getD k 0 := by
  refine ⟨g.set i x, by unfold setAt; rw [if_pos h], by simp, fun k => ?_⟩
  rw [List.getD_eq_getElem?_getD, List.getD_eq_getElem?_getD]
  by_cases hk : i = k
  · subst hk; rw [List.getElem?_set_self h]; simp
  · rw [List.getElem?_set_ne hk]; simp [hk]

theorem zero_getD (n k : Nat) : (List.replicate n (0 : ℝ)).getD k 0 = 0 := by
  rw [List.getD_eq_getElem?_getD, List.getElem?_replicate]; split <;> rfl

/-- Rows of one limit as counted by `getJacobianSize`. -/
def rowsOf (l : ParameterLimit ℝ) : Nat :=
  match l.data with
  | .minMax .. | .minMaxJoint .. => 1
  | .minMaxJointPassive .. => 0
  | .linear .. => 1
  | .halfPlane .. => 1
  | .ellipsoid .. => 3

theorem jacRows_spec (hp : params.length = n) (hj : jp.length = m) (hn : n ≤ 2048)
    (ha : f.activeJointParams.length = m) (hA : ∀ e ∈ f.transform.entries, e.col < n)
    {l : ParameterLimit ℝ} (h : LimitInRange n m l.data) (hw : 0 ≤ l.weight) (hfw : 0 ≤ f.weight)
    (ho : OrderedIntervals [l]) :
    ∃ rows, f.jacRows n params jp l = some rows ∧ rows.length = rowsOf l ∧ (∀ r ∈ rows, r.row.length = n) ∧
      (rows.map fun r => r.residual * r.residual).sum
        = f.errVal (params.getD · 0) (jp.getD · 0) l * kLimitWeight * f.weight ∧
      (rows.map fun r => r.error).sum
        = f.errVal (params.getD · 0) (jp.getD · 0) l * kLimitWeight * f.weight ∧
      (DistinctPairs [l] → ∀ k, f.enabledParameters.mem k = true → (rows.map fun r => 2 * r.residual * r.row.getD k 0).sum
        = f.gradVal l.weight (params.getD · 0) (jp.getD · 0) k l * kLimitWeight * f.weight) := by
  obtain ⟨d, w⟩ := l
  simp only at hw
  have hsq : Real.sqrt (kLimitWeight * f.weight * w) * Real.sqrt (kLimitWeight * f.weight * w)
      = kLimitWeight * f.weight * w :=
    Real.mul_self_sqrt (mul_nonneg (mul_nonneg (by unfold kLimitWeight; norm_num) hfw) hw)
  have ho := ho _ List.mem_cons_self
  cases d with
  | minMax i lo hi =>
    simp only at ho
    simp only [LimitInRange] at h
    simp only [jacRows, errVal, gradVal]
    generalize Real.sqrt (kLimitWeight * f.weight * w) = q at hsq ⊢
    rw [test_mem (by omega), getElem?_getD (by omega : i < params.length) (0 : ℝ)]
    simp only [Option.bind_eq_bind, Option.bind_some]
    generalize params.getD i 0 = x
    obtain ⟨row, r1, r2, r3⟩ := setAt_spec (g := List.replicate n (0 : ℝ)) (i := i) (by simpa using h) q
    simp only [zero_getD] at r3
    simp only [r1, Option.bind_some]
    simp only [List.length_replicate] at r2
    cases hen : f.enabledParameters.mem i with
    | false => exact ⟨_, rfl, rfl, by simp, by simp, by simp, by simp⟩
    | true =>
      simp only [if_true, dlo, dhi, hlo, hhi]
      by_cases h1 : x < lo
      · have h2 : ¬ x > hi := by linarith
        simp only [h1, h2, if_true, if_false]
        refine ⟨_, rfl, rfl, by simpa using r2, ?_, ?_, ?_⟩
        · simp only [List.map_cons, List.map_nil, List.sum_cons, List.sum_nil]
          linear_combination (x - lo) * (x - lo) * hsq
        · simp only [List.map_cons, List.map_nil, List.sum_cons, List.sum_nil]; ring
        · intro _ k _
          simp only [List.map_cons, List.map_nil, List.sum_cons, List.sum_nil, r3]
          split
          · linear_combination 2 * (x - lo) * hsq
          · ring
      · by_cases h2 : x > hi
        · simp only [h1, h2, if_true, if_false]
          refine ⟨_, rfl, rfl, by simpa using r2, ?_, ?_, ?_⟩
          · simp only [List.map_cons, List.map_nil, List.sum_cons, List.sum_nil]
            linear_combination (x - hi) * (x - hi) * hsq
          · simp only [List.map_cons, List.map_nil, List.sum_cons, List.sum_nil]; ring
          · intro _ k _
            simp only [List.map_cons, List.map_nil, List.sum_cons, List.sum_nil, r3]
            split
            · linear_combination 2 * (x - hi) * hsq
            · ring
        · simp only [h1, h2, if_false]
          exact ⟨_, rfl, rfl, by simp, by simp, by simp, by simp⟩
  | minMaxJoint j d lo hi =>
    simp only at ho
    simp only [LimitInRange] at h
    simp only [jacRows, errVal, gradVal]
    generalize Real.sqrt (kLimitWeight * f.weight * w) = q at hsq ⊢
    rw [getElem?_getD (by omega : j * 7 + d < jp.length) (0 : ℝ),
      getElem?_getD (by omega : j * 7 + d < f.activeJointParams.length) false]
    simp only [Option.bind_eq_bind, Option.bind_some]
    generalize jp.getD (j * 7 + d) 0 = x
    obtain ⟨row, r1, r2, r3⟩ := addRow_spec hA (j * 7 + d) q (g := List.replicate n (0 : ℝ)) (by simp)
    simp only [zero_getD, zero_add] at r3
    simp only [r1, Option.bind_some]
    cases hen : f.activeJointParams.getD (j * 7 + d) false with
    | false => exact ⟨_, rfl, rfl, by simp, by simp, by simp, by simp⟩
    | true =>
      simp only [if_true, dlo, dhi, hlo, hhi]
      by_cases h1 : x < lo
      · have h2 : ¬ x > hi := by linarith
        simp only [h1, h2, if_true, if_false]
        refine ⟨_, rfl, rfl, by simpa using r2, ?_, ?_, ?_⟩
        · simp only [List.map_cons, List.map_nil, List.sum_cons, List.sum_nil]
          linear_combination (x - lo) * (x - lo) * hsq
        · simp only [List.map_cons, List.map_nil, List.sum_cons, List.sum_nil]; ring
        · intro _ k _
          simp only [List.map_cons, List.map_nil, List.sum_cons, List.sum_nil, r3]
          linear_combination 2 * (x - lo) * f.transform.coeff (j * 7 + d) k * hsq
      · by_cases h2 : x > hi
        · simp only [h1, h2, if_true, if_false]
          refine ⟨_, rfl, rfl, by simpa using r2, ?_, ?_, ?_⟩
          · simp only [List.map_cons, List.map_nil, List.sum_cons, List.sum_nil]
            linear_combination (x - hi) * (x - hi) * hsq
          · simp only [List.map_cons, List.map_nil, List.sum_cons, List.sum_nil]; ring
          · intro _ k _
            simp only [List.map_cons, List.map_nil, List.sum_cons, List.sum_nil, r3]
            linear_combination 2 * (x - hi) * f.transform.coeff (j * 7 + d) k * hsq
        · simp only [h1, h2, if_false]
          exact ⟨_, rfl, rfl, by simp, by simp, by simp, by simp⟩
  | minMaxJointPassive j d lo hi => exact ⟨_, rfl, rfl, by simp, by simp [errVal], by simp [errVal], by simp [gradVal]⟩
  | linear r t sc off rmin rmax =>
    simp only [LimitInRange] at h
    simp only [jacRows, errVal, gradVal]
    generalize Real.sqrt (kLimitWeight * f.weight * w) = q at hsq ⊢
    rw [getElem?_getD (by omega : r < params.length) (0 : ℝ), getElem?_getD (by omega : t < params.length) (0 : ℝ),
      test_mem (by omega), test_mem (by omega)]
    simp only [Option.bind_eq_bind, Option.bind_some]
    generalize params.getD r 0 = xr
    generalize params.getD t 0 = xt
    cases hc : (f.enabledParameters.mem t || f.enabledParameters.mem r) && isInRange rmin rmax xt with
    | false =>
      refine ⟨_, rfl, rfl, by simp, by simp, by simp, ?_⟩
      intro hd k hk
      simp only [List.map_cons, List.map_nil, List.sum_cons, List.sum_nil, mul_zero, zero_mul, add_zero]
      split
      · rename_i hin
        rw [hin, Bool.and_true, Bool.or_eq_false_iff] at hc
        simp [hc.1, hc.2]
      · ring
    | true =>
      rw [Bool.and_eq_true] at hc
      simp only [if_true, hc.2]
      obtain ⟨g1, a1, a2, a3⟩ : ∃ g1, setAtIf (f.enabledParameters.mem t) (List.replicate n 0) t (sc * q) = some g1 ∧
          g1.length = n ∧ ∀ k, g1.getD k 0 = if t = k ∧ f.enabledParameters.mem t then sc * q else 0 := by
        cases hen : f.enabledParameters.mem t with
        | false => exact ⟨List.replicate n 0, by simp [addAtIf, setAtIf], by simp, fun k => by rw [zero_getD]; simp⟩
        | true =>
          obtain ⟨g1, a1, a2, a3⟩ := setAt_spec (g := List.replicate n (0 : ℝ)) (i := t) (by simpa using h.2) (sc * q)
          simp only [zero_getD] at a3
          exact ⟨g1, by simpa [addAtIf, setAtIf] using a1, by simpa using a2, fun k => by rw [a3]; simp⟩
      rw [a1]
      simp only [Option.bind_some]
      obtain ⟨g2, b1, b2, b3⟩ : ∃ g2, setAtIf (f.enabledParameters.mem r) (g1) r (-q) = some g2 ∧
          g2.length = n ∧ ∀ k, g2.getD k 0 = if r = k ∧ f.enabledParameters.mem r then -q else g1.getD k 0 := by
        cases hen : f.enabledParameters.mem r with
        | false => exact ⟨g1, by simp [addAtIf, setAtIf], a2, by simp⟩
        | true =>
          obtain ⟨g2, b1, b2, b3⟩ := setAt_spec (g := g1) (i := r) (by omega) (-q)
          exact ⟨g2, by simpa [addAtIf, setAtIf] using b1, by omega, fun k => by rw [b3]; simp⟩
      rw [b1]
      refine ⟨_, rfl, rfl, by simpa using b2, ?_, ?_, ?_⟩
      · simp only [List.map_cons, List.map_nil, List.sum_cons, List.sum_nil]
        linear_combination (xt * sc - off - xr) * (xt * sc - off - xr) * hsq
      · simp only [List.map_cons, List.map_nil, List.sum_cons, List.sum_nil]; ring
      · intro hd k hk
        have hd := hd _ List.mem_cons_self
        simp only at hd
        simp only [List.map_cons, List.map_nil, List.sum_cons, List.sum_nil, b3, a3]
        by_cases h1 : r = k ∧ f.enabledParameters.mem r = true
        · have h2 : ¬ (t = k ∧ f.enabledParameters.mem t = true) := fun h' => hd (h1.1.trans h'.1.symm)
          rw [if_pos h1, if_pos h1, if_neg h2]
          linear_combination -2 * (xt * sc - off - xr) * hsq
        · rw [if_neg h1, if_neg h1]
          split
          · linear_combination 2 * (xt * sc - off - xr) * sc * hsq
          · ring
  | halfPlane a b n0 n1 off =>
    simp only [LimitInRange] at h
    simp only [jacRows, errVal, gradVal]
    generalize Real.sqrt (kLimitWeight * f.weight * w) = q at hsq ⊢
    rw [getElem?_getD (by omega : a < params.length) (0 : ℝ), getElem?_getD (by omega : b < params.length) (0 : ℝ),
      test_mem (by omega), test_mem (by omega)]
    simp only [Option.bind_eq_bind, Option.bind_some]
    generalize params.getD a 0 = xa
    generalize params.getD b 0 = xb
    cases hen : (f.enabledParameters.mem a || f.enabledParameters.mem b) with
    | false =>
      rw [Bool.or_eq_false_iff] at hen
      exact ⟨_, rfl, rfl, by simp, by simp, by simp, by simp [hen.1, hen.2]⟩
    | true =>
      simp only [if_true, hinge, dhinge]
      by_cases hr : xa * n0 + xb * n1 - off < 0
      · simp only [hr, if_true]
        obtain ⟨g1, a1, a2, a3⟩ : ∃ g1, setAtIf (f.enabledParameters.mem a) (List.replicate n 0) a (n0 * q) = some g1 ∧
            g1.length = n ∧ ∀ k, g1.getD k 0 = if a = k ∧ f.enabledParameters.mem a then n0 * q else 0 := by
          cases hen : f.enabledParameters.mem a with
          | false => exact ⟨List.replicate n 0, by simp [addAtIf, setAtIf], by simp, fun k => by rw [zero_getD]; simp⟩
          | true =>
            obtain ⟨g1, a1, a2, a3⟩ := setAt_spec (g := List.replicate n (0 : ℝ)) (i := a) (by simpa using h.1) (n0 * q)
            simp only [zero_getD] at a3
            exact ⟨g1, by simpa [addAtIf, setAtIf] using a1, by simpa using a2, fun k => by rw [a3]; simp⟩
        rw [a1]
        simp only [Option.bind_some]
        obtain ⟨g2, b1, b2, b3⟩ : ∃ g2, setAtIf (f.enabledParameters.mem b) (g1) b (n1 * q) = some g2 ∧
            g2.length = n ∧ ∀ k, g2.getD k 0 = if b = k ∧ f.enabledParameters.mem b then n1 * q else g1.getD k 0 := by
          cases hen : f.enabledParameters.mem b with
          | false => exact ⟨g1, by simp [addAtIf, setAtIf], a2, by simp⟩
          | true =>
            obtain ⟨g2, b1, b2, b3⟩ := setAt_spec (g := g1) (i := b) (by omega) (n1 * q)
            exact ⟨g2, by simpa [addAtIf, setAtIf] using b1, by omega, fun k => by rw [b3]; simp⟩
        rw [b1]
        refine ⟨_, rfl, rfl, by simpa using b2, ?_, ?_, ?_⟩
        · simp only [List.map_cons, List.map_nil, List.sum_cons, List.sum_nil]
          linear_combination (xa * n0 + xb * n1 - off) * (xa * n0 + xb * n1 - off) * hsq
        · simp only [List.map_cons, List.map_nil, List.sum_cons, List.sum_nil]; ring
        · intro hd k hk
          have hd := hd _ List.mem_cons_self
          simp only at hd
          simp only [List.map_cons, List.map_nil, List.sum_cons, List.sum_nil, b3, a3]
          by_cases h1 : b = k ∧ f.enabledParameters.mem b = true
          · have h2 : ¬ (a = k ∧ f.enabledParameters.mem a = true) := fun h' => hd (h'.1.trans h1.1.symm)
            rw [if_pos h1, if_pos h1, if_neg h2]
            linear_combination 2 * (xa * n0 + xb * n1 - off) * n1 * hsq
          · rw [if_neg h1, if_neg h1]
            split
            · linear_combination 2 * (xa * n0 + xb * n1 - off) * n0 * hsq
            · ring
      · simp only [hr, if_false]
        exact ⟨_, rfl, rfl, by simp, by simp, by simp, by simp⟩
  | ellipsoid a b => exact absurd h (by simp [LimitInRange])

end LimitErrorFunction
end Momentum
