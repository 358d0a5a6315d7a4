import Verif.Lemmas.TensorState
import Verif.Props.Skeleton

/-!
# C71: the backward passes of joint parameters → joint transforms and of joint parameters → points
-/

namespace Momentum
open Skeleton

namespace TensorState

/-- The states along a change of one parameter. -/
theorem states_along {s : Skeleton ℝ} (hv : s.Valid) {params : List ℝ} (hl : params.length = s.joints.length * 7) :
    ∃ S : Nat → Fin 7 → ℝ → List JointState, ∀ a (k : Fin 7) u, skeletonState s (params.set (7 * a + k) u) true = some (S a k u) ∧
      FKGood s (params.set (7 * a + k) u) true (S a k u) ∧ (S a k u).length = s.joints.length := by
  have : ∀ a (k : Fin 7) u, ∃ r, skeletonState s (params.set (7 * a + k) u) true = some r ∧
      FKGood s (params.set (7 * a + k) u) true r ∧ r.length = s.joints.length :=
    fun a k u => skeletonState_good hv true (by rw [List.length_set]; exact hl)
  choose S hS using this
  exact ⟨S, hS⟩

theorem gradient_of {s : Skeleton ℝ} {params : List ℝ} (hl : params.length = s.joints.length * 7) {L : List ℝ → ℝ} {g : Nat → ℝ}
    (h : ∀ a, a < s.joints.length → ∀ k : Fin 7, HasDerivAt (fun u => L (params.set (7 * a + k) u)) (g (7 * a + k))
      (jointSlice params a k)) : IsGradientOf L params g := by
  intro n hn
  have := h (n / 7) (by omega) ⟨n % 7, Nat.mod_lt _ (by norm_num)⟩
  have e : 7 * (n / 7) + n % 7 = n := Nat.div_add_mod n 7
  simp only [jointSlice, e] at this
  exact this

theorem range_sum (n : Nat) (f g : Nat → ℝ) (h : ∀ i < n, f i = g i) :
    ((List.range n).map f).sum = ((List.range n).map g).sum := by
  congr 1
  exact List.map_congr_left fun i hi => h i (List.mem_range.1 hi)

theorem weighted_world (w : Nat → ℝ) (states : List JointState) :
    weightedRows w (states.map fun js => stateCoords js.transform) =
      ((List.range states.length).map fun i => weightedT (segment8 w i) (worldOf states (some i))).sum := by
  unfold weightedRows
  rw [List.length_map]
  refine range_sum _ _ _ fun i hi => ?_
  have : states[i]? = some states[i] := List.getElem?_eq_getElem hi
  simp [weightedT, segment8, worldOf, this]

theorem weighted_local (w : Nat → ℝ) (states : List JointState) :
    weightedRows w (states.map fun js => stateCoords js.localTransform) =
      ((List.range states.length).map fun i => weightedT (segment8 w i) (stateAt states i).localTransform).sum := by
  unfold weightedRows
  rw [List.length_map]
  refine range_sum _ _ _ fun i hi => ?_
  have : states[i]? = some states[i] := List.getElem?_eq_getElem hi
  simp [weightedT, segment8, stateAt_eq this, this]

theorem keep_rows {prec : ℝ} {w : Nat → ℝ} {n : Nat}
    (h : ∀ i < n, (∀ c : Fin 8, w (8 * i + c) = 0) ∨ ∃ c : Fin 8, prec < |w (8 * i + c)|)
    (rows : List (Fin 8 → ℝ)) (hr : rows.length = n) : weightedRows (dropSmallRows prec w) rows = weightedRows w rows := by
  unfold weightedRows
  refine range_sum _ _ _ fun i hi => Finset.sum_congr rfl fun c _ => ?_
  congr 1
  unfold dropSmallRows
  have hdiv : (8 * i + c.val) / 8 = i := by omega
  rw [hdiv]
  split
  · next hs =>
    rcases h i (hr ▸ hi) with h0 | ⟨c', hc'⟩
    · exact (h0 c).symm
    · exact absurd (hs c') (not_le.2 hc')
  · rfl

end TensorState

open TensorState

/-- C71: the gradient returned for joint parameters → world transforms is that of the weighted sum of the outputs, with the weights
of a joint replaced by zero when none of the eight is larger than the tolerance. -/
theorem C71_state_backward (prec : ℝ) (s : Skeleton ℝ) (hv : s.Valid) (hpre : ∀ jt ∈ s.joints, jt.preRotation.normSq = 1)
    (params : List ℝ) (hl : params.length = s.joints.length * 7) (w : Nat → ℝ) :
    ∃ g, computeSkelStateBackward prec s params w = some g ∧
      IsGradientOf (fun p => (jointParametersToSkeletonState s p).elim 0 (weightedRows (dropSmallRows prec w))) params g := by
  obtain ⟨st, e0, hst, hsl⟩ := skeletonState_good hv true hl
  obtain ⟨S, hS⟩ := states_along hv hl
  obtain ⟨g, h1, h2⟩ := stateBackward_fold hv hpre hl hst hsl (fun a k u => (hS a k u).2.1) (fun a k u => (hS a k u).2.2)
    prec w (List.range s.joints.length) (fun i hi => List.mem_range.1 hi) fun _ => 0
  refine ⟨g, by rw [computeSkelStateBackward, e0]; exact h1, gradient_of hl fun a ha k => ?_⟩
  refine hasDerivAt_congr (h2 a ha k) (fun u => ?_) (by simp)
  simp only [jointParametersToSkeletonState, (hS a k u).1, Option.map_some, Option.elim_some]
  rw [weighted_world, (hS a k u).2.2]

/-- C71, partial: it is the gradient of the weighted sum itself, provided that the weights of each joint are all zero or one of them
is larger than the tolerance.  (The full claim, without this condition, is false: `C71_small_weights_dropped`.) -/
theorem C71_state_gradient_partial (prec : ℝ) (s : Skeleton ℝ) (hv : s.Valid)
    (hpre : ∀ jt ∈ s.joints, jt.preRotation.normSq = 1) (params : List ℝ) (hl : params.length = s.joints.length * 7)
    (w : Nat → ℝ) (hw : ∀ i < s.joints.length, (∀ c : Fin 8, w (8 * i + c) = 0) ∨ ∃ c : Fin 8, prec < |w (8 * i + c)|) :
    ∃ g, computeSkelStateBackward prec s params w = some g ∧
      IsGradientOf (fun p => (jointParametersToSkeletonState s p).elim 0 (weightedRows w)) params g := by
  obtain ⟨g, h1, h2⟩ := C71_state_backward prec s hv hpre params hl w
  refine ⟨g, h1, fun n hn => hasDerivAt_congr (h2 n hn) (fun u => ?_) rfl⟩
  obtain ⟨st, e0, _, hsl⟩ := skeletonState_good hv (params := params.set n u) true (by rw [List.length_set]; exact hl)
  simp only [jointParametersToSkeletonState, e0, Option.map_some, Option.elim_some]
  exact (keep_rows hw _ (by rw [List.length_map, hsl])).symm

/-- C71: the same for joint parameters → transforms relative to the parents. -/
theorem C71_local_backward (prec : ℝ) (s : Skeleton ℝ) (hv : s.Valid)
    (params : List ℝ) (hl : params.length = s.joints.length * 7) (w : Nat → ℝ) :
    ∃ g, computeLocalSkelStateBackward prec s params w = some g ∧
      IsGradientOf (fun p => (jointParametersToLocalSkeletonState s p).elim 0 (weightedRows (dropSmallRows prec w))) params g := by
  obtain ⟨st, e0, hst, hsl⟩ := skeletonState_good hv true hl
  obtain ⟨S, hS⟩ := states_along hv hl
  obtain ⟨g, h1, h2⟩ := localBackward_fold hl (fun a k u => (hS a k u).2.1) (fun a k u => (hS a k u).2.2)
    prec w (List.range s.joints.length) (fun i hi => List.mem_range.1 hi) fun _ => 0
  refine ⟨g, by rw [computeLocalSkelStateBackward, e0]; exact h1, gradient_of hl fun a ha k => ?_⟩
  refine hasDerivAt_congr (h2 a ha k) (fun u => ?_) (by simp)
  simp only [jointParametersToLocalSkeletonState, (hS a k u).1, Option.map_some, Option.elim_some]
  rw [weighted_local, (hS a k u).2.2]

/-- C71, partial: see `C71_state_gradient_partial`. -/
theorem C71_local_gradient_partial (prec : ℝ) (s : Skeleton ℝ) (hv : s.Valid)
    (params : List ℝ) (hl : params.length = s.joints.length * 7)
    (w : Nat → ℝ) (hw : ∀ i < s.joints.length, (∀ c : Fin 8, w (8 * i + c) = 0) ∨ ∃ c : Fin 8, prec < |w (8 * i + c)|) :
    ∃ g, computeLocalSkelStateBackward prec s params w = some g ∧
      IsGradientOf (fun p => (jointParametersToLocalSkeletonState s p).elim 0 (weightedRows w)) params g := by
  obtain ⟨g, h1, h2⟩ := C71_local_backward prec s hv params hl w
  refine ⟨g, h1, fun n hn => hasDerivAt_congr (h2 n hn) (fun u => ?_) rfl⟩
  obtain ⟨st, e0, _, hsl⟩ := skeletonState_good hv (params := params.set n u) true (by rw [List.length_set]; exact hl)
  simp only [jointParametersToLocalSkeletonState, e0, Option.map_some, Option.elim_some]
  exact (keep_rows hw _ (by rw [List.length_map, hsl])).symm

/-- The hypotheses are met: five joints, all parameters 1, weights 1 for the last joint and 0 for the others. -/
example : exSkeleton.Valid ∧ (∀ jt ∈ exSkeleton.joints, jt.preRotation.normSq = 1) ∧
    (List.replicate 35 (1 : ℝ)).length = exSkeleton.joints.length * 7 ∧
    ∀ i < exSkeleton.joints.length, (∀ c : Fin 8, (fun n => if 32 ≤ n then (1 : ℝ) else 0) (8 * i + c) = 0) ∨
      ∃ c : Fin 8, (1 / 100000 : ℝ) < |(fun n => if 32 ≤ n then (1 : ℝ) else 0) (8 * i + c)| := by
  refine ⟨exSkeleton_valid, exSkeleton_unit, by simp [exSkeleton], fun i hi => ?_⟩
  by_cases h : i < 4
  · left; intro c; have := c.isLt; simp; omega
  · right
    refine ⟨0, ?_⟩
    have : 32 ≤ 8 * i := by omega
    simp [this]; norm_num

/-- C71, a violation: weights that do not exceed the tolerance are ignored.  With one joint, the weight `prec` for the x coordinate
and zero for the rest, the gradient returned is zero, although the derivative with respect to the first parameter is `prec`. -/
theorem C71_small_weights_dropped (prec : ℝ) (hp : 0 < prec) (jt : Joint ℝ) (hr : jt.parent = none)
    (params : List ℝ) (hl : params.length = 7) :
    computeSkelStateBackward prec ⟨[jt]⟩ params (fun n => if n = 0 then prec else 0) = some (fun _ => 0) ∧
    HasDerivAt (fun u => (jointParametersToSkeletonState ⟨[jt]⟩ (params.set 0 u)).elim 0
      (weightedRows fun n => if n = 0 then prec else 0)) prec (params.getD 0 0) ∧ prec ≠ 0 := by
  have hv : Skeleton.Valid (⟨[jt]⟩ : Skeleton ℝ) := by
    intro j x p h hpar
    match j with
    | 0 => simp at h; subst h; rw [hr] at hpar; cases hpar
    | n + 1 => simp at h
  refine ⟨?_, ?_, hp.ne'⟩
  · obtain ⟨st, e0, _, _⟩ := skeletonState_good (s := ⟨[jt]⟩) (params := params) hv true (by simp [hl])
    rw [computeSkelStateBackward, e0]
    have hz : isZeroVec prec (segment8 (fun n => if n = 0 then prec else 0) 0) := by
      intro c
      simp only [segment8]
      split <;> simp [abs_of_pos hp, hp.le]
    simp [List.range_succ, stateBackwardStep, hz]
  · have hs : ∀ u, skeletonState ⟨[jt]⟩ (params.set 0 u) true =
        some [JointState.set jt (jointSlice (params.set 0 u) 0) none true] := by
      intro u
      simp [skeletonState, hl, skeletonStep, hr]
    refine hasDerivAt_congr ((hasDerivAt_id (params.getD 0 0)).const_mul prec |>.add_const (prec * jt.translationOffset.x))
      (fun u => ?_) (by simp)
    simp only [jointParametersToSkeletonState, hs, Option.map_some, Option.elim_some]
    rw [weighted_world]
    have e : jointSlice (params.set 0 u) 0 0 = u := by
      simp [jointSlice, List.getD_eq_getElem?_getD, hl]
    simp only [List.length_singleton, List.range_succ, List.range_zero, List.nil_append, List.map_cons, List.map_nil,
      List.sum_cons, List.sum_nil, weightedT, stateCoords, Fin.sum_univ_eight, segment8]
    simp [worldOf, set_transform, parentT, localTransform_of_parts, Transform.one, Transform.mul_translation,
      Quat.rotate, Quat.one, Quat.vec, Vec3.cross, e]
    ring

/-! ## Positions -/

namespace TensorState

theorem positions_eq {s : Skeleton ℝ} {params : List ℝ} {states : List JointState} (h : skeletonState s params true = some states)
    (points : List AttachedPoint) (hp : ∀ pt ∈ points, pt.parent < states.length) :
    jointParametersToPositions s params points =
      some (points.map fun pt => (worldOf states (some pt.parent)).transformPoint pt.offset) := by
  rw [jointParametersToPositions, h, Option.bind_some]
  induction points with
  | nil => rfl
  | cons pt points ih =>
    have hlt : pt.parent < states.length := hp pt (by simp)
    have : states[pt.parent]? = some states[pt.parent] := List.getElem?_eq_getElem hlt
    rw [List.mapM_cons, ih fun q hq => hp q (by simp [hq])]
    simp [this, worldOf]

theorem weightedPoints_map (w : Nat → ℝ) (points : List AttachedPoint) (f : AttachedPoint → Vec3 ℝ) (d : AttachedPoint) :
    weightedPoints w (points.map f) =
      ((List.range points.length).map fun i => (segment3 w i).dot (f (points.getD i d))).sum := by
  unfold weightedPoints
  rw [List.length_map]
  refine range_sum _ _ _ fun i hi => ?_
  simp [Vec3.dot, segment3, hi]

section
variable {s : Skeleton ℝ} (hv : s.Valid) (hpre : ∀ jt ∈ s.joints, jt.preRotation.normSq = 1) {params : List ℝ}
  (hlen : params.length = s.joints.length * 7) {st : List JointState} (hst : FKGood s params true st)
  (hsl : st.length = s.joints.length) {S : Nat → Fin 7 → ℝ → List JointState}
  (hS : ∀ a (k : Fin 7) u, FKGood s (params.set (7 * a + k) u) true (S a k u))
  (hSl : ∀ a k u, (S a k u).length = s.joints.length)

include hv hpre hlen hst hsl hS hSl in
theorem position_fold (points : List AttachedPoint) (hp : ∀ pt ∈ points, pt.parent < s.joints.length) (w : Nat → ℝ)
    (dflt : AttachedPoint) : ∀ n, n ≤ points.length →
    ∃ g offs, (List.range n).foldlM (positionBackwardStep s st points w) (fun _ => 0, []) = some (g, offs) ∧
      offs.length = n ∧
      (∀ i, i < n → offs.getD i 0 =
        ⟨((worldOf st (some (points.getD i dflt).parent)).toLinear.mulVec Vec3.unitX).dot (segment3 w i),
         ((worldOf st (some (points.getD i dflt).parent)).toLinear.mulVec Vec3.unitY).dot (segment3 w i),
         ((worldOf st (some (points.getD i dflt).parent)).toLinear.mulVec Vec3.unitZ).dot (segment3 w i)⟩) ∧
      ∀ a, a < s.joints.length → ∀ k : Fin 7,
      HasDerivAt (fun u => ((List.range n).map fun i => (segment3 w i).dot
        ((worldOf (S a k u) (some (points.getD i dflt).parent)).transformPoint (points.getD i dflt).offset)).sum)
        (g (7 * a + k)) (jointSlice params a k) := by
  intro n
  induction n with
  | zero =>
    intro _
    exact ⟨_, _, rfl, rfl, by simp, fun a _ k => hasDerivAt_const _ (0 : ℝ)⟩
  | succ n ih =>
    intro hn
    obtain ⟨g, offs, h1, h2, h3, h4⟩ := ih (by omega)
    have hnl : n < points.length := by omega
    have ept : points[n]? = some points[n] := List.getElem?_eq_getElem hnl
    have hd : points.getD n dflt = points[n] := by simp [hnl]
    have hpl := hp points[n] (List.getElem_mem hnl)
    have est : st[points[n].parent]? = some st[points[n].parent] := List.getElem?_eq_getElem (by omega)
    have hwd : worldOf st (some points[n].parent) = st[points[n].parent].transform := by simp [worldOf, est]
    obtain ⟨g', e1, e2⟩ := positionWalk_deriv hv hpre hlen hst hsl hS hSl (segment3 w n) points[n].offset hpl g
    refine ⟨g', offs ++ [⟨((worldOf st (some points[n].parent)).toLinear.mulVec Vec3.unitX).dot (segment3 w n),
         ((worldOf st (some points[n].parent)).toLinear.mulVec Vec3.unitY).dot (segment3 w n),
         ((worldOf st (some points[n].parent)).toLinear.mulVec Vec3.unitZ).dot (segment3 w n)⟩], ?_, by simp [h2], ?_,
         fun a ha k => ?_⟩
    · rw [List.range_succ, List.foldlM_append, h1]
      rw [hwd] at e1 ⊢
      simp only [List.foldlM_cons, List.foldlM_nil, positionBackwardStep, ept, est, Option.bind_eq_bind, Option.bind_some, e1]
      rfl
    · intro i hi
      by_cases hin : i < n
      · rw [← h3 i hin]
        simp [List.getElem?_append_left, h2, hin]
      · obtain rfl : i = n := by omega
        rw [hd]
        simp [List.getElem?_append_right, h2]
    · refine hasDerivAt_congr ((h4 a ha k).add (e2 a ha k)) (fun u => ?_) (by ring)
      rw [List.range_succ, List.map_append, List.sum_append]
      simp [hd, hnl]

end

end TensorState

/-- C71: the gradient returned for joint parameters → positions of points attached to joints is, for the joint parameters, that of the
weighted sum of the coordinates. -/
theorem C71_positions_parameters (s : Skeleton ℝ) (hv : s.Valid) (hpre : ∀ jt ∈ s.joints, jt.preRotation.normSq = 1)
    (params : List ℝ) (hl : params.length = s.joints.length * 7) (points : List AttachedPoint)
    (hp : ∀ pt ∈ points, pt.parent < s.joints.length) (w : Nat → ℝ) :
    ∃ g offs, jointParametersToPositionsBackward s params points w = some (g, offs) ∧
      IsGradientOf (fun p => (jointParametersToPositions s p points).elim 0 (weightedPoints w)) params g := by
  obtain ⟨st, e0, hst, hsl⟩ := skeletonState_good hv true hl
  obtain ⟨S, hS⟩ := states_along hv hl
  obtain ⟨g, offs, h1, _, _, h4⟩ := position_fold hv hpre hl hst hsl (fun a k u => (hS a k u).2.1) (fun a k u => (hS a k u).2.2)
    points hp w ⟨0, 0⟩ points.length le_rfl
  refine ⟨g, offs, by rw [jointParametersToPositionsBackward, e0]; exact h1, gradient_of hl fun a ha k => ?_⟩
  refine hasDerivAt_congr (h4 a ha k) (fun u => ?_) rfl
  rw [positions_eq (hS a k u).1 points (fun pt hpt => by rw [(hS a k u).2.2]; exact hp pt hpt), Option.elim_some,
    weightedPoints_map w points _ ⟨0, 0⟩]

/-- C71: and, for the offset of each point, the derivative of the same sum when this offset moves in any direction `e`. -/
theorem C71_positions_offsets (s : Skeleton ℝ) (hv : s.Valid) (hpre : ∀ jt ∈ s.joints, jt.preRotation.normSq = 1)
    (params : List ℝ) (hl : params.length = s.joints.length * 7) (points : List AttachedPoint)
    (hp : ∀ pt ∈ points, pt.parent < s.joints.length) (w : Nat → ℝ) :
    ∃ g offs, jointParametersToPositionsBackward s params points w = some (g, offs) ∧ offs.length = points.length ∧
      ∀ i pt, points[i]? = some pt → ∀ e : Vec3 ℝ,
        HasDerivAt (fun u : ℝ => (jointParametersToPositions s params (points.set i ⟨pt.parent, pt.offset + u • e⟩)).elim 0
          (weightedPoints w)) ((offs.getD i 0).dot e) 0 := by
  obtain ⟨st, e0, hst, hsl⟩ := skeletonState_good hv true hl
  obtain ⟨S, hS⟩ := states_along hv hl
  obtain ⟨g, offs, h1, h2, h3, _⟩ := position_fold hv hpre hl hst hsl (fun a k u => (hS a k u).2.1) (fun a k u => (hS a k u).2.2)
    points hp w ⟨0, 0⟩ points.length le_rfl
  refine ⟨g, offs, by rw [jointParametersToPositionsBackward, e0]; exact h1, h2, fun i pt hi e => ?_⟩
  have hil : i < points.length := getElem?_lt hi
  have hpt : points.getD i ⟨0, 0⟩ = pt := by simp [List.getD_eq_getElem?_getD, hi]
  rw [h3 i hil, hpt]
  have hsplit : ∀ u : ℝ, (jointParametersToPositions s params (points.set i ⟨pt.parent, pt.offset + u • e⟩)).elim 0
      (weightedPoints w) = (segment3 w i).dot ((worldOf st (some pt.parent)).toLinear.mulVec (u • e)) +
      ((List.range points.length).map fun n => (segment3 w n).dot
        ((worldOf st (some (points.getD n ⟨0, 0⟩).parent)).transformPoint (points.getD n ⟨0, 0⟩).offset)).sum := by
    intro u
    rw [positions_eq e0 _ (by
      intro q hq
      rw [hsl]
      rcases List.mem_or_eq_of_mem_set hq with hq | rfl
      · exact hp q hq
      · exact hp pt (List.mem_of_getElem? hi)), Option.elim_some, weightedPoints_map w _ _ ⟨0, 0⟩, List.length_set]
    have key : ∀ n ≤ points.length, ((List.range n).map fun m => (segment3 w m).dot ((worldOf st (some
        ((points.set i ⟨pt.parent, pt.offset + u • e⟩).getD m ⟨0, 0⟩).parent)).transformPoint
        ((points.set i ⟨pt.parent, pt.offset + u • e⟩).getD m ⟨0, 0⟩).offset)).sum =
        (if i < n then (segment3 w i).dot ((worldOf st (some pt.parent)).toLinear.mulVec (u • e)) else 0) +
        ((List.range n).map fun n => (segment3 w n).dot
          ((worldOf st (some (points.getD n ⟨0, 0⟩).parent)).transformPoint (points.getD n ⟨0, 0⟩).offset)).sum := by
      intro n
      induction n with
      | zero => simp
      | succ n ih =>
        intro hn
        rw [List.range_succ, List.map_append, List.sum_append, List.map_append, List.sum_append, ih (by omega)]
        by_cases hin : i = n
        · subst hin
          have hself : (points.set i ⟨pt.parent, pt.offset + u • e⟩).getD i ⟨0, 0⟩ = ⟨pt.parent, pt.offset + u • e⟩ := by
            simp [hil]
          simp only [List.map_cons, List.map_nil, List.sum_cons, List.sum_nil, hself, hpt]
          rw [Transform.transformPoint, Transform.transformPoint, smul_add, Quat.rotate_add, Transform.toLinear_mulVec]
          simp [Vec3.dot]
          ring
        · have hne : (points.set i ⟨pt.parent, pt.offset + u • e⟩).getD n ⟨0, 0⟩ = points.getD n ⟨0, 0⟩ := by
            simp [List.getD_eq_getElem?_getD, List.getElem?_set_ne hin]
          have hlt : (i < n + 1) ↔ (i < n) := by omega
          simp only [List.map_cons, List.map_nil, List.sum_cons, List.sum_nil, hne, hlt]
          ring
    rw [key points.length le_rfl, if_pos hil]
  refine hasDerivAt_congr (((hasDerivAt_id (0 : ℝ)).mul_const
    ((segment3 w i).dot ((worldOf st (some pt.parent)).toLinear.mulVec e))).add_const
    (((List.range points.length).map fun n => (segment3 w n).dot
        ((worldOf st (some (points.getD n ⟨0, 0⟩).parent)).transformPoint (points.getD n ⟨0, 0⟩).offset)).sum)) (fun u => ?_) ?_
  · rw [hsplit]
    simp [Vec3.dot, Mat3.mulVec]
    ring
  · simp [Vec3.dot, Mat3.mulVec, Vec3.unitX, Vec3.unitY, Vec3.unitZ]
    ring

/-- The hypotheses are met: two points on the last two joints. -/
example : exSkeleton.Valid ∧ (∀ jt ∈ exSkeleton.joints, jt.preRotation.normSq = 1) ∧
    (List.replicate 35 (1 : ℝ)).length = exSkeleton.joints.length * 7 ∧
    ∀ pt ∈ [(⟨3, ⟨1, 2, 3⟩⟩ : AttachedPoint), ⟨4, ⟨0, 1, 0⟩⟩], pt.parent < exSkeleton.joints.length := by
  refine ⟨exSkeleton_valid, exSkeleton_unit, by simp [exSkeleton], ?_⟩
  simp [exSkeleton]

end Momentum
