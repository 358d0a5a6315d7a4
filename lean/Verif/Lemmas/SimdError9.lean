import Verif.Lemmas.SimdError8
import Verif.Lemmas.StateError

/-!
# Error, gradient and Jacobian as functions of the model parameters
-/

namespace Momentum
open Skeleton
variable {n m W : Nat} {S : SimdStore ℝ n} {C : Nat → List (Fin (n + 1) → ℝ)}

/-- The weight of a lane. -/
theorem laneAt_nonneg (hS : S.Holds C) (hW : 0 < W) (hd : W ∣ 4096) {j : Nat} (hj : j < S.numJoints)
    (hw : ∀ x ∈ C j, 0 ≤ x (Fin.last n)) {q : Nat} (hq : q < (S.count j + W - 1) / W) (l : Fin W) :
    0 ≤ laneAt S j (q * W + l) (Fin.last n) := by
  rcases Nat.lt_or_ge (q * W + l) (C j).length with h | h
  · have e : (C j)[q * W + l.val]? = some (C j)[q * W + l.val] := List.getElem?_eq_getElem h
    rw [laneAt_vals hS hj e]
    exact hw _ (List.getElem_mem h)
  · have h1 : S.count j ≤ kMaxConstraints := by rw [hS.count j hj]; exact hS.room j hj
    have h2 := packets_le hW hd h1
    have h3 : (q + 1) * W ≤ (S.count j + W - 1) / W * W := Nat.mul_le_mul_right _ hq
    rw [Nat.add_mul, Nat.one_mul] at h3
    have := l.isLt
    rw [laneAt_unused hS hj h (by omega)]

namespace SimdError

/-- A motion of model parameter `i`. -/
structure Motion (E : SimdError n) (pt : ParameterTransform ℝ) (p : List ℝ) (i : Nat) (S : SimdStore ℝ n)
    (C : Nat → List (Fin (n + 1) → ℝ)) (W : Nat) (θ : ℝ → List ℝ) (Q Q' : ℝ → List JointState) (ch : Nat → List Nat) :
    Prop where
  fits : E.base.Fits pt
  holds : S.Holds C
  store : E.store = some S
  joints : S.numJoints ≤ E.base.skeleton.joints.length
  pos : 0 < W
  dvd : W ∣ 4096
  enabled : E.base.enabledParameters.mem i = true
  state : ∀ u, E.base.stateFor pt (p.set i u) true = some (Q u)
  state' : ∀ u, E.base.stateFor pt (p.set i u) false = some (Q' u)
  good : ∀ u, FKGood E.base.skeleton (θ u) true (Q u)
  len : ∀ u, (Q u).length = E.base.skeleton.joints.length
  len' : ∀ u, (Q' u).length = E.base.skeleton.joints.length
  rate : ∀ r t, HasDerivAt (fun u => (θ u).getD r 0) (pt.transform.coeff r i) t
  same : ∀ u j, worldOf (Q u) (some j) = worldOf (Q' u) (some j)
  chain : ∀ j < E.base.skeleton.joints.length, Chain E.base.skeleton (some j) (ch j)

theorem exists_motion {E : SimdError n} {pt : ParameterTransform ℝ} (hF : E.base.Fits pt) (hS : S.Holds C)
    (hE : E.store = some S) (hN : S.numJoints ≤ E.base.skeleton.joints.length) (hW : 0 < W) (hd : W ∣ 4096) {i : Nat}
    (hen : E.base.enabledParameters.mem i = true) {p : List ℝ} (hp : p.length = pt.transform.cols) (hi : i < pt.transform.cols) :
    ∃ θ Q Q' ch, Motion E pt p i S C W θ Q Q' ch := by
  obtain ⟨θ, Q, Q', h1, h2, h3, h4, h5, h6, h7⟩ := ErrorBase.states_curve hF hp hi
  have hc : ∀ j, ∃ l, j < E.base.skeleton.joints.length → Chain E.base.skeleton (some j) l := by
    intro j
    by_cases hj : j < E.base.skeleton.joints.length
    · obtain ⟨l, hl⟩ := chain_exists hF.skeleton j hj
      exact ⟨l, fun _ => hl⟩
    · exact ⟨[], fun h => absurd h hj⟩
  choose ch hch using hc
  exact ⟨θ, Q, Q', ch, hF, hS, hE, hN, hW, hd, hen, h1, h2, h3, h4, h5, h6, h7, hch⟩

section
variable {E : SimdError n} {pt : ParameterTransform ℝ} {p : List ℝ} {i : Nat} {θ : ℝ → List ℝ} {Q Q' : ℝ → List JointState}
  {ch : Nat → List Nat} (hM : Motion E pt p i S C W θ Q Q' ch)
  {K : SimdKernel n m W} {r : (Fin (n + 1) → ℝ) → Transform ℝ → Fin m → ℝ}
  {D : (Fin (n + 1) → ℝ) → Transform ℝ → JointState → Fin 7 → Fin m → ℝ}

include hM in
theorem Motion.transform (u : ℝ) {j : Nat} (hj : j < S.numJoints) :
    (stateAt (Q u) j).transform = worldOf (Q u) (some j) ∧ (stateAt (Q' u) j).transform = worldOf (Q u) (some j) := by
  have := hM.joints
  rw [worldOf_stateAt (by rw [hM.len]; omega), worldOf_stateAt (by rw [hM.len']; omega), hM.same]
  exact ⟨rfl, rfl⟩

include hM in
/-- The error along the motion. -/
theorem Motion.getError (hK : K.Measures r) (u : ℝ) : E.getError K (Q' u) =
    some (((List.range S.numJoints).map (jointError r C (Q u))).sum * K.scale * E.base.weight) := by
  have := hM.joints
  rw [getError_eq hK hM.store hM.holds hM.pos hM.dvd (by rw [hM.len']; omega)]
  unfold simdTotal
  congr 4
  refine List.map_congr_left fun j hj => ?_
  have hj := List.mem_range.1 hj
  unfold jointError
  simp only [(hM.transform u hj).1, (hM.transform u hj).2]

include hM in
/-- Residuals move with their velocities. -/
theorem Motion.residual (hD : MovesWith r D) (t : ℝ) {j : Nat} (hj : j < S.numJoints) (x : Fin (n + 1) → ℝ) (c : Fin m) :
    HasDerivAt (fun u => r x (stateAt (Q u) j).transform c) (residualVel D E.base.transform (Q t) (ch j) i j x c) t := by
  have hjl : j < E.base.skeleton.joints.length := hj.trans_le hM.joints
  have h := hD hM.fits.skeleton hM.fits.unit hM.good hM.len (fun q => hM.rate q t) (hM.chain j hjl) x c
  have hf : (fun u => r x (stateAt (Q u) j).transform c) = fun u => r x (worldOf (Q u) (some j)) c :=
    funext fun u => by rw [(hM.transform u hj).1]
  rw [hf, hM.fits.transform]
  unfold residualVel
  rw [(hM.transform t hj).1]
  exact h

include hM in
/-- The error moves with the gradient. -/
theorem Motion.error_deriv (hD : MovesWith r D) (scale t : ℝ) :
    HasDerivAt (fun u => ((List.range S.numJoints).map (jointError r C (Q u))).sum * scale * E.base.weight)
      (((List.range S.numJoints).map (jointGrad scale r D E.base.transform ch C (Q t) i)).sum * E.base.weight) t := by
  refine HasDerivAt.mul_const (HasDerivAt.congr_deriv (HasDerivAt.mul_const (hasDerivAt_list_sum (List.range S.numJoints)
    (fun j u => jointError r C (Q u) j) (fun j => ((C j).map fun x => x (Fin.last n) * ∑ c, 2 * (r x (stateAt (Q t) j).transform c *
    residualVel D E.base.transform (Q t) (ch j) i j x c)).sum) t ?_) scale) ?_) _
  · intro j hj
    have hj := List.mem_range.1 hj
    refine hasDerivAt_list_sum (C j) (fun x u => x (Fin.last n) * ∑ c, r x (stateAt (Q u) j).transform c ^ 2) _ t fun x _ => ?_
    refine HasDerivAt.const_mul _ (HasDerivAt.fun_sum fun c _ => ?_)
    exact ((hM.residual hD t hj x c).pow 2).congr_deriv (by norm_num; ring)
  · rw [← List.sum_map_mul_right]
    congr 1
    refine List.map_congr_left fun j _ => ?_
    unfold jointGrad
    rw [← List.sum_map_mul_right]
    congr 1
    refine List.map_congr_left fun x _ => ?_
    rw [← Finset.mul_sum]; ring

include hM in
/-- The squares of the residuals add up to the error. -/
theorem Motion.squares (hw : 0 ≤ K.scale * E.base.weight) (hws : ∀ j < S.numJoints, ∀ x ∈ C j, 0 ≤ x (Fin.last n))
    (u : ℝ) {R : Nat → ℝ} (hR : ∀ j < S.numJoints, ∀ q < (S.count j + W - 1) / W, ∀ (c : Fin m) (t : Fin W),
      R (rowsBefore m W S j + q * W * m + W * c + t) =
        laneScale K E.base.weight (laneAt S j (q * W + t)) * r (laneAt S j (q * W + t)) (stateAt (Q u) j).transform c) :
    ∑ t ∈ Finset.range (rowsBefore m W S S.numJoints), R t ^ 2 =
      ((List.range S.numJoints).map (jointError r C (Q u))).sum * K.scale * E.base.weight := by
  rw [sum_rows, mul_assoc, ← List.sum_map_mul_right]
  congr 1
  refine List.map_congr_left fun j hj => ?_
  have hj := List.mem_range.1 hj
  have e := packets_sum hM.holds hM.pos hM.dvd hj (fun x => x (Fin.last n) * (∑ c, r x (stateAt (Q u) j).transform c ^ 2) *
    (K.scale * E.base.weight)) (by intro x hx; simp [hx])
  unfold jointError
  rw [← List.sum_map_mul_right, ← e]
  unfold rowsOf packetStarts
  rw [sum_lanes, List.map_map]
  congr 1
  refine List.map_congr_left fun q hq => ?_
  have hq := List.mem_range.1 hq
  refine Finset.sum_congr rfl fun l _ => ?_
  simp only [mul_comm (_ * ∑ c, _ ^ 2) (K.scale * E.base.weight)]
  rw [← mul_assoc, Finset.mul_sum]
  refine Finset.sum_congr rfl fun c _ => ?_
  rw [← Nat.add_assoc, ← Nat.add_assoc, hR j hj q hq c l, mul_pow, laneScale,
    Real.sq_sqrt (mul_nonneg hw (laneAt_nonneg hM.holds hM.pos hM.dvd hj (hws j hj) hq l))]

end

end SimdError

end Momentum
