import Verif.Lemmas.SimdError
import Verif.Lemmas.ChainWalk
import Verif.Lemmas.ConstraintCurve2
import Verif.Spec.SimdConstraints

/-!
# Packets of a store that holds a list of constraints for every joint
-/

namespace Momentum
variable {n m W : Nat} {S : SimdStore ℝ n} {C : Nat → List (Fin (n + 1) → ℝ)}

/-- Entry `i` of the arrays of joint `j`. -/
def laneAt (S : SimdStore ℝ n) (j i : Nat) : Fin (n + 1) → ℝ := fun k => S.mem (S.addr k (j * kMaxConstraints + i))

/-- The packet that starts at entry `index`. -/
def lanesAt (S : SimdStore ℝ n) (W j index : Nat) : Fin (n + 1) → Lanes W := fun k l => laneAt S j (index + l) k

/-- Whole packets fit. -/
theorem packets_le (hW : 0 < W) (hd : W ∣ 4096) {count : Nat} (hc : count ≤ kMaxConstraints) :
    (count + W - 1) / W * W ≤ kMaxConstraints := by
  obtain ⟨D, hD⟩ := hd
  have e : kMaxConstraints = W * D := hD
  rw [e] at hc ⊢
  rw [Nat.mul_comm W D]
  refine Nat.mul_le_mul_right _ ?_
  have : count + W - 1 < (D + 1) * W := by
    rw [Nat.add_mul, Nat.one_mul, Nat.mul_comm D W]; omega
  have := (Nat.div_lt_iff_lt_mul hW).2 this
  omega

theorem le_packets (hW : 0 < W) (count : Nat) : count ≤ (count + W - 1) / W * W := by
  have h1 := Nat.div_add_mod (count + W - 1) W
  have h2 := Nat.mod_lt (count + W - 1) hW
  rw [Nat.mul_comm] at h1
  omega

theorem mem_packetStarts {count index : Nat} :
    index ∈ packetStarts W count ↔ ∃ q < (count + W - 1) / W, index = q * W := by
  simp only [packetStarts, List.mem_map, List.mem_range]
  exact ⟨fun ⟨q, h, e⟩ => ⟨q, h, e.symm⟩, fun ⟨q, h, e⟩ => ⟨q, h, e.symm⟩⟩

theorem load_eq (hS : S.Holds C) (hW : 0 < W) (hd : W ∣ 4096) {j : Nat} (hj : j < S.numJoints) {index : Nat}
    (hi : index ∈ packetStarts W (S.count j)) : S.load W j index = some (lanesAt S W j index) := by
  obtain ⟨q, hq, rfl⟩ := mem_packetStarts.1 hi
  have h1 : S.count j ≤ kMaxConstraints := by rw [hS.count j hj]; exact hS.room j hj
  have h2 := packets_le hW hd h1
  have h3 : (q + 1) * W ≤ (S.count j + W - 1) / W * W := Nat.mul_le_mul_right _ hq
  rw [Nat.add_mul, Nat.one_mul] at h3
  have h4 : (j + 1) * kMaxConstraints ≤ S.numJoints * kMaxConstraints := Nat.mul_le_mul_right _ hj
  rw [Nat.add_mul, Nat.one_mul] at h4
  unfold SimdStore.load
  rw [if_pos]
  · congr 1
    funext k l
    simp only [lanesAt, laneAt, SimdStore.addr]
    congr 1; omega
  · unfold SimdStore.addr SimdStore.dataSize
    rw [Nat.add_mul, Nat.one_mul, Nat.mul_comm kMaxConstraints]
    omega

theorem laneAt_vals (hS : S.Holds C) {j : Nat} (hj : j < S.numJoints) {i : Nat} {c : Fin (n + 1) → ℝ}
    (h : (C j)[i]? = some c) : laneAt S j i = c := by
  funext k
  exact hS.vals j hj i c h k

theorem laneAt_unused (hS : S.Holds C) {j : Nat} (hj : j < S.numJoints) {i : Nat} (h1 : (C j).length ≤ i)
    (h2 : i < kMaxConstraints) : laneAt S j i (Fin.last n) = 0 := hS.unused j hj i h1 h2

/-- A sum over the lanes of the packets of a joint, when unused lanes contribute nothing, is a sum over the constraints. -/
theorem packets_sum (hS : S.Holds C) (hW : 0 < W) (hd : W ∣ 4096) {j : Nat} (hj : j < S.numJoints)
    (F : (Fin (n + 1) → ℝ) → ℝ) (hF : ∀ x, x (Fin.last n) = 0 → F x = 0) :
    ((packetStarts W (S.count j)).map fun index => ∑ l : Fin W, F (laneAt S j (index + l))).sum = ((C j).map F).sum := by
  have hcnt := hS.count j hj
  have hroom := hS.room j hj
  have h1 : S.count j ≤ kMaxConstraints := by rw [hcnt]; exact hroom
  have h2 := packets_le hW hd h1
  have h3 := le_packets hW (S.count j)
  have e1 : ∑ t ∈ Finset.range (W * (List.range ((S.count j + W - 1) / W)).length), F (laneAt S j t) =
      ((List.range ((S.count j + W - 1) / W)).map fun q => ∑ l : Fin W, F (laneAt S j (q * W + l))).sum := by
    refine sum_blocks _ _ _ ?_
    intro i q hq
    obtain ⟨h, hq⟩ := List.getElem?_eq_some_iff.1 hq
    rw [List.getElem_range] at hq
    subst hq
    rw [Nat.mul_comm]
  have e2 : ∑ t ∈ Finset.range (1 * (C j).length), F (laneAt S j t) = ((C j).map F).sum := by
    refine sum_blocks _ _ _ ?_
    intro i c hc
    simp only [Nat.one_mul, Finset.univ_unique, Fin.default_eq_zero, Fin.isValue, Fin.val_zero, add_zero,
      Finset.sum_singleton]
    rw [laneAt_vals hS hj hc]
  unfold packetStarts
  rw [List.map_map]
  show ((List.range ((S.count j + W - 1) / W)).map fun q => ∑ l : Fin W, F (laneAt S j (q * W + l))).sum = _
  rw [← e1, ← e2, Nat.one_mul, List.length_range, Nat.mul_comm]
  refine (Finset.sum_subset ?_ ?_).symm
  · intro t ht
    rw [Finset.mem_range] at ht ⊢
    omega
  · intro t ht hn
    rw [Finset.mem_range] at ht hn
    exact hF _ (laneAt_unused hS hj (by omega) (by omega))

theorem foldlM_add {β : Type} (l : List β) (f : ℝ → β → Option ℝ) (g : β → ℝ) (h : ∀ x ∈ l, ∀ e, f e x = some (e + g x))
    (e : ℝ) : l.foldlM f e = some (e + (l.map g).sum) := by
  induction l generalizing e with
  | nil => simp
  | cons x l ih =>
    rw [List.foldlM_cons, h x List.mem_cons_self, Option.bind_eq_bind, Option.bind_some,
      ih fun y hy => h y (List.mem_cons_of_mem _ hy)]
    simp only [List.map_cons, List.sum_cons]; ring_nf

/-- How a class measures a constraint with entries `x` when the joint has transform `T`. -/
structure SimdKernel.Measures (K : SimdKernel n m W) (r : (Fin (n + 1) → ℝ) → Transform ℝ → Fin m → ℝ) : Prop where
  error : ∀ v js l, K.error v js l = v (Fin.last n) l * ∑ c, r (fun k => v k l) js.transform c ^ 2
  residual : ∀ w v js c l, K.residual w v js c l =
    Real.sqrt (K.scale * w * v (Fin.last n) l) * r (fun k => v k l) js.transform c

/-- The sum over all constraints. -/
noncomputable def simdTotal (N : Nat) (C : Nat → List (Fin (n + 1) → ℝ)) (F : Nat → (Fin (n + 1) → ℝ) → ℝ) : ℝ :=
  ((List.range N).map fun j => ((C j).map (F j)).sum).sum

namespace SimdError

theorem error_packets {K : SimdKernel n m W} {r : (Fin (n + 1) → ℝ) → Transform ℝ → Fin m → ℝ} (hK : K.Measures r)
    (hS : S.Holds C) (hW : 0 < W) (hd : W ∣ 4096) {j : Nat} (hj : j < S.numJoints) (js : JointState) :
    ((packetStarts W (S.count j)).map fun index => ∑ l : Fin W, K.error (lanesAt S W j index) js l).sum =
      ((C j).map fun x => x (Fin.last n) * ∑ c, r x js.transform c ^ 2).sum := by
  rw [← packets_sum hS hW hd hj (fun x => x (Fin.last n) * ∑ c, r x js.transform c ^ 2) (by intro x hx; simp [hx])]
  congr 1
  refine List.map_congr_left fun index _ => Finset.sum_congr rfl fun l _ => ?_
  rw [hK.error]; rfl

theorem getError_eq {E : SimdError n} {K : SimdKernel n m W} {r : (Fin (n + 1) → ℝ) → Transform ℝ → Fin m → ℝ}
    (hK : K.Measures r) (hE : E.store = some S) (hS : S.Holds C) (hW : 0 < W) (hd : W ∣ 4096) {st : List JointState}
    (hst : S.numJoints ≤ st.length) :
    E.getError K st = some (simdTotal S.numJoints C (fun j x => x (Fin.last n) *
      ∑ c, r x (stateAt st j).transform c ^ 2) * K.scale * E.base.weight) := by
  unfold getError
  simp only [hE, if_pos hst]
  rw [foldlM_add (List.range S.numJoints) _ (fun j => ((C j).map fun x => x (Fin.last n) *
      ∑ c, r x (stateAt st j).transform c ^ 2).sum)]
  · simp only [Option.bind_some, zero_add]; rfl
  · intro j hj e
    have hjn := List.mem_range.1 hj
    have ej : st[j]? = some (stateAt st j) := by
      have : st[j]? = some st[j] := List.getElem?_eq_getElem (by omega)
      rw [stateAt_eq this, this]
    unfold errorJoint
    rw [ej, Option.bind_some, foldlM_add _ _ (fun index => ∑ l : Fin W,
      K.error (lanesAt S W j index) (stateAt st j) l), error_packets hK hS hW hd hjn]
    intro index hi e
    unfold errorPacket
    rw [load_eq hS hW hd hjn hi]; rfl

end SimdError

end Momentum
