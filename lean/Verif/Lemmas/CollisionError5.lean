import Verif.Lemmas.CollisionError4

/-!
# The derivative of the depths along a motion
-/

namespace Momentum
open Skeleton
namespace CollisionError

section
variable {skel : Skeleton ℝ} {tol eps : ℝ} {g : List (TaperedCapsule ℝ)} {rest : List (CapsuleState ℝ)} {E : CollisionError}
  (hv : skel.Valid) (hpre : ∀ jt ∈ skel.joints, jt.preRotation.normSq = 1) {θ : ℝ → List ℝ}
  {S : ℝ → List JointState} (hG : ∀ u, FKGood skel (θ u) true (S u)) (hlen : ∀ u, (S u).length = skel.joints.length) {t : ℝ}
  {θ' : Nat → ℝ} (hθ : ∀ i, HasDerivAt (fun u => (θ u).getD i 0) (θ' i) t) (h6 : ∀ a, θ' (7 * a + 6) = 0)
  (hpar : ∀ tc ∈ g, tc.parent < skel.joints.length) (hr : ∀ tc ∈ g, 0 ≤ tc.radius0 ∧ 0 ≤ tc.radius1)
  (htol : 0 < tol)

include hv hpre hG hlen hθ h6 hpar hr htol in
/-- A pair that takes part. -/
theorem hit_deriv (heps : 0 < eps) (hK : E.Kept skel tol eps g rest) (hC : E.Posed (S t))
    {h : Nat × Nat × OverlapInfo} (hh : h ∈ E.hits)
    (hclear : ClearPair tol eps (capsuleAt E.collisionState h.1) (capsuleAt E.collisionState h.2.1))
    {ga gb : TaperedCapsule ℝ} (g1 : g[h.1]? = some ga) (g2 : g[h.2.1]? = some gb) :
    0 < h.2.2.overlap ∧ h.2.2.overlap = capsuleDepth (capsuleIn (S t) ga) (capsuleIn (S t) gb) ∧
    HasDerivAt (fun u => capsuleDepth (capsuleIn (S u) ga) (capsuleIn (S u) gb) ^ 2)
      (-2 * (h.2.2.overlap / h.2.2.distance) * E.pairRate (S t) θ' h) t := by
  obtain ⟨ga', gb', c, ca, cb, g1', g2', k1, k2, k3, k4, a1, a2, hd⟩ := pairData_hit hv hpar hK hh
  rw [g1, Option.some.injEq] at g1'; subst g1'
  rw [g2, Option.some.injEq] at g2'; subst g2'
  have hcap := hC.caps
  rw [hK.geometry] at hcap
  obtain ⟨e1, f1⟩ := capsuleAt_eq hcap g1
  obtain ⟨e2, f2⟩ := capsuleAt_eq hcap g2
  rw [f1, Option.some.injEq] at k1
  rw [f2, Option.some.injEq] at k2
  rw [e1, e2, k1, k2] at hclear
  have hval := valid_states hK hC hr (scale_nonneg_of_good hv (hG t) (hlen t))
  have v1 : ca.Valid := hval ca (List.mem_of_getElem? (f1.trans (by rw [k1])))
  have v2 : cb.Valid := hval cb (List.mem_of_getElem? (f2.trans (by rw [k2])))
  obtain ⟨i1, i2⟩ := clear_info htol v1 v2 hclear
  obtain ⟨r1, r2, r3, r4, r5⟩ := i2 _ k3 k4
  have hlt := i1.1 k3
  obtain ⟨lc, hlc⟩ := chain_exists hv c (by
    have := hpar ga (List.mem_of_getElem? g1)
    exact lt_of_le_of_lt (anc_le hv a1) this)
  obtain ⟨-, pA⟩ := pathUp_spec hv (hpar ga (List.mem_of_getElem? g1)) a1
  obtain ⟨-, pB⟩ := pathUp_spec hv (hpar gb (List.mem_of_getElem? g2)) a2
  refine ⟨?_, by rw [r3, k1, k2], ?_⟩
  · rw [r3, capsuleDepth]; exact lt_max_of_lt_right (by linarith)
  · have := depth_deriv_inside hv hpre hG hlen hθ (ta := ga) (tb := gb) (pA lc hlc) (pB lc hlc) (fun a _ => h6 a)
      (fun a _ => h6 a) (x := h.2.2.s) (y := h.2.2.t) (dist := h.2.2.distance) (depth := h.2.2.overlap)
      (by rw [k1, k2]; exact r2) (by linarith) (by rw [k1, k2]; exact r3) (by rw [k1, k2, r2]; exact hlt)
      (by rw [k1, k2]; linarith) (by rw [k1, k2]; exact r1)
    refine this.congr_deriv ?_
    unfold pairRate axisVel
    rw [hd, k1, k2]
    simp only [segPoint, hK.skeleton_eq]
    rw [posVel_append, posVel_append]
    have hc0 := posVel_common (S t) θ' (ca.origin + h.2.2.s • ca.direction) (cb.origin + h.2.2.t • cb.direction) lc
      (fun a _ => h6 a)
    simp only [Vec3.dot, Vec3.sub_x, Vec3.sub_y, Vec3.sub_z, Vec3.add_x, Vec3.add_y, Vec3.add_z] at hc0 ⊢
    linear_combination (-2 * (h.2.2.overlap / h.2.2.distance)) * hc0

include hv hpre hG hlen hθ h6 hpar hr htol in
/-- A watched pair that does not take part. -/
theorem miss_deriv (hK : E.Kept skel tol eps g rest) (hC : E.Posed (S t)) {p : Nat × Nat} (hp : p ∈ E.order)
    (hw : Watched skel tol eps g rest (sortPair p).1 (sortPair p).2) (hn : E.hit p = none)
    (hclear : ClearPair tol eps (capsuleAt E.collisionState p.1) (capsuleAt E.collisionState p.2))
    {ga gb : TaperedCapsule ℝ} (g1 : g[p.1]? = some ga) (g2 : g[p.2]? = some gb) :
    HasDerivAt (fun u => capsuleDepth (capsuleIn (S u) ga) (capsuleIn (S u) gb) ^ 2) 0 t := by
  have hcap := hC.caps
  rw [hK.geometry] at hcap
  obtain ⟨e1, f1⟩ := capsuleAt_eq hcap g1
  obtain ⟨e2, f2⟩ := capsuleAt_eq hcap g2
  have hval := valid_states hK hC hr (scale_nonneg_of_good hv (hG t) (hlen t))
  have v1 := hval _ (List.mem_of_getElem? f1)
  have v2 := hval _ (List.mem_of_getElem? f2)
  have hno : ¬ overlaps tol eps (capsuleAt E.collisionState p.1) (capsuleAt E.collisionState p.2) = true := by
    intro ho
    obtain ⟨r, _, hr⟩ := (hit_eq hK hC hp).1 hw ho
    rw [hn] at hr; cases hr
  rw [e1, e2] at hno hclear
  rw [(clear_info htol v1 v2 hclear).1] at hno
  obtain ⟨la, hla⟩ := chain_exists hv ga.parent (hpar ga (List.mem_of_getElem? g1))
  obtain ⟨lb, hlb⟩ := chain_exists hv gb.parent (hpar gb (List.mem_of_getElem? g2))
  exact depth_deriv_apart hv hpre hG hlen hθ hla hlb (fun a _ => h6 a) (fun a _ => h6 a) (not_lt.1 hno)

end
end CollisionError
end Momentum
