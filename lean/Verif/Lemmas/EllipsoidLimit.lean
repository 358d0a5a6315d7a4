import Verif.Lemmas.CollisionError3
import Verif.Spec.EllipsoidLimit
import Verif.Props.Transform
import Verif.Props.StateError

/-!
# Ellipsoid limits: what is computed
-/

namespace Momentum
open Skeleton

/-! ## Walks up to a joint or the root -/

/-- The joints from `j` up to, and without, `stop`, or up to the root. -/
inductive PathUntil (s : Skeleton ℝ) (stop : Option Nat) : Option Nat → List Nat → Prop
  | root : PathUntil s stop none []
  | stop : PathUntil s stop stop []
  | cons {j : Nat} {jt : Joint ℝ} {l : List Nat} : some j ≠ stop → s.joints[j]? = some jt →
      PathUntil s stop jt.parent l → PathUntil s stop (some j) (j :: l)

theorem until_exists {s : Skeleton ℝ} (hv : s.Valid) (c : Nat) : ∀ j, j < s.joints.length → ∃ l,
    PathUntil s (some c) (some j) l ∧ (s.Anc j c → ∀ lc, Chain s (some c) lc → Chain s (some j) (l ++ lc)) ∧
      (¬s.Anc j c → Chain s (some j) l) := by
  intro j
  induction j using Nat.strong_induction_on with
  | _ j ih =>
    intro hj
    by_cases hjc : j = c
    · subst hjc; exact ⟨[], .stop, fun _ lc h => h, fun h => absurd Relation.ReflTransGen.refl h⟩
    · have e : s.joints[j]? = some s.joints[j] := List.getElem?_eq_getElem _
      rcases root_or_parent j hj with hp | ⟨p, hr, hp⟩
      · refine ⟨[j], .cons (by simpa using hjc) e (by rw [hp]; exact .root), fun ha => ?_,
          fun _ => .cons e (by rw [hp]; exact .nil)⟩
        rw [anc_iff_root hj hp] at ha; exact absurd ha.symm hjc
      · have hpj := parentRel_lt hv hr
        obtain ⟨l, l1, l2, l3⟩ := ih p hpj (hpj.trans hj)
        refine ⟨j :: l, .cons (by simpa using hjc) e (by rw [hp]; exact l1), fun ha lc h => ?_, fun ha => ?_⟩
        · rcases (anc_iff_parent hr).1 ha with h' | h'
          · exact absurd h'.symm hjc
          · exact .cons e (by rw [hp]; exact l2 h' lc h)
        · exact .cons e (by rw [hp]; exact l3 fun h => ha ((anc_iff_parent hr).2 (Or.inr h)))

theorem chain_anc {s : Skeleton ℝ} {o : Option Nat} {l : List Nat} (h : Chain s o l) : ∀ j, o = some j → ∀ a ∈ l, s.Anc j a := by
  induction h with
  | nil => intro j hj; cases hj
  | @cons j jt l hj hc ih =>
    intro j' hj' a ha
    cases hj'
    rcases List.mem_cons.1 ha with rfl | ha
    · exact .refl
    · cases hp : jt.parent with
      | none => rw [hp] at hc; cases hc; cases ha
      | some p => exact .head ⟨jt, hj, hp⟩ (ih p hp a ha)

theorem chainWalkTo_track {α σ ι : Type} {emit : Nat → α → σ → Option σ} {φ : ι → σ → ℝ} {ev : ι → α → ℝ}
    {w : ι → Nat → ℝ} {rows : Nat} {active : List Bool} {skel : Skeleton ℝ} (ht : Emits rows emit φ ev w)
    (hlen : active.length = rows) (hrows : rows = skel.joints.length * 7) (hact : ∀ i r, w i r ≠ 0 → active[r]? = some true)
    {st : List JointState} (hst : st.length = skel.joints.length) {dofs : JointState → List (Nat × Option α)}
    {dv : JointState → List (Nat × α)} (hd : ∀ js ∈ st, dofs js = (dv js).map fun d => (d.1, some d.2))
    (h7 : ∀ js ∈ st, ∀ d ∈ dv js, d.1 < 7) {stop o : Option Nat} {l : List Nat} (hc : PathUntil skel stop o l) : ∀ s,
    ∃ s', chainWalkTo skel active st dofs emit stop o s = some s' ∧
      ∀ i, φ i s' = φ i s + (l.map fun a => dofSum (ev i) (w i) a (dv (stateAt st a))).sum := by
  induction hc with
  | root => intro s; exact ⟨s, by rw [chainWalkTo.eq_def], fun i => by simp⟩
  | stop =>
    intro s
    refine ⟨s, ?_, fun i => by simp⟩
    rw [chainWalkTo.eq_def]
    cases stop <;> simp
  | @cons j jt l hj1 hj hcl ih =>
    intro s
    have hjl := getElem?_lt hj
    have hsj : st[j]? = some st[j] := List.getElem?_eq_getElem (by omega)
    have hmem : st[j] ∈ st := List.getElem_mem _
    have hsa : stateAt st j = st[j] := stateAt_eq hsj
    obtain ⟨s1, e1, e2⟩ := foldlM_track (fun s (d : Nat × α) => activeStep active emit (j * 7) s (d.1, some d.2)) φ
      (fun i d => ev i d.2 * w i (j * 7 + d.1)) (dv st[j])
      (fun d hdd s => activeStep_track ht hlen hact (j * 7) d (by have := h7 _ hmem d hdd; omega) s) s
    obtain ⟨s2, e3, e4⟩ := ih s1
    refine ⟨s2, ?_, fun i => ?_⟩
    · rw [chainWalkTo.eq_def]
      simp only [hj1, if_false, hj, hsj]
      rw [hd _ hmem, List.foldlM_map, e1]
      exact e3
    · rw [e4, e2, List.map_cons, List.sum_cons, hsa, dofSum, add_assoc]

/-! ## Geometry -/

theorem vec_eq_of_sqNorm {v : Vec3 ℝ} (h : v.sqNorm = 0) : v = 0 := by
  have h' : v.x * v.x + v.y * v.y + v.z * v.z = 0 := h
  have hx := mul_self_nonneg v.x
  have hy := mul_self_nonneg v.y
  have hz := mul_self_nonneg v.z
  ext
  · exact mul_self_eq_zero.mp (by linarith)
  · exact mul_self_eq_zero.mp (by linarith)
  · exact mul_self_eq_zero.mp (by linarith)

theorem sqNorm_smul' (k : ℝ) (v : Vec3 ℝ) : (k • v).sqNorm = k ^ 2 * v.sqNorm := by
  simp only [Vec3.sqNorm, Vec3.dot, Vec3.smul_x, Vec3.smul_y, Vec3.smul_z]; ring

theorem normalized_eq (v : Vec3 ℝ) : v.normalized = v.norm⁻¹ • v := by
  unfold Vec3.normalized
  split
  · rw [one_div]
  · rename_i h
    have : v = 0 := vec_eq_of_sqNorm (le_antisymm (not_lt.1 h) (vec_sqNorm_nonneg v))
    subst this; ext <;> simp

theorem affine_apply_smul (a : Affine ℝ) (k : ℝ) (v : Vec3 ℝ) :
    a.apply (k • v) = a.apply 0 + k • (a.apply v - a.apply 0) := by
  ext <;> simp [Affine.apply, Mat3.mulVec] <;> ring

theorem transformPoint_line (T : Transform ℝ) (k : ℝ) (v w : Vec3 ℝ) :
    T.transformPoint (v + k • (w - v)) = T.transformPoint v + k • (T.transformPoint w - T.transformPoint v) := by
  ext <;> simp [Transform.transformPoint, Quat.rotate, Quat.vec, Vec3.cross] <;> ring

theorem transformPoint_sqNorm {T : Transform ℝ} (h : T.rotation.normSq = 1) (v w : Vec3 ℝ) :
    (T.transformPoint v - T.transformPoint w).sqNorm = T.scale ^ 2 * (v - w).sqNorm := by
  have e : T.transformPoint v - T.transformPoint w = T.rotation.rotate (T.scale • (v - w)) := by
    ext <;> simp [Transform.transformPoint, Quat.rotate, Quat.vec, Vec3.cross] <;> ring
  rw [e]
  unfold Vec3.sqNorm
  rw [Quat.dot_rotate h]
  simp only [Vec3.dot, Vec3.smul_x, Vec3.smul_y, Vec3.smul_z]; ring

namespace EllipsoidLimit

/-- The point relative to the unit sphere. -/
noncomputable def unitPoint (c : EllipsoidLimit) (st : List JointState) : Vec3 ℝ :=
  c.ellipsoidInv.apply ((worldOf st (some c.ellipsoidParent)).inverse.transformPoint (c.pointIn st))

/-- The difference to the projected point. -/
noncomputable def diffIn (c : EllipsoidLimit) (st : List JointState) : Vec3 ℝ :=
  (1 - (c.unitPoint st).norm⁻¹) • (c.pointIn st - c.centreIn st)

theorem world_unitPoint {c : EllipsoidLimit} {st : List JointState} (hi : c.ellipsoid.AreInverse c.ellipsoidInv)
    (hu : (worldOf st (some c.ellipsoidParent)).rotation.normSq = 1) (hs : (worldOf st (some c.ellipsoidParent)).scale ≠ 0) :
    (worldOf st (some c.ellipsoidParent)).transformPoint (c.ellipsoid.apply (c.unitPoint st)) = c.pointIn st := by
  unfold unitPoint
  rw [hi.2]
  exact (C02_inverse _ hu hs).2.2.2 _

theorem evaluate_eq {c : EllipsoidLimit} {st : List JointState} (h1 : c.parent < st.length) (h2 : c.ellipsoidParent < st.length)
    (hi : c.ellipsoid.AreInverse c.ellipsoidInv) (hu : (worldOf st (some c.ellipsoidParent)).rotation.normSq = 1)
    (hs : (worldOf st (some c.ellipsoidParent)).scale ≠ 0) :
    EllipsoidLimits.evaluate c st = some (c.pointIn st, c.diffIn st) := by
  have hw := world_unitPoint hi hu hs
  unfold EllipsoidLimits.evaluate
  have e1 : st[c.parent]? = some st[c.parent] := List.getElem?_eq_getElem _
  have e2 : st[c.ellipsoidParent]? = some st[c.ellipsoidParent] := List.getElem?_eq_getElem _
  have f1 : st[c.parent].transform = worldOf st (some c.parent) := by simp only [worldOf, e1]
  have f2 : st[c.ellipsoidParent].transform = worldOf st (some c.ellipsoidParent) := by simp only [worldOf, e2]
  rw [e1, e2]
  simp only [Option.bind_eq_bind, Option.bind_some, f1, f2, Option.some.injEq, Prod.mk.injEq]
  refine ⟨rfl, ?_⟩
  have hfold : c.ellipsoidInv.apply ((worldOf st (some c.ellipsoidParent)).inverse.transformPoint
      ((worldOf st (some c.parent)).transformPoint c.offset)) = c.unitPoint st := rfl
  rw [hfold, normalized_eq, affine_apply_smul, transformPoint_line, hw]
  show c.pointIn st - (c.centreIn st + _ • (c.pointIn st - c.centreIn st)) = _
  unfold diffIn
  ext <;> simp <;> ring

/-- The distance of the point from the centre of a ball. -/
theorem ball_unitPoint {c : EllipsoidLimit} {st : List JointState} (hi : c.ellipsoid.AreInverse c.ellipsoidInv) {r : ℝ}
    (hb : c.IsBall r) (hu : (worldOf st (some c.ellipsoidParent)).rotation.normSq = 1)
    (hs : (worldOf st (some c.ellipsoidParent)).scale ≠ 0) :
    (c.pointIn st - c.centreIn st).sqNorm =
      ((worldOf st (some c.ellipsoidParent)).scale * r) ^ 2 * (c.unitPoint st).sqNorm := by
  rw [← world_unitPoint hi hu hs]
  unfold centreIn
  rw [transformPoint_sqNorm hu, mul_pow, mul_assoc]
  congr 1
  by_cases h0 : (c.unitPoint st).sqNorm = 0
  · rw [vec_eq_of_sqNorm h0, sub_self]; simp [Vec3.sqNorm, Vec3.dot]
  · have hpos : 0 < (c.unitPoint st).sqNorm := lt_of_le_of_ne (vec_sqNorm_nonneg _) (Ne.symm h0)
    have hn : (c.unitPoint st).norm ^ 2 = (c.unitPoint st).sqNorm := Real.sq_sqrt hpos.le
    have hn0 : (c.unitPoint st).norm ≠ 0 := (Real.sqrt_pos.2 hpos).ne'
    have h1 : ((c.unitPoint st).norm⁻¹ • c.unitPoint st).sqNorm = 1 := by
      rw [sqNorm_smul', inv_pow, hn]; exact inv_mul_cancel₀ h0
    have h2 := hb.2 _ h1
    rw [affine_apply_smul] at h2
    have e : c.ellipsoid.apply 0 + (c.unitPoint st).norm⁻¹ • (c.ellipsoid.apply (c.unitPoint st) - c.ellipsoid.apply 0) -
        c.ellipsoid.apply 0 = (c.unitPoint st).norm⁻¹ • (c.ellipsoid.apply (c.unitPoint st) - c.ellipsoid.apply 0) := by
      ext <;> simp
    rw [e, sqNorm_smul', inv_pow, hn] at h2
    rw [← h2]; field_simp

theorem ball_diff {c : EllipsoidLimit} {st : List JointState} (hi : c.ellipsoid.AreInverse c.ellipsoidInv) {r : ℝ}
    (hb : c.IsBall r) (hu : (worldOf st (some c.ellipsoidParent)).rotation.normSq = 1)
    (hs : 0 < (worldOf st (some c.ellipsoidParent)).scale) (hne : c.pointIn st ≠ c.centreIn st) :
    0 < (c.pointIn st - c.centreIn st).norm ∧
    c.diffIn st = (1 - (worldOf st (some c.ellipsoidParent)).scale * r / (c.pointIn st - c.centreIn st).norm) •
      (c.pointIn st - c.centreIn st) := by
  have h := ball_unitPoint hi hb hu hs.ne'
  have hk : 0 < (worldOf st (some c.ellipsoidParent)).scale * r := mul_pos hs hb.1
  have hn : (c.pointIn st - c.centreIn st).norm =
      (worldOf st (some c.ellipsoidParent)).scale * r * (c.unitPoint st).norm := by
    unfold Vec3.norm; rw [h, Real.sqrt_mul (by positivity), Real.sqrt_sq hk.le]
  have hpos : 0 < (c.pointIn st - c.centreIn st).norm := by
    apply Real.sqrt_pos.2
    refine lt_of_le_of_ne (vec_sqNorm_nonneg _) fun h0 => hne ?_
    have := vec_eq_of_sqNorm h0.symm
    exact sub_eq_zero.1 this
  refine ⟨hpos, ?_⟩
  unfold diffIn
  congr 2
  rw [hn] at hpos ⊢
  have : (c.unitPoint st).norm ≠ 0 := fun h0 => by rw [h0] at hpos; simp at hpos
  have := hb.1.ne'
  have := hs.ne'
  field_simp

end EllipsoidLimit
end Momentum
