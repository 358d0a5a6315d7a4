import Verif.Lemmas.JointDeriv

/-!
# The motion of a joint when all parameters move at once
-/

namespace Momentum
open Skeleton

namespace HasVecDerivAt
variable {f g : ℝ → Vec3 ℝ} {f' g' : Vec3 ℝ} {t : ℝ}

theorem add (h : HasVecDerivAt f f' t) (h2 : HasVecDerivAt g g' t) : HasVecDerivAt (fun u => f u + g u) (f' + g') t :=
  ⟨h.1.add h2.1, h.2.1.add h2.2.1, h.2.2.add h2.2.2⟩

theorem sub (h : HasVecDerivAt f f' t) (h2 : HasVecDerivAt g g' t) : HasVecDerivAt (fun u => f u - g u) (f' - g') t :=
  ⟨h.1.sub h2.1, h.2.1.sub h2.2.1, h.2.2.sub h2.2.2⟩

theorem smul {c : ℝ → ℝ} {c' : ℝ} (hc : HasDerivAt c c' t) (h : HasVecDerivAt f f' t) :
    HasVecDerivAt (fun u => c u • f u) (c' • f t + c t • f') t :=
  ⟨hc.mul h.1, hc.mul h.2.1, hc.mul h.2.2⟩

theorem unique (h : HasVecDerivAt f f' t) (h2 : HasVecDerivAt f g' t) : f' = g' := by
  ext
  · exact h.1.unique h2.1
  · exact h.2.1.unique h2.2.1
  · exact h.2.2.unique h2.2.2

theorem comp {c : ℝ → ℝ} {c' : ℝ} (hc : HasDerivAt c c' t) (h : HasVecDerivAt f f' (c t)) :
    HasVecDerivAt (fun u => f (c u)) (c' • f') t := by
  refine ⟨?_, ?_, ?_⟩
  · exact (h.1.comp t hc).congr_deriv (mul_comm _ _)
  · exact (h.2.1.comp t hc).congr_deriv (mul_comm _ _)
  · exact (h.2.2.comp t hc).congr_deriv (mul_comm _ _)

theorem congr_deriv' (h : HasVecDerivAt f f' t) (e : f' = g') : HasVecDerivAt f g' t := e ▸ h

theorem dot (h : HasVecDerivAt f f' t) (h2 : HasVecDerivAt g g' t) :
    HasDerivAt (fun u => (f u).dot (g u)) (f'.dot (g t) + (f t).dot g') t := by
  refine (((h.1.mul h2.1).add (h.2.1.mul h2.2.1)).add (h.2.2.mul h2.2.2)).congr_deriv ?_
  simp only [Vec3.dot]; ring

end HasVecDerivAt

/-- Affine maps that move, applied to a point that moves. -/
theorem moving_point {A : ℝ → Vec3 ℝ → Vec3 ℝ} (hA : ∀ u y, A u y = A u 0 + y.x • (A u Vec3.unitX - A u 0) +
      y.y • (A u Vec3.unitY - A u 0) + y.z • (A u Vec3.unitZ - A u 0)) {D : Vec3 ℝ → Vec3 ℝ} {t : ℝ}
    (hD : ∀ y, HasVecDerivAt (fun u => A u y) (D y) t) {y : ℝ → Vec3 ℝ} {y' : Vec3 ℝ} (hy : HasVecDerivAt y y' t) :
    HasVecDerivAt (fun u => A u (y u)) (D (y t) + (A t y' - A t 0)) t := by
  have h0 := hD 0
  have hx := (hD Vec3.unitX).sub h0
  have hy1 := (hD Vec3.unitY).sub h0
  have hz := (hD Vec3.unitZ).sub h0
  have hDaff : D (y t) = D 0 + (y t).x • (D Vec3.unitX - D 0) + (y t).y • (D Vec3.unitY - D 0) +
      (y t).z • (D Vec3.unitZ - D 0) := by
    refine (hD (y t)).unique (HasVecDerivAt.congr' ?_ (fun u => hA u (y t)))
    exact ((h0.add (hx.const_smul _)).add (hy1.const_smul _)).add (hz.const_smul _)
  refine HasVecDerivAt.congr' (HasVecDerivAt.congr_deriv' (((h0.add (HasVecDerivAt.smul hy.1 hx)).add
    (HasVecDerivAt.smul hy.2.1 hy1)).add (HasVecDerivAt.smul hy.2.2 hz)) ?_) (fun u => hA u (y u))
  rw [hDaff, hA t y']
  ext <;> simp <;> ring

theorem rotate_affine (q : Quat ℝ) (y : Vec3 ℝ) : q.rotate y = q.rotate 0 + y.x • (q.rotate Vec3.unitX - q.rotate 0) +
    y.y • (q.rotate Vec3.unitY - q.rotate 0) + y.z • (q.rotate Vec3.unitZ - q.rotate 0) := by
  ext <;> simp [Quat.rotate, Quat.vec, Vec3.unitX, Vec3.unitY, Vec3.unitZ] <;> ring

theorem transformPoint_affine (a : Transform ℝ) (y : Vec3 ℝ) : a.transformPoint y = a.transformPoint 0 +
    y.x • (a.transformPoint Vec3.unitX - a.transformPoint 0) + y.y • (a.transformPoint Vec3.unitY - a.transformPoint 0) +
    y.z • (a.transformPoint Vec3.unitZ - a.transformPoint 0) := by
  ext <;> simp [Transform.transformPoint, Quat.rotate, Quat.vec, Vec3.unitX, Vec3.unitY, Vec3.unitZ] <;> ring

theorem transformPoint_linear (a : Transform ℝ) (y : Vec3 ℝ) :
    a.transformPoint y - a.transformPoint 0 = a.rotation.rotate (a.scale • y) := by
  ext <;> simp [Transform.transformPoint, Quat.rotate, Quat.vec]

theorem cross_add' (a b c : Vec3 ℝ) : (a + b).cross c = a.cross c + b.cross c := by ext <;> simp <;> ring
theorem cross_smul' (r : ℝ) (a c : Vec3 ℝ) : (r • a).cross c = r • a.cross c := by ext <;> simp <;> ring
theorem cross_smul_right' (r : ℝ) (a c : Vec3 ℝ) : a.cross (r • c) = r • a.cross c := by ext <;> simp <;> ring
theorem zero_cross' (c : Vec3 ℝ) : (0 : Vec3 ℝ).cross c = 0 := by ext <;> simp

/-- A rotation that turns with angular velocity `w` at `t`. -/
def HasSpin (q : ℝ → Quat ℝ) (w : Vec3 ℝ) (t : ℝ) : Prop :=
  ∀ y, HasVecDerivAt (fun u => (q u).rotate y) (w.cross ((q t).rotate y)) t

theorem HasSpin.const (q : Quat ℝ) (t : ℝ) : HasSpin (fun _ => q) 0 t := by
  intro y
  rw [zero_cross']
  exact HasVecDerivAt.const _ _

theorem HasSpin.angleAxis {v : ℝ → ℝ} {v' t : ℝ} (hv : HasDerivAt v v' t) (i : Fin 3) :
    HasSpin (fun u => Quat.angleAxis (v u) (rotationAxisOf i)) (v' • rotationAxisOf i) t := by
  intro y
  rw [cross_smul']
  exact HasVecDerivAt.comp hv (hasDeriv_angleAxis i y (v t))

theorem HasSpin.mul {a b : ℝ → Quat ℝ} {wa wb : Vec3 ℝ} {t : ℝ} (ha : HasSpin a wa t) (hb : HasSpin b wb t)
    (na : ∀ u, (a u).normSq = 1) (nb : ∀ u, (b u).normSq = 1) :
    HasSpin (fun u => a u * b u) (wa + (a t).rotate wb) t := by
  intro y
  have := moving_point (fun u y => rotate_affine (a u) y) ha (hb y)
  refine HasVecDerivAt.congr' (this.congr_deriv' ?_) (fun u => Quat.rotate_mul (na u) (nb u) y)
  rw [Quat.rotate_mul (na t) (nb t), cross_add', Quat.rotate_zero, sub_zero, Quat.cross_rotate (na t)]

/-- The joints from `j` up to its root. -/
inductive Chain (s : Skeleton ℝ) : Option Nat → List Nat → Prop
  | nil : Chain s none []
  | cons {j : Nat} {jt : Joint ℝ} {l : List Nat} : s.joints[j]? = some jt → Chain s jt.parent l → Chain s (some j) (j :: l)

theorem chain_exists {s : Skeleton ℝ} (hv : s.Valid) : ∀ j, j < s.joints.length → ∃ l, Chain s (some j) l := by
  intro j
  induction j using Nat.strong_induction_on with
  | _ j ih =>
    intro hj
    have e : s.joints[j]? = some s.joints[j] := List.getElem?_eq_getElem _
    cases hp : s.joints[j].parent with
    | none => exact ⟨[j], .cons e (hp ▸ .nil)⟩
    | some p =>
      have := hv j _ p e hp
      obtain ⟨l, hl⟩ := ih p this (this.trans hj)
      exact ⟨j :: l, .cons e (hp ▸ hl)⟩

theorem chain_lt {s : Skeleton ℝ} {o : Option Nat} {l : List Nat} (h : Chain s o l) : ∀ a ∈ l, a < s.joints.length := by
  induction h with
  | nil => simp
  | cons hj _ ih =>
    intro a ha
    rcases List.mem_cons.1 ha with rfl | ha
    · exact getElem?_lt hj
    · exact ih a ha

/-- Angular velocity that the parameters of one joint, moving at rates `w`, give to what hangs on it. -/
noncomputable def jointSpin (js : JointState) (w : Fin 7 → ℝ) : Vec3 ℝ :=
  w 3 • js.rotationAxis 0 + w 4 • js.rotationAxis 1 + w 5 • js.rotationAxis 2

/-- Velocity that the parameters of one joint, moving at rates `w`, give to the world point `pos`. -/
noncomputable def jointVel (js : JointState) (w : Fin 7 → ℝ) (pos : Vec3 ℝ) : Vec3 ℝ :=
  w 0 • js.translationAxis 0 + w 1 • js.translationAxis 1 + w 2 • js.translationAxis 2 +
    (jointSpin js w).cross (pos - js.transform.translation) + w 6 • (Real.log 2 • (pos - js.transform.translation))

/-- The state of joint `a` (only used in range). -/
noncomputable def stateAt (st : List JointState) (a : Nat) : JointState :=
  st.getD a ⟨Transform.one, Transform.one, fun _ => 0, fun _ => 0, true⟩

theorem stateAt_eq {st : List JointState} {a : Nat} {js : JointState} (h : st[a]? = some js) : stateAt st a = js := by
  simp [stateAt, List.getD_eq_getElem?_getD, h]

section
variable {s : Skeleton ℝ} (hv : s.Valid) (hpre : ∀ jt ∈ s.joints, jt.preRotation.normSq = 1) {θ : ℝ → List ℝ}
  {S : ℝ → List JointState} (hG : ∀ u, FKGood s (θ u) true (S u)) (hlen : ∀ u, (S u).length = s.joints.length) {t : ℝ}
  {θ' : Nat → ℝ} (hθ : ∀ i, HasDerivAt (fun u => (θ u).getD i 0) (θ' i) t)

/-- The rates of the seven parameters of joint `a`. -/
def ratesOf (θ' : Nat → ℝ) (a : Nat) : Fin 7 → ℝ := fun k => θ' (7 * a + k)

include hθ in
theorem slice_deriv (a : Nat) (k : Fin 7) : HasDerivAt (fun u => jointSlice (θ u) a k) (ratesOf θ' a k) t := hθ _

include hv hG hlen in
theorem world_eq {j : Nat} {jt : Joint ℝ} (hj : s.joints[j]? = some jt) (u : ℝ) :
    worldOf (S u) (some j) = worldOf (S u) jt.parent * (stateAt (S u) j).localTransform ∧
      (S u)[j]? = some (stateAt (S u) j) ∧
      stateAt (S u) j = JointState.set jt (jointSlice (θ u) j) (jt.parent.bind ((S u)[·]?)) true := by
  have hl : j < (S u).length := by rw [hlen]; exact getElem?_lt hj
  have e : (S u)[j]? = some (S u)[j] := List.getElem?_eq_getElem hl
  rw [stateAt_eq e]
  exact ⟨(hG u).worldOf_eq hv hj e, e, (hG u).eq j jt _ hj e⟩

theorem parentT_worldOf {st : List JointState} {o : Option Nat} (h : ∀ p, o = some p → p < st.length) :
    parentT (o.bind (st[·]?)) = worldOf st o := by
  cases o with
  | none => rfl
  | some p =>
    have hl := h p rfl
    have : st[p]? = some st[p] := List.getElem?_eq_getElem hl
    simp [worldOf, this, parentT]

include hpre hθ in
/-- Spin of the local rotation of a joint. -/
theorem local_spin {j : Nat} {jt : Joint ℝ} (hj : s.joints[j]? = some jt) :
    HasSpin (fun u => jt.preRotation * Quat.angleAxis (jointSlice (θ u) j 5) Vec3.unitZ *
        Quat.angleAxis (jointSlice (θ u) j 4) Vec3.unitY * Quat.angleAxis (jointSlice (θ u) j 3) Vec3.unitX)
      (ratesOf θ' j 5 • jt.preRotation.rotate Vec3.unitZ +
        ratesOf θ' j 4 • (jt.preRotation * Quat.angleAxis (jointSlice (θ t) j 5) Vec3.unitZ).rotate Vec3.unitY +
        ratesOf θ' j 3 • (jt.preRotation * Quat.angleAxis (jointSlice (θ t) j 5) Vec3.unitZ *
          Quat.angleAxis (jointSlice (θ t) j 4) Vec3.unitY).rotate Vec3.unitX) t := by
  have hp := hpre jt (List.mem_of_getElem? hj)
  have n0 : ∀ a, (Quat.angleAxis a Vec3.unitX).normSq = 1 := fun a => normSq_rotationAxis a 0
  have n1 : ∀ a, (Quat.angleAxis a Vec3.unitY).normSq = 1 := fun a => normSq_rotationAxis a 1
  have n2 : ∀ a, (Quat.angleAxis a Vec3.unitZ).normSq = 1 := fun a => normSq_rotationAxis a 2
  have hmul : ∀ {a b : Quat ℝ}, a.normSq = 1 → b.normSq = 1 → (a * b).normSq = 1 := by
    intro a b ha hb; rw [Quat.normSq_mul, ha, hb, one_mul]
  have s5 := HasSpin.angleAxis (slice_deriv hθ j 5) 2
  have s4 := HasSpin.angleAxis (slice_deriv hθ j 4) 1
  have s3 := HasSpin.angleAxis (slice_deriv hθ j 3) 0
  have h1 := (HasSpin.const jt.preRotation t).mul s5 (fun _ => hp) (fun u => n2 _)
  have h2 := h1.mul s4 (fun u => hmul hp (n2 _)) (fun u => n1 _)
  have h3 := h2.mul s3 (fun u => hmul (hmul hp (n2 _)) (n1 _)) (fun u => n0 _)
  simp only [Quat.rotate_smul, zero_add] at h3
  exact h3

include hv hpre hG hlen hθ in
/-- A joint turns with the sum of the spins its ancestors and itself cause. -/
theorem chain_spin {o : Option Nat} {l : List Nat} (hc : Chain s o l) :
    HasSpin (fun u => (worldOf (S u) o).rotation) ((l.map fun a => jointSpin (stateAt (S t) a) (ratesOf θ' a)).sum) t := by
  induction hc with
  | nil => exact HasSpin.const _ _
  | @cons j jt l hj _ ih =>
    have hloc : ∀ u, (stateAt (S u) j).localTransform.rotation = jt.preRotation *
        Quat.angleAxis (jointSlice (θ u) j 5) Vec3.unitZ * Quat.angleAxis (jointSlice (θ u) j 4) Vec3.unitY *
        Quat.angleAxis (jointSlice (θ u) j 3) Vec3.unitX := by
      intro u
      rw [(world_eq hv hG hlen hj u).2.2, JointState.set_localRotation]
    have hw : ∀ u, (worldOf (S u) (some j)).rotation = (worldOf (S u) jt.parent).rotation *
        (jt.preRotation * Quat.angleAxis (jointSlice (θ u) j 5) Vec3.unitZ *
          Quat.angleAxis (jointSlice (θ u) j 4) Vec3.unitY * Quat.angleAxis (jointSlice (θ u) j 3) Vec3.unitX) := by
      intro u
      rw [(world_eq hv hG hlen hj u).1, Transform.mul_rotation, hloc]
    have hn : ∀ u, (worldOf (S u) jt.parent).rotation.normSq = 1 := fun u => ((hG u).worldOf_unit hv hpre _).1
    have key := ih.mul (local_spin hpre hθ hj) hn (fun u => by
      rw [← hloc u, (world_eq hv hG hlen hj u).2.2]
      exact JointState.set_local_unit (hpre jt (List.mem_of_getElem? hj)) _ _ _)
    have hfun : (fun u => (worldOf (S u) (some j)).rotation) = fun u => (worldOf (S u) jt.parent).rotation *
        (jt.preRotation * Quat.angleAxis (jointSlice (θ u) j 5) Vec3.unitZ *
          Quat.angleAxis (jointSlice (θ u) j 4) Vec3.unitY * Quat.angleAxis (jointSlice (θ u) j 3) Vec3.unitX) := funext hw
    rw [hfun, List.map_cons, List.sum_cons, add_comm]
    convert key using 2
    have hpar := parentT_worldOf (st := S t) (o := jt.parent) (fun p hp => by
      rw [hlen]; exact (hv j jt p hj hp).trans (getElem?_lt hj))
    have hset := (world_eq hv hG hlen hj t).2.2
    obtain ⟨ax2, ax1, ax0⟩ := set_rotationAxis jt (jointSlice (θ t) j) (jt.parent.bind ((S t)[·]?))
    have hp := hpre jt (List.mem_of_getElem? hj)
    have n1 : ∀ a, (Quat.angleAxis a Vec3.unitY).normSq = 1 := fun a => normSq_rotationAxis a 1
    have n2 : ∀ a, (Quat.angleAxis a Vec3.unitZ).normSq = 1 := fun a => normSq_rotationAxis a 2
    have hmul : ∀ {a b : Quat ℝ}, a.normSq = 1 → b.normSq = 1 → (a * b).normSq = 1 := by
      intro a b ha hb; rw [Quat.normSq_mul, ha, hb, one_mul]
    unfold jointSpin
    rw [hset, ax0, ax1, ax2, hpar, Quat.rotate_mul (hn t) hp, Quat.rotate_mul (hn t) (hmul hp (n2 _)),
      Quat.rotate_mul (hn t) (hmul (hmul hp (n2 _)) (n1 _))]
    simp only [Quat.rotate_add, Quat.rotate_smul]
    abel

include hv hpre hG hlen hθ in
/-- A point attached to a joint moves with the sum of the velocities its ancestors and itself cause. -/
theorem chain_vel {o : Option Nat} {l : List Nat} (hc : Chain s o l) : ∀ x : Vec3 ℝ,
    HasVecDerivAt (fun u => (worldOf (S u) o).transformPoint x)
      ((l.map fun a => jointVel (stateAt (S t) a) (ratesOf θ' a) ((worldOf (S t) o).transformPoint x)).sum) t := by
  induction hc with
  | nil =>
    intro x
    simp only [List.map_nil, List.sum_nil]
    exact HasVecDerivAt.const ((worldOf [] none).transformPoint x) t
  | @cons j jt l hj _ ih =>
    intro x
    have hset := fun u => (world_eq hv hG hlen hj u).2.2
    have hp := hpre jt (List.mem_of_getElem? hj)
    have hn : ∀ u, (worldOf (S u) jt.parent).rotation.normSq = 1 := fun u => ((hG u).worldOf_unit hv hpre _).1
    have hnl : ∀ u, (stateAt (S u) j).localTransform.rotation.normSq = 1 := fun u => by
      rw [hset u]; exact JointState.set_local_unit hp _ _ _
    have hpt : ∀ u y, (worldOf (S u) (some j)).transformPoint y =
        (worldOf (S u) jt.parent).transformPoint ((stateAt (S u) j).localTransform.transformPoint y) := by
      intro u y
      rw [(world_eq hv hG hlen hj u).1, Transform.transformPoint_mul (hn u) (hnl u)]
    -- the point in the parent's frame
    have hloc : ∀ u, (stateAt (S u) j).localTransform.transformPoint x =
        (jt.translationOffset + ⟨jointSlice (θ u) j 0, jointSlice (θ u) j 1, jointSlice (θ u) j 2⟩) +
        (jt.preRotation * Quat.angleAxis (jointSlice (θ u) j 5) Vec3.unitZ *
          Quat.angleAxis (jointSlice (θ u) j 4) Vec3.unitY * Quat.angleAxis (jointSlice (θ u) j 3) Vec3.unitX).rotate
          ((2 : ℝ) ^ (jointSlice (θ u) j 6) • x) := by
      intro u; rw [hset u, localTransform_of_parts]; rfl
    have hscale : HasDerivAt (fun u => (2 : ℝ) ^ (jointSlice (θ u) j 6))
        ((2 : ℝ) ^ (jointSlice (θ t) j 6) * Real.log 2 * ratesOf θ' j 6) t :=
      ((Real.hasStrictDerivAt_const_rpow two_pos (jointSlice (θ t) j 6)).hasDerivAt).comp t (slice_deriv hθ j 6)
    have hsx : HasVecDerivAt (fun u => (2 : ℝ) ^ (jointSlice (θ u) j 6) • x)
        (((2 : ℝ) ^ (jointSlice (θ t) j 6) * Real.log 2 * ratesOf θ' j 6) • x) t := by
      refine (HasVecDerivAt.smul hscale (HasVecDerivAt.const x t)).congr_deriv' ?_
      rw [smul_zero, add_zero]
    have hrot := moving_point (A := fun u y => (jt.preRotation * Quat.angleAxis (jointSlice (θ u) j 5) Vec3.unitZ *
          Quat.angleAxis (jointSlice (θ u) j 4) Vec3.unitY * Quat.angleAxis (jointSlice (θ u) j 3) Vec3.unitX).rotate y)
      (fun u y => rotate_affine _ y) (local_spin hpre hθ hj) hsx
    have htr : HasVecDerivAt (fun u => jt.translationOffset + (⟨jointSlice (θ u) j 0, jointSlice (θ u) j 1, jointSlice (θ u) j 2⟩ : Vec3 ℝ))
        ⟨ratesOf θ' j 0, ratesOf θ' j 1, ratesOf θ' j 2⟩ t :=
      HasVecDerivAt.const_add _ ⟨slice_deriv hθ j 0, slice_deriv hθ j 1, slice_deriv hθ j 2⟩
    have hy := HasVecDerivAt.congr' (htr.add hrot) hloc
    have key := moving_point (fun u y => transformPoint_affine (worldOf (S u) jt.parent) y) ih hy
    refine HasVecDerivAt.congr' (key.congr_deriv' ?_) (fun u => hpt u x)
    rw [List.map_cons, List.sum_cons, add_comm, ← hpt, transformPoint_linear]
    congr 1
    -- the contribution of the joint itself
    have hpar := parentT_worldOf (st := S t) (o := jt.parent) (fun p hp => by
      rw [hlen]; exact (hv j jt p hj hp).trans (getElem?_lt hj))
    obtain ⟨ax2, ax1, ax0⟩ := set_rotationAxis jt (jointSlice (θ t) j) (jt.parent.bind ((S t)[·]?))
    have tax := fun i => set_translationAxis jt (jointSlice (θ t) j) (jt.parent.bind ((S t)[·]?)) i
    have n1 : ∀ a, (Quat.angleAxis a Vec3.unitY).normSq = 1 := fun a => normSq_rotationAxis a 1
    have n2 : ∀ a, (Quat.angleAxis a Vec3.unitZ).normSq = 1 := fun a => normSq_rotationAxis a 2
    have hmul : ∀ {a b : Quat ℝ}, a.normSq = 1 → b.normSq = 1 → (a * b).normSq = 1 := by
      intro a b ha hb; rw [Quat.normSq_mul, ha, hb, one_mul]
    have hwj : (stateAt (S t) j).transform = worldOf (S t) (some j) := by
      simp only [worldOf, (world_eq hv hG hlen hj t).2.1]
    have hdiff : (worldOf (S t) (some j)).transformPoint x - (stateAt (S t) j).transform.translation =
        (worldOf (S t) jt.parent).rotation.rotate ((worldOf (S t) jt.parent).scale •
          ((jt.preRotation * Quat.angleAxis (jointSlice (θ t) j 5) Vec3.unitZ *
          Quat.angleAxis (jointSlice (θ t) j 4) Vec3.unitY * Quat.angleAxis (jointSlice (θ t) j 3) Vec3.unitX).rotate
            ((2 : ℝ) ^ (jointSlice (θ t) j 6) • x))) := by
      rw [hwj, hpt, (world_eq hv hG hlen hj t).1, hset t, localTransform_of_parts]
      simp only [Transform.transformPoint, Transform.mul_translation, smul_add, Quat.rotate_add]
      abel
    have hcol : ∀ i : Fin 3, (worldOf (S t) jt.parent).toLinear.col i =
        (worldOf (S t) jt.parent).rotation.rotate ((worldOf (S t) jt.parent).scale • rotationAxisOf i) := by
      intro i
      rw [← Transform.toLinear_mulVec]
      fin_cases i <;> ext <;>
        simp [rotationAxisOf, Mat3.mulVec, Mat3.col, Vec3.unitX, Vec3.unitY, Vec3.unitZ]
    have htl : ∀ i, (stateAt (S t) j).translationAxis i =
        (worldOf (S t) jt.parent).rotation.rotate ((worldOf (S t) jt.parent).scale • rotationAxisOf i) := by
      intro i; rw [hset t, tax, hpar, hcol]
    have hspin : jointSpin (stateAt (S t) j) (ratesOf θ' j) = (worldOf (S t) jt.parent).rotation.rotate
        (ratesOf θ' j 5 • jt.preRotation.rotate Vec3.unitZ +
        ratesOf θ' j 4 • (jt.preRotation * Quat.angleAxis (jointSlice (θ t) j 5) Vec3.unitZ).rotate Vec3.unitY +
        ratesOf θ' j 3 • (jt.preRotation * Quat.angleAxis (jointSlice (θ t) j 5) Vec3.unitZ *
          Quat.angleAxis (jointSlice (θ t) j 4) Vec3.unitY).rotate Vec3.unitX) := by
      unfold jointSpin
      rw [hset t, ax0, ax1, ax2, hpar, Quat.rotate_mul (hn t) hp, Quat.rotate_mul (hn t) (hmul hp (n2 _)),
        Quat.rotate_mul (hn t) (hmul (hmul hp (n2 _)) (n1 _))]
      simp only [Quat.rotate_add, Quat.rotate_smul]
      abel
    unfold jointVel
    beta_reduce
    rw [hspin, hdiff, htl 0, htl 1, htl 2, Quat.cross_rotate (hn t)]
    generalize (ratesOf θ' j 5 • jt.preRotation.rotate Vec3.unitZ +
        ratesOf θ' j 4 • (jt.preRotation * Quat.angleAxis (jointSlice (θ t) j 5) Vec3.unitZ).rotate Vec3.unitY +
        ratesOf θ' j 3 • (jt.preRotation * Quat.angleAxis (jointSlice (θ t) j 5) Vec3.unitZ *
          Quat.angleAxis (jointSlice (θ t) j 4) Vec3.unitY).rotate Vec3.unitX) = ω
    generalize (jt.preRotation * Quat.angleAxis (jointSlice (θ t) j 5) Vec3.unitZ *
          Quat.angleAxis (jointSlice (θ t) j 4) Vec3.unitY * Quat.angleAxis (jointSlice (θ t) j 3) Vec3.unitX) = q
    have hunit : (⟨ratesOf θ' j 0, ratesOf θ' j 1, ratesOf θ' j 2⟩ : Vec3 ℝ) =
        ratesOf θ' j 0 • rotationAxisOf 0 + ratesOf θ' j 1 • rotationAxisOf 1 + ratesOf θ' j 2 • rotationAxisOf 2 := by
      ext <;> simp [rotationAxisOf, Vec3.unitX, Vec3.unitY, Vec3.unitZ]
    rw [hunit]
    simp only [cross_smul_right', Quat.rotate_add, Quat.rotate_smul, Quat.rotate_zero, sub_zero, smul_add, smul_smul]
    generalize (worldOf (S t) jt.parent).rotation.rotate (rotationAxisOf 0) = e0
    generalize (worldOf (S t) jt.parent).rotation.rotate (rotationAxisOf 1) = e1
    generalize (worldOf (S t) jt.parent).rotation.rotate (rotationAxisOf 2) = e2
    generalize (worldOf (S t) jt.parent).rotation.rotate (q.rotate x) = e3
    generalize (worldOf (S t) jt.parent).rotation.rotate (ω.cross (q.rotate x)) = e4
    ext <;> simp <;> ring

end
end Momentum
