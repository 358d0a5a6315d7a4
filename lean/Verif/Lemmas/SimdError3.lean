import Verif.Lemmas.SimdError2

/-!
# The tasks of `getGradient`
-/

namespace Momentum
open Skeleton
variable {n m W : Nat} {S : SimdStore ℝ n} {C : Nat → List (Fin (n + 1) → ℝ)}

/-- The derivatives in `getGradient` are those of half the squares, if `D` are those of the residual. -/
def SimdKernel.GradForm (K : SimdKernel n m W) (r : (Fin (n + 1) → ℝ) → Transform ℝ → Fin m → ℝ)
    (D : (Fin (n + 1) → ℝ) → Transform ℝ → JointState → Fin 7 → Fin m → ℝ) : Prop :=
  ∃ o : List (Fin 7), o.Perm (List.finRange 7) ∧ ∀ v js js', js'.derivDirty = false →
    K.grad v js js' = o.map fun d => (d.val, some fun l => 2 * K.scale * v (Fin.last n) l *
      ∑ c, r (fun k => v k l) js.transform c * D (fun k => v k l) js.transform js' d c)

/-- The derivatives in `getJacobian` are those of the residual, if `D` are those of the residual without weights. -/
def SimdKernel.JacForm (K : SimdKernel n m W) (D : (Fin (n + 1) → ℝ) → Transform ℝ → JointState → Fin 7 → Fin m → ℝ) : Prop :=
  ∃ o : List (Fin 7), o.Perm (List.finRange 7) ∧ ∀ w v js js', js'.derivDirty = false →
    K.jac w v js js' = o.map fun d => (d.val, some fun c l => Real.sqrt (K.scale * w * v (Fin.last n) l) *
      D (fun k => v k l) js.transform js' d c)

theorem dofSum_perm {α : Type} (ev : α → ℝ) (w : Nat → ℝ) (a : Nat) {o : List (Fin 7)} (ho : o.Perm (List.finRange 7))
    (f : Fin 7 → α) : dofSum ev w a (o.map fun d => (d.val, f d)) = ∑ d, ev (f d) * w (a * 7 + d) := by
  unfold dofSum
  rw [List.map_map, Fin.sum_univ_def]
  exact (ho.map _).sum_eq

theorem exchange_sums (l : List Nat) (k : Fin W → ℝ) (R : Fin W → Fin m → ℝ) (D : Nat → Fin 7 → Fin W → Fin m → ℝ)
    (co : Nat → Fin 7 → ℝ) : (l.map fun a => ∑ d, (∑ t, k t * ∑ c, R t c * D a d t c) * co a d).sum =
      ∑ t, k t * ∑ c, R t c * (l.map fun a => ∑ d, D a d t c * co a d).sum := by
  induction l with
  | nil => simp
  | cons a l ih =>
    simp only [List.map_cons, List.sum_cons, ih, mul_add, Finset.sum_add_distrib]
    congr 1
    simp only [Finset.mul_sum, Finset.sum_mul]
    rw [Finset.sum_comm]
    refine Finset.sum_congr rfl fun t _ => ?_
    rw [Finset.sum_comm]
    refine Finset.sum_congr rfl fun c _ => Finset.sum_congr rfl fun d _ => by ring

/-- What moving model parameter `i` does to the residual of a constraint of joint `j`, whose chain of joints is `l`. -/
noncomputable def residualVel (D : (Fin (n + 1) → ℝ) → Transform ℝ → JointState → Fin 7 → Fin m → ℝ) (A : SparseMat ℝ)
    (st : List JointState) (l : List Nat) (i j : Nat) (x : Fin (n + 1) → ℝ) (c : Fin m) : ℝ :=
  (l.map fun a => ∑ d, D x (stateAt st j).transform (stateAt st a) d c * A.coeff (a * 7 + d) i).sum

namespace SimdError

open Classical in
/-- What is tracked while the assignments of a task are put together: that all are additions, and what they add. -/
noncomputable def gradTrack (i : Nat) (b : Bool) (ops : List (PacketOp Nat)) : ℝ :=
  if b then addedBy ops i else if ∀ op ∈ ops, op.Adds then 0 else 1

theorem gradEmit_emits {A : SparseMat ℝ} (hwf : A.WF) (rows i : Nat) :
    Emits rows (gradEmit (W := W) A) (gradTrack i) (fun b val => if b then ∑ l, val l else 0)
      (fun b row => if b then A.coeff row i else 0) := by
  intro row val ops _
  obtain ⟨ops', e1, e2⟩ := foldlM_track (fun (ops : List (PacketOp Nat)) (e : Triplet ℝ) =>
      if e.col < A.cols then some (ops ++ [⟨true, [(e.col, (∑ l, val l) * e.val)]⟩]) else none) (gradTrack i)
    (fun b e => if b then (if e.col = i then (∑ l, val l) * e.val else 0) else 0) (A.entries.filter (·.row == row)) (by
      intro e he ops
      have hw := hwf e (List.mem_of_mem_filter he)
      refine ⟨_, if_pos hw.2, fun b => ?_⟩
      cases b with
      | true => simp [gradTrack, addedBy, PacketOp.added]
      | false =>
        simp only [gradTrack, Bool.false_eq_true, if_false, add_zero]
        congr 1
        simp [PacketOp.Adds, or_imp, forall_and]) ops
  refine ⟨ops', e1, fun b => ?_⟩
  rw [e2]
  cases b with
  | true => simp only [if_true, coeff_sum]
  | false => simp

section
variable {B : ErrorBase} {pt : ParameterTransform ℝ} {st : List JointState} {l : List Nat} {i j : Nat}
  {K : SimdKernel n m W} {r : (Fin (n + 1) → ℝ) → Transform ℝ → Fin m → ℝ}
  {D : (Fin (n + 1) → ℝ) → Transform ℝ → JointState → Fin 7 → Fin m → ℝ}

theorem gradTask_eq (hK : K.Measures r) (hG : K.GradForm r D) (hB : B.Fits pt) (hS : S.Holds C) (hW : 0 < W) (hd : W ∣ 4096)
    (hj : j < S.numJoints) (hst : st.length = B.skeleton.joints.length) (hclean : ∀ js ∈ st, js.derivDirty = false)
    (hl : Chain B.skeleton (some j) l) (hen : B.enabledParameters.mem i = true) :
    ∃ e ops, gradTask K B S st j = some (e, ops) ∧ (∀ op ∈ ops, op.Adds) ∧
      e = ((C j).map fun x => x (Fin.last n) * ∑ c, r x (stateAt st j).transform c ^ 2).sum ∧
      addedBy ops i = ((C j).map fun x => 2 * K.scale * x (Fin.last n) * ∑ c, r x (stateAt st j).transform c *
        residualVel D B.transform st l i j x c).sum := by
  obtain ⟨o, ho, hG⟩ := hG
  have hjl : j < st.length := by
    rw [hst]
    cases hl with
    | cons h _ => exact getElem?_lt h
  have ej : st[j]? = some (stateAt st j) := by
    have : st[j]? = some st[j] := List.getElem?_eq_getElem hjl
    rw [stateAt_eq this, this]
  let X := fun index (t : Fin W) => laneAt S j (index + t)
  let V (c : Option Bool) (index : Nat) : ℝ := match c with
    | none => ∑ t, K.error (lanesAt S W j index) (stateAt st j) t
    | some true => ∑ t, 2 * K.scale * X index t (Fin.last n) * ∑ c, r (X index t) (stateAt st j).transform c *
        residualVel D B.transform st l i j (X index t) c
    | some false => 0
  obtain ⟨⟨e, ops⟩, e1, e2⟩ := foldlM_track (gradPacket K B S st (stateAt st j) j)
    (fun (c : Option Bool) s => match c with | none => s.1 | some b => gradTrack i b s.2) V
    (packetStarts W (S.count j)) (by
      intro index hi s
      have hb : B.transform.WF := by rw [hB.transform]; exact hB.wf
      obtain ⟨ops, w1, w2⟩ := chainWalk_track (gradEmit_emits (W := W) hb (B.skeleton.joints.length * 7) i)
        (active := B.activeJointParams) (by rw [hB.activeLength, hB.rows]) rfl
        (by
          intro b row hne
          cases b with
          | true => exact hB.active row i hen (by rw [← hB.transform]; simpa using hne)
          | false => simp at hne)
        hst (dofs := K.grad (lanesAt S W j index) (stateAt st j))
        (dv := fun js' => o.map fun d => (d.val, fun t => 2 * K.scale * X index t (Fin.last n) *
          ∑ c, r (X index t) (stateAt st j).transform c * D (X index t) (stateAt st j).transform js' d c))
        (by intro js' h; rw [hG _ _ _ (hclean _ h), List.map_map]; rfl)
        (by
          intro js' _ d hd
          obtain ⟨d, -, rfl⟩ := List.mem_map.1 hd
          exact d.isLt) hl.to s.2
      refine ⟨(s.1 + ∑ t, K.error (lanesAt S W j index) (stateAt st j) t, ops), ?_, ?_⟩
      · unfold gradPacket
        rw [load_eq hS hW hd hj hi, Option.bind_some, w1, Option.bind_some]
      · intro c
        match c with
        | none => rfl
        | some false =>
          simp only [V]
          rw [w2 false]
          congr 1
          refine List.sum_eq_zero fun x hx => ?_
          obtain ⟨a, -, rfl⟩ := List.mem_map.1 hx
          refine List.sum_eq_zero fun x hx => ?_
          obtain ⟨d, -, rfl⟩ := List.mem_map.1 hx
          simp
        | some true =>
          simp only [V]
          rw [w2 true]
          simp only [if_true, dofSum_perm _ _ _ ho]
          congr 1
          exact exchange_sums l (fun t => 2 * K.scale * X index t (Fin.last n))
            (fun t c => r (X index t) (stateAt st j).transform c)
            (fun a d t c => D (X index t) (stateAt st j).transform (stateAt st a) d c)
            (fun a d => B.transform.coeff (a * 7 + d) i)) (0, [])
  refine ⟨e, ops, ?_, ?_, ?_, ?_⟩
  · unfold gradTask
    rw [ej, Option.bind_some, e1]
  · have h := e2 (some false)
    simp only [V, gradTrack, Bool.false_eq_true, if_false, List.map_const', List.sum_replicate, smul_zero, add_zero,
      List.not_mem_nil, false_implies, implies_true, if_true] at h
    by_contra hne
    rw [if_neg hne] at h
    exact one_ne_zero h
  · have h := e2 none
    simp only [V, zero_add] at h
    rw [h, error_packets hK hS hW hd hj]
  · have h := e2 (some true)
    simp only [V, gradTrack, if_true] at h
    rw [h, packets_sum hS hW hd hj (fun x => 2 * K.scale * x (Fin.last n) * ∑ c, r x (stateAt st j).transform c *
      residualVel D B.transform st l i j x c) (by intro x hx; simp [hx])]
    simp [addedBy]

end

end SimdError

end Momentum
