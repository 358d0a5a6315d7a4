import Verif.Lemmas.SimdError4

/-!
# The tasks of `getJacobian`, continued
-/

namespace Momentum
open Skeleton
variable {n m W : Nat} {S : SimdStore ℝ n} {C : Nat → List (Fin (n + 1) → ℝ)}

namespace SimdError

theorem packetAt_sums (l : List Nat) (offset t : Nat) (k : Fin W → ℝ) (D : Nat → Fin 7 → Fin W → Fin m → ℝ)
    (co : Nat → Fin 7 → ℝ) :
    (l.map fun a => ∑ d, packetAt offset t (fun (c : Fin m) (l : Fin W) => k l * D a d l c) * co a d).sum =
      packetAt offset t fun (c : Fin m) (t : Fin W) => k t * (l.map fun a => ∑ d, D a d t c * co a d).sum := by
  induction l with
  | nil => simp [packetAt]
  | cons a l ih =>
    simp only [List.map_cons, List.sum_cons, ih]
    unfold packetAt
    simp only [Finset.sum_mul, ← Finset.sum_add_distrib]
    rw [Finset.sum_comm, ← Finset.sum_add_distrib]
    refine Finset.sum_congr rfl fun c _ => ?_
    rw [Finset.sum_comm, ← Finset.sum_add_distrib]
    refine Finset.sum_congr rfl fun x _ => ?_
    split
    · rw [mul_add, Finset.mul_sum]
      congr 1
      refine Finset.sum_congr rfl fun d _ => by ring
    · simp

theorem packetAt_inside (offset : Nat) (jc : Fin m → Lanes W) (c : Fin m) (l : Fin W) :
    packetAt offset (offset + W * c + l) jc = jc c l := by
  unfold packetAt
  rw [Finset.sum_eq_single c, Finset.sum_eq_single l]
  · simp
  · intro l' _ hne
    rw [if_neg]
    intro h
    exact hne (Fin.ext (by omega))
  · simp
  · intro c' _ hne
    refine Finset.sum_eq_zero fun l' _ => if_neg fun h => ?_
    have h1 := l.isLt
    have h2 := l'.isLt
    have hne : c'.val ≠ c.val := fun h => hne (Fin.ext h)
    rcases Nat.lt_or_ge c'.val c.val with h3 | h3
    · have : W * (c'.val + 1) ≤ W * c.val := Nat.mul_le_mul_left _ h3
      rw [Nat.mul_add, Nat.mul_one] at this
      omega
    · have : W * (c.val + 1) ≤ W * c'.val := Nat.mul_le_mul_left _ (by omega)
      rw [Nat.mul_add, Nat.mul_one] at this
      omega
  · simp

theorem packetAt_outside {offset t : Nat} (jc : Fin m → Lanes W) (h : t < offset ∨ offset + W * m ≤ t) :
    packetAt offset t jc = 0 := by
  refine Finset.sum_eq_zero fun c _ => Finset.sum_eq_zero fun l _ => if_neg fun e => ?_
  have := block_le (Nat.le_refl (offset + W * m)) c
  have := l.isLt
  rcases h with h | h <;> omega

section
variable {B : ErrorBase} {pt : ParameterTransform ℝ} {st : List JointState} {l : List Nat} {i j : Nat}
  {K : SimdKernel n m W} {r : (Fin (n + 1) → ℝ) → Transform ℝ → Fin m → ℝ}
  {D : (Fin (n + 1) → ℝ) → Transform ℝ → JointState → Fin 7 → Fin m → ℝ}

/-- The factor of lane `x` in residual and Jacobian. -/
noncomputable def laneScale (K : SimdKernel n m W) (w : ℝ) (x : Fin (n + 1) → ℝ) : ℝ := Real.sqrt (K.scale * w * x (Fin.last n))

theorem jacPacket_eq (hK : K.Measures r) (hJ : K.JacForm D) (hB : B.Fits pt) (hS : S.Holds C) (hW : 0 < W) (hd : W ∣ 4096)
    (hj : j < S.numJoints) (hst : st.length = B.skeleton.joints.length) (hclean : ∀ js ∈ st, js.derivDirty = false)
    (hl : Chain B.skeleton (some j) l) (hen : B.enabledParameters.mem i = true) {rows first lo hi index : Nat}
    (hi' : index ∈ packetStarts W (S.count j)) (hlo : lo ≤ first + index * m) (hhi : first + index * m + W * m ≤ hi)
    (hrows : hi ≤ rows) (mem : JacCell → ℝ) (s : ℝ × List (PacketOp JacCell)) :
    ∃ ops', jacPacket K B S st rows first (stateAt st j) j s index =
        some (s.1 + ∑ t, K.error (lanesAt S W j index) (stateAt st j) t, ops') ∧
      (Within lo hi s.2 → Within lo hi ops') ∧
      (∀ t, execOps ops' mem (.jac i t) = execOps s.2 mem (.jac i t) + packetAt (first + index * m) t fun (c : Fin m) (t : Fin W) =>
        laneScale K B.weight (laneAt S j (index + t)) * residualVel D B.transform st l i j (laneAt S j (index + t)) c) ∧
      (∀ t, t < first + index * m ∨ first + index * m + W * m ≤ t → execOps ops' mem (.res t) = execOps s.2 mem (.res t)) ∧
      ∀ (c : Fin m) (t : Fin W), execOps ops' mem (.res (first + index * m + W * c + t)) =
        laneScale K B.weight (laneAt S j (index + t)) * r (laneAt S j (index + t)) (stateAt st j).transform c := by
  obtain ⟨o, ho, hJ⟩ := hJ
  have hb : B.transform.WF := by rw [hB.transform]; exact hB.wf
  obtain ⟨ops1, r1, r2, r3, r4, r5⟩ := resEmit_eq i mem hlo hhi hrows
    (K.residual B.weight (lanesAt S W j index) (stateAt st j)) s.2
  obtain ⟨ops, w1, w2⟩ := chainWalk_track (jacEmit_emits (W := W) hb (B.skeleton.joints.length * 7) rows
      (first + index * m) lo hi i mem hlo hhi hrows)
    (active := B.activeJointParams) (by rw [hB.activeLength, hB.rows]) rfl
    (by
      intro b row hne
      match b with
      | .jac _ => exact hB.active row i hen (by rw [← hB.transform]; simpa using hne)
      | .within => simp at hne
      | .res _ => simp at hne)
    hst (dofs := K.jac B.weight (lanesAt S W j index) (stateAt st j))
    (dv := fun js' => o.map fun d => (d.val, fun c (t : Fin W) => laneScale K B.weight (laneAt S j (index + t)) *
      D (laneAt S j (index + t)) (stateAt st j).transform js' d c))
    (by intro js' h; rw [hJ _ _ _ _ (hclean _ h), List.map_map]; rfl)
    (by
      intro js' _ d hd
      obtain ⟨d, -, rfl⟩ := List.mem_map.1 hd
      exact d.isLt) hl.to ops1
  refine ⟨ops, ?_, ?_, ?_, ?_, ?_⟩
  · unfold jacPacket
    rw [load_eq hS hW hd hj hi', Option.bind_some, r1, Option.bind_some, w1, Option.bind_some]
  · intro h
    have h1 := w2 .within
    have h2 : (l.map fun a => dofSum (fun _ : Fin m → Lanes W => (0 : ℝ)) (fun _ => 0) a
        (o.map fun d => (d.val, fun c (t : Fin W) => laneScale K B.weight (laneAt S j (index + t)) *
        D (laneAt S j (index + t)) (stateAt st j).transform (stateAt st a) d c))).sum = 0 := by
      refine List.sum_eq_zero fun x hx => ?_
      obtain ⟨a, -, rfl⟩ := List.mem_map.1 hx
      refine List.sum_eq_zero fun x hx => ?_
      obtain ⟨d, -, rfl⟩ := List.mem_map.1 hx
      simp
    simp only [jacTrack, if_pos (r2 h)] at h1
    rw [h2, add_zero] at h1
    by_contra hne
    rw [if_neg hne] at h1
    exact one_ne_zero h1
  · intro t
    have h1 := w2 (.jac t)
    simp only [jacTrack, dofSum_perm _ _ _ ho] at h1
    rw [h1, r3]
    congr 1
    exact packetAt_sums l _ _ (fun t => laneScale K B.weight (laneAt S j (index + t)))
      (fun a d t c => D (laneAt S j (index + t)) (stateAt st j).transform (stateAt st a) d c)
      (fun a d => B.transform.coeff (a * 7 + d) i)
  all_goals
    have h0 : ∀ t, execOps ops mem (.res t) = execOps ops1 mem (.res t) := by
      intro t
      have h1 := w2 (.res t)
      have h2 : (l.map fun a => dofSum (fun _ : Fin m → Lanes W => (0 : ℝ)) (fun _ => 0) a
          (o.map fun d => (d.val, fun c (t : Fin W) => laneScale K B.weight (laneAt S j (index + t)) *
          D (laneAt S j (index + t)) (stateAt st j).transform (stateAt st a) d c))).sum = 0 := by
        refine List.sum_eq_zero fun x hx => ?_
        obtain ⟨a, -, rfl⟩ := List.mem_map.1 hx
        refine List.sum_eq_zero fun x hx => ?_
        obtain ⟨d, -, rfl⟩ := List.mem_map.1 hx
        simp
      simp only [jacTrack] at h1
      rw [h2, add_zero] at h1
      exact h1
  · intro t ht
    rw [h0, r4 t ht]
  · intro c t
    rw [h0, r5, hK.residual]; rfl

theorem jacTask_eq {E : SimdError n} (hK : K.Measures r) (hJ : K.JacForm D) (hB : E.base.Fits pt) (hS : S.Holds C)
    (hW : 0 < W) (hd : W ∣ 4096) (hj : j < S.numJoints) (hst : st.length = E.base.skeleton.joints.length)
    (hclean : ∀ js ∈ st, js.derivDirty = false) (hl : Chain E.base.skeleton (some j) l)
    (hen : E.base.enabledParameters.mem i = true) {rows first shift : Nat} (ho : E.jacobianOffset[j]? = some first)
    (hrows : first + shift + rowsOf m W (S.count j) ≤ rows) (mem : JacCell → ℝ) :
    ∃ e ops, jacTask K E S st rows shift j = some (e, ops) ∧
      e = ((C j).map fun x => x (Fin.last n) * ∑ c, r x (stateAt st j).transform c ^ 2).sum ∧
      Within (first + shift) (first + shift + rowsOf m W (S.count j)) ops ∧
      ∀ q < (S.count j + W - 1) / W, ∀ (c : Fin m) (t : Fin W),
        execOps ops mem (.res (first + shift + q * W * m + W * c + t)) =
          laneScale K E.base.weight (laneAt S j (q * W + t)) * r (laneAt S j (q * W + t)) (stateAt st j).transform c ∧
        execOps ops mem (.jac i (first + shift + q * W * m + W * c + t)) =
          mem (.jac i (first + shift + q * W * m + W * c + t)) + laneScale K E.base.weight (laneAt S j (q * W + t)) *
            residualVel D E.base.transform st l i j (laneAt S j (q * W + t)) c := by
  have hjl : j < st.length := by
    rw [hst]
    cases hl with
    | cons h _ => exact getElem?_lt h
  have ej : st[j]? = some (stateAt st j) := by
    have : st[j]? = some st[j] := List.getElem?_eq_getElem hjl
    rw [stateAt_eq this, this]
  generalize hF : first + shift = F at *
  have key : ∀ P ≤ (S.count j + W - 1) / W, ∃ ops,
      ((List.range P).map (· * W)).foldlM (jacPacket K E.base S st rows F (stateAt st j) j) (0, []) =
        some ((((List.range P).map (· * W)).map fun index => ∑ t : Fin W, K.error (lanesAt S W j index) (stateAt st j) t).sum, ops) ∧
      Within F (F + rowsOf m W (S.count j)) ops ∧
      (∀ q < P, ∀ (c : Fin m) (t : Fin W),
        execOps ops mem (.res (F + q * W * m + W * c + t)) =
          laneScale K E.base.weight (laneAt S j (q * W + t)) * r (laneAt S j (q * W + t)) (stateAt st j).transform c ∧
        execOps ops mem (.jac i (F + q * W * m + W * c + t)) =
          mem (.jac i (F + q * W * m + W * c + t)) + laneScale K E.base.weight (laneAt S j (q * W + t)) *
            residualVel D E.base.transform st l i j (laneAt S j (q * W + t)) c) ∧
      ∀ t, F + P * W * m ≤ t → execOps ops mem (.jac i t) = mem (.jac i t) := by
    intro P
    induction P with
    | zero => intro _; exact ⟨[], rfl, by simp [Within, cellsOf], by simp, fun _ _ => rfl⟩
    | succ P ih =>
      intro hP
      obtain ⟨ops, e1, e2, e3, e4⟩ := ih (by omega)
      have hm : (P + 1) * W * m ≤ rowsOf m W (S.count j) := Nat.mul_le_mul_right _ (Nat.mul_le_mul_right _ hP)
      have hm' : (P + 1) * W * m = P * W * m + W * m := by rw [Nat.add_mul, Nat.one_mul, Nat.add_mul]
      obtain ⟨ops', p1, p2, p3, p4, p5⟩ := jacPacket_eq hK hJ hB hS hW hd hj hst hclean hl hen
        (rows := rows) (first := F) (lo := F) (hi := F + rowsOf m W (S.count j)) (index := P * W)
        (mem_packetStarts.2 ⟨P, by omega, rfl⟩) (by omega) (by omega) (by omega) mem
        ((((List.range P).map (· * W)).map fun index => ∑ t : Fin W, K.error (lanesAt S W j index) (stateAt st j) t).sum, ops)
      refine ⟨ops', ?_, p2 e2, ?_, ?_⟩
      · rw [List.range_succ, List.map_append, List.foldlM_append, e1]
        simp only [Option.bind_eq_bind, Option.bind_some, List.map_cons, List.map_nil, List.foldlM_cons, p1, List.foldlM_nil,
          Option.pure_def, List.map_append, List.sum_append, List.sum_cons, List.sum_nil, add_zero]
      · intro q hq c t
        rcases Nat.lt_or_ge q P with h | h
        · obtain ⟨h1, h2⟩ := e3 q h c t
          have hb := block_le (Nat.le_refl (F + q * W * m + W * m)) c
          have ht := t.isLt
          have hqm : (q + 1) * W * m ≤ P * W * m := Nat.mul_le_mul_right _ (Nat.mul_le_mul_right _ h)
          have hqm' : (q + 1) * W * m = q * W * m + W * m := by rw [Nat.add_mul, Nat.one_mul, Nat.add_mul]
          rw [p4 _ (Or.inl (by omega)), p3, packetAt_outside _ (Or.inl (by omega)), add_zero]
          exact ⟨h1, h2⟩
        · have : q = P := by omega
          subst this
          refine ⟨p5 c t, ?_⟩
          rw [p3, packetAt_inside, e4 _ (by omega)]
      · intro t ht
        rw [p3, packetAt_outside _ (Or.inr (by omega)), add_zero, e4 _ (by omega)]
  obtain ⟨ops, e1, e2, e3, -⟩ := key _ (Nat.le_refl _)
  refine ⟨((C j).map fun x => x (Fin.last n) * ∑ c, r x (stateAt st j).transform c ^ 2).sum, ops, ?_, rfl, e2, e3⟩
  unfold jacTask
  rw [ej, Option.bind_some, ho, Option.bind_some, hF, ← error_packets hK hS hW hd hj]
  exact e1

end

end SimdError

end Momentum
