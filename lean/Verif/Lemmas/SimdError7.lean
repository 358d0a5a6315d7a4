import Verif.Lemmas.SimdError6

/-!
# `getJacobian` as a whole
-/

namespace Momentum
open Skeleton
variable {n m W : Nat} {S : SimdStore ℝ n} {C : Nat → List (Fin (n + 1) → ℝ)}

namespace SimdError

/-- The first row of joint `j`. -/
def rowsBefore (m W : Nat) (S : SimdStore ℝ n) (j : Nat) : Nat := ∑ k ∈ Finset.range j, rowsOf m W (S.count k)

theorem rowsBefore_succ (j : Nat) : rowsBefore m W S (j + 1) = rowsBefore m W S j + rowsOf m W (S.count j) :=
  Finset.sum_range_succ _ _

theorem rowsBefore_mono {j k : Nat} (h : j ≤ k) : rowsBefore m W S j ≤ rowsBefore m W S k :=
  Finset.sum_le_sum_of_subset (Finset.range_mono h)

theorem getJacobianSize_eq {E : SimdError n} (hE : E.store = some S) : E.getJacobianSize m W =
    (rowsBefore m W S S.numJoints, { E with jacobianOffset := (List.range S.numJoints).map (rowsBefore m W S) }) := by
  have key : ∀ k, (List.range k).foldl (sizeStep m W S) (0, []) = (rowsBefore m W S k, (List.range k).map (rowsBefore m W S)) := by
    intro k
    induction k with
    | zero => rfl
    | succ k ih => rw [List.range_succ, List.foldl_append, ih, rowsBefore_succ]; simp [sizeStep]
  unfold getJacobianSize
  simp only [hE, key]

/-- Every row belongs to a joint. -/
theorem row_joint {N t : Nat} (h : t < rowsBefore m W S N) :
    ∃ j < N, ∃ t' < rowsOf m W (S.count j), t = rowsBefore m W S j + t' := by
  induction N with
  | zero => simp [rowsBefore] at h
  | succ N ih =>
    rw [rowsBefore_succ] at h
    rcases Nat.lt_or_ge t (rowsBefore m W S N) with h1 | h1
    · obtain ⟨j, hj, r⟩ := ih h1
      exact ⟨j, by omega, r⟩
    · exact ⟨N, by omega, t - rowsBefore m W S N, by omega, by omega⟩

/-- And there to a lane of a packet. -/
theorem row_lane {P t : Nat} (h : t < P * W * m) : ∃ q < P, ∃ (c : Fin m) (l : Fin W), t = q * W * m + W * c + l := by
  have hWm : 0 < W * m := by
    rcases Nat.eq_zero_or_pos (W * m) with h0 | h0
    · rw [Nat.mul_assoc, h0, Nat.mul_zero] at h; omega
    · exact h0
  have hW : 0 < W := Nat.pos_of_mul_pos_right hWm
  have h1 := Nat.mod_lt t hWm
  have h2 := Nat.div_add_mod t (W * m)
  have h3 := Nat.mod_lt (t % (W * m)) hW
  have h4 := Nat.div_add_mod (t % (W * m)) W
  refine ⟨t / (W * m), ?_, ⟨t % (W * m) / W, ?_⟩, ⟨t % (W * m) % W, h3⟩, ?_⟩
  · rw [Nat.div_lt_iff_lt_mul hWm, ← Nat.mul_assoc]; exact h
  · rw [Nat.div_lt_iff_lt_mul hW, Nat.mul_comm m W]; exact h1
  · simp only
    rw [Nat.mul_assoc, Nat.mul_comm (t / (W * m))]
    omega

theorem sum_rows (f : Nat → ℝ) (N : Nat) : ∑ t ∈ Finset.range (rowsBefore m W S N), f t =
    ((List.range N).map fun j => ∑ t ∈ Finset.range (rowsOf m W (S.count j)), f (rowsBefore m W S j + t)).sum := by
  induction N with
  | zero => simp [rowsBefore]
  | succ N ih => rw [rowsBefore_succ, Finset.sum_range_add, ih, List.range_succ]; simp

theorem sum_lanes (f : Nat → ℝ) (P : Nat) : ∑ t ∈ Finset.range (P * W * m), f t =
    ((List.range P).map fun q => ∑ l : Fin W, ∑ c : Fin m, f (q * W * m + W * c + l)).sum := by
  have h1 : ∀ o, ∑ t ∈ Finset.range (W * m), f (o + t) = ∑ l : Fin W, ∑ c : Fin m, f (o + W * c + l) := by
    intro o
    rw [Finset.sum_comm]
    have := sum_blocks (m := W) (List.finRange m) (fun t => f (o + t)) (fun c => ∑ l : Fin W, f (o + W * c + l)) (by
      intro k c hk
      obtain ⟨h, hk⟩ := List.getElem?_eq_some_iff.1 hk
      rw [List.getElem_finRange] at hk
      subst hk
      simp only [Fin.val_cast, Fin.val_mk]
      refine Finset.sum_congr rfl fun l _ => by rw [Nat.add_assoc])
    rw [List.length_finRange] at this
    rw [this, Fin.sum_univ_def]
  induction P with
  | zero => simp
  | succ P ih =>
    rw [Nat.add_mul, Nat.one_mul, Nat.add_mul, Finset.sum_range_add, ih, List.range_succ, h1]
    simp

section
variable {E : SimdError n} {pt : ParameterTransform ℝ} {st : List JointState} {ch : Nat → List Nat} {i : Nat}
  {K : SimdKernel n m W} {r : (Fin (n + 1) → ℝ) → Transform ℝ → Fin m → ℝ}
  {D : (Fin (n + 1) → ℝ) → Transform ℝ → JointState → Fin 7 → Fin m → ℝ}
  (hK : K.Measures r) (hJ : K.JacForm D) (hB : E.base.Fits pt) (hS : S.Holds C) (hW : 0 < W) (hd : W ∣ 4096)
  (hN : S.numJoints ≤ E.base.skeleton.joints.length) (hst : st.length = E.base.skeleton.joints.length)
  (hclean : ∀ js ∈ st, js.derivDirty = false)
  (hch : ∀ j < E.base.skeleton.joints.length, Chain E.base.skeleton (some j) (ch j))
  (hen : E.base.enabledParameters.mem i = true) (hE : E.store = some S)
  (hoff : E.jacobianOffset = (List.range S.numJoints).map (rowsBefore m W S))

include hK hJ hB hS hW hd hN hst hclean hch hen hoff in
theorem jacTasks_eq {rows shift : Nat} (hrows : shift + rowsBefore m W S S.numJoints ≤ rows) (mem : JacCell → ℝ) :
    ∃ tasks, (List.range S.numJoints).mapM (jacTask K E S st rows shift) = some tasks ∧
      (tasks.map (·.1)).sum = ((List.range S.numJoints).map (jointError r C st)).sum ∧
      ∀ j < S.numJoints, ∃ T, tasks[j]? = some T ∧
        Within (rowsBefore m W S j + shift) (rowsBefore m W S (j + 1) + shift) T.2 ∧
        ∀ q < (S.count j + W - 1) / W, ∀ (c : Fin m) (t : Fin W),
          execOps T.2 mem (.res (rowsBefore m W S j + shift + q * W * m + W * c + t)) =
            laneScale K E.base.weight (laneAt S j (q * W + t)) * r (laneAt S j (q * W + t)) (stateAt st j).transform c ∧
          execOps T.2 mem (.jac i (rowsBefore m W S j + shift + q * W * m + W * c + t)) =
            mem (.jac i (rowsBefore m W S j + shift + q * W * m + W * c + t)) +
              laneScale K E.base.weight (laneAt S j (q * W + t)) *
                residualVel D E.base.transform st (ch j) i j (laneAt S j (q * W + t)) c := by
  have h0 : ∀ j, ∃ T : ℝ × List (PacketOp JacCell), j < S.numJoints → jacTask K E S st rows shift j = some T ∧
      T.1 = jointError r C st j ∧ Within (rowsBefore m W S j + shift) (rowsBefore m W S (j + 1) + shift) T.2 ∧
        ∀ q < (S.count j + W - 1) / W, ∀ (c : Fin m) (t : Fin W),
          execOps T.2 mem (.res (rowsBefore m W S j + shift + q * W * m + W * c + t)) =
            laneScale K E.base.weight (laneAt S j (q * W + t)) * r (laneAt S j (q * W + t)) (stateAt st j).transform c ∧
          execOps T.2 mem (.jac i (rowsBefore m W S j + shift + q * W * m + W * c + t)) =
            mem (.jac i (rowsBefore m W S j + shift + q * W * m + W * c + t)) +
              laneScale K E.base.weight (laneAt S j (q * W + t)) *
                residualVel D E.base.transform st (ch j) i j (laneAt S j (q * W + t)) c := by
    intro j
    by_cases hj : j < S.numJoints
    · have hmono := rowsBefore_mono (m := m) (W := W) (S := S) (j := j + 1) (k := S.numJoints) hj
      have hs := rowsBefore_succ (m := m) (W := W) (S := S) j
      obtain ⟨e, ops, h1, h2, h3, h4⟩ := jacTask_eq hK hJ hB hS hW hd hj hst hclean (hch j (by omega)) hen
        (rows := rows) (first := rowsBefore m W S j) (shift := shift) (by rw [hoff]; simp [hj]) (by omega) mem
      refine ⟨(e, ops), fun _ => ⟨h1, h2, ?_, h4⟩⟩
      rw [hs, Nat.add_right_comm]
      exact h3
    · exact ⟨(0, []), fun h => absurd h hj⟩
  choose T hT using h0
  refine ⟨(List.range S.numJoints).map T, mapM_of_forall fun j hj => (hT j (List.mem_range.1 hj)).1, ?_, ?_⟩
  · rw [List.map_map]
    congr 1
    exact List.map_congr_left fun j hj => (hT j (List.mem_range.1 hj)).2.1
  · intro j hj
    exact ⟨T j, by simp [hj], (hT j hj).2.2⟩

theorem getJacobian_def (hE : E.store = some S) (schedule : List Nat) (rows shift : Nat) (J : Nat → Nat → ℝ) (R : Nat → ℝ) :
    E.getJacobian K st schedule rows shift J R = if S.numJoints ≤ E.jacobianOffset.length then
      ((List.range S.numJoints).mapM (jacTask K E S st rows shift)).bind fun tasks =>
        (parRun (tasks.map (·.2)) schedule (jacMem J R)).bind
          fun mem => some ⟨K.scale * E.base.weight * (tasks.map (·.1)).sum, rows, fun i t => mem (.jac i t),
            fun t => mem (.res t)⟩
    else none := by
  unfold getJacobian
  simp only [hE]

include hK hJ hB hS hW hd hN hst hclean hch hen hE hoff in
/-- Whatever the schedule, the rows hold the residuals and their derivatives. -/
theorem getJacobian_eq {rows shift : Nat} (hrows : shift + rowsBefore m W S S.numJoints ≤ rows) (schedule : List Nat)
    (J : Nat → Nat → ℝ) (R : Nat → ℝ) {res : JacobianResult} (h : E.getJacobian K st schedule rows shift J R = some res) :
    res.rows = rows ∧ res.error = K.scale * E.base.weight * ((List.range S.numJoints).map (jointError r C st)).sum ∧
      (∀ j < S.numJoints, ∀ q < (S.count j + W - 1) / W, ∀ (c : Fin m) (t : Fin W),
        res.residual (rowsBefore m W S j + shift + q * W * m + W * c + t) =
          laneScale K E.base.weight (laneAt S j (q * W + t)) * r (laneAt S j (q * W + t)) (stateAt st j).transform c ∧
        res.e i (rowsBefore m W S j + shift + q * W * m + W * c + t) =
          J i (rowsBefore m W S j + shift + q * W * m + W * c + t) +
            laneScale K E.base.weight (laneAt S j (q * W + t)) *
              residualVel D E.base.transform st (ch j) i j (laneAt S j (q * W + t)) c) ∧
      ∀ t, t < shift ∨ shift + rowsBefore m W S S.numJoints ≤ t → res.residual t = R t ∧ ∀ k, res.e k t = J k t := by
  obtain ⟨tasks, t1, t2, t3⟩ := jacTasks_eq hK hJ hB hS hW hd hN hst hclean hch hen hoff hrows (jacMem J R)
  rw [getJacobian_def hE, if_pos (by rw [hoff]; simp), t1, Option.bind_some] at h
  cases hp : parRun (tasks.map (·.2)) schedule (jacMem J R) with
  | none => rw [hp] at h; cases h
  | some mem =>
    rw [hp, Option.bind_some, t2] at h
    cases h
    have htl : tasks.length = S.numJoints := by rw [mapM_length t1, List.length_range]
    have hw : ∀ j o, (tasks.map (·.2))[j]? = some o →
        j < S.numJoints ∧ Within (rowsBefore m W S j + shift) (rowsBefore m W S (j + 1) + shift) o := by
      intro j o ho
      have hj : j < S.numJoints := by
        have := getElem?_lt ho
        rw [List.length_map] at this
        omega
      obtain ⟨T, h1, h2, -⟩ := t3 j hj
      rw [List.getElem?_map, h1] at ho
      cases ho
      exact ⟨hj, h2⟩
    have hdis : ∀ (i j : Nat) (o o' : List (PacketOp JacCell)), i ≠ j → (tasks.map (·.2))[i]? = some o →
        (tasks.map (·.2))[j]? = some o' → ∀ a ∈ cellsOf o, a ∉ cellsOf o' := by
      intro i j o o' hne hi hj a ha ha'
      obtain ⟨h1, h2⟩ := (hw i o hi).2 a ha
      obtain ⟨h3, h4⟩ := (hw j o' hj).2 a ha'
      rcases Nat.lt_or_ge i j with h | h
      · have := rowsBefore_mono (m := m) (W := W) (S := S) (j := i + 1) (k := j) h
        omega
      · have := rowsBefore_mono (m := m) (W := W) (S := S) (j := j + 1) (k := i) (by omega)
        omega
    refine ⟨rfl, rfl, ?_, ?_⟩
    · intro j hj q hq c t
      obtain ⟨T, h1, h2, h3⟩ := t3 j hj
      obtain ⟨h4, h5⟩ := h3 q hq c t
      have hin : ∀ (j' : Nat) (o : List (PacketOp JacCell)) (a : JacCell), j' ≠ j → (tasks.map (·.2))[j']? = some o →
          rowOf a = rowsBefore m W S j + shift + q * W * m + W * c + t → a ∉ cellsOf o := by
        intro j' o a hne ho ha hmem
        obtain ⟨h6, h7⟩ := (hw j' o ho).2 a hmem
        have hb := block_le (Nat.le_refl (rowsBefore m W S j + shift + q * W * m + W * m)) c
        have ht := t.isLt
        have hqm : (q + 1) * W * m ≤ rowsOf m W (S.count j) := Nat.mul_le_mul_right _ (Nat.mul_le_mul_right _ hq)
        have hqm' : (q + 1) * W * m = q * W * m + W * m := by rw [Nat.add_mul, Nat.one_mul, Nat.add_mul]
        have hs := rowsBefore_succ (m := m) (W := W) (S := S) j
        rcases Nat.lt_or_ge j' j with h | h
        · have := rowsBefore_mono (m := m) (W := W) (S := S) (j := j' + 1) (k := j) h
          omega
        · have := rowsBefore_mono (m := m) (W := W) (S := S) (j := j + 1) (k := j') (by omega)
          omega
      have hT : (tasks.map (·.2))[j]? = some T.2 := by rw [List.getElem?_map, h1]; rfl
      simp only
      rw [parRun_disjoint hdis hp j T.2 hT _ (fun j' o hne ho => hin j' o _ hne ho rfl),
        parRun_disjoint hdis hp j T.2 hT _ (fun j' o hne ho => hin j' o _ hne ho rfl)]
      exact ⟨h4, h5⟩
    · intro t ht
      have hout : ∀ (a : JacCell), rowOf a = t → ∀ (j : Nat) (o : List (PacketOp JacCell)), (tasks.map (·.2))[j]? = some o →
          a ∉ cellsOf o := by
        intro a ha j o ho hmem
        obtain ⟨hj, h1⟩ := hw j o ho
        obtain ⟨h2, h3⟩ := h1 a hmem
        have := rowsBefore_mono (m := m) (W := W) (S := S) (j := j + 1) (k := S.numJoints) hj
        rcases ht with ht | ht <;> omega
      refine ⟨parRun_untouched hp _ (hout _ rfl), fun k => parRun_untouched hp _ (hout _ rfl)⟩

include hK hJ hB hS hW hd hN hst hclean hch hen hE hoff in
theorem getJacobian_finishes {rows shift : Nat} (hrows : shift + rowsBefore m W S S.numJoints ≤ rows) (schedule : List Nat)
    (J : Nat → Nat → ℝ) (R : Nat → ℝ) : ∃ more, (E.getJacobian K st (schedule ++ more) rows shift J R).isSome := by
  obtain ⟨tasks, t1, t2, t3⟩ := jacTasks_eq hK hJ hB hS hW hd hN hst hclean hch hen hoff hrows (jacMem J R)
  obtain ⟨more, hm⟩ := parRun_finishes (tasks.map (·.2)) schedule (jacMem J R)
  refine ⟨more, ?_⟩
  rw [getJacobian_def hE, if_pos (by rw [hoff]; simp), t1, Option.bind_some]
  obtain ⟨mem, hp⟩ := Option.isSome_iff_exists.1 hm
  rw [hp]; rfl

end

end SimdError

end Momentum
