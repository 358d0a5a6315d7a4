import Verif.Lemmas.SimdError5

/-!
# `getGradient` and `getJacobian` as a whole
-/

namespace Momentum
open Skeleton
variable {n m W : Nat} {S : SimdStore ℝ n} {C : Nat → List (Fin (n + 1) → ℝ)}

/-- From any point on, the threads can be run to the end. -/
theorem parRun_finishes {α : Type} [DecidableEq α] (tasks : List (List (PacketOp α))) (schedule : List Nat) (mem : α → ℝ) :
    ∃ more, (parRun tasks (schedule ++ more) mem).isSome := by
  have key : ∀ (k : Nat) (s : (α → ℝ) × List (Worker α)),
      (s.2.map fun w => 2 * w.ops.length + if w.pending.isSome then 0 else 1).sum ≤ k →
      ∃ more : List Nat, ∀ w ∈ (more.foldl parStep s).2, w.ops = [] := by
    intro k
    induction k with
    | zero =>
      intro s hs
      refine ⟨[], fun w hw => ?_⟩
      have h1 := List.single_le_sum (l := s.2.map fun w => 2 * w.ops.length + if w.pending.isSome then 0 else 1)
        (by simp) _ (List.mem_map.2 ⟨w, hw, rfl⟩)
      have : w.ops.length = 0 := by omega
      exact List.length_eq_zero_iff.1 this
    | succ k ih =>
      intro s hs
      by_cases hall : ∀ w ∈ s.2, w.ops = []
      · exact ⟨[], hall⟩
      · push Not at hall
        obtain ⟨w, hw, hne⟩ := hall
        obtain ⟨t, ht, hwt⟩ := List.mem_iff_getElem.1 hw
        have hw' : s.2[t]? = some w := by rw [List.getElem?_eq_getElem ht, hwt]
        cases ho : w.ops with
        | nil => exact absurd ho hne
        | cons op rest =>
          have hsum : ∀ (l : List (Worker α)) (f : Worker α → Nat) (t : Nat) (x y : Worker α), l[t]? = some x → f y < f x →
              ((l.set t y).map f).sum < (l.map f).sum := by
            intro l f
            induction l with
            | nil => intro t x y h; simp at h
            | cons z l ih =>
              intro t x y h hf
              cases t with
              | zero => simp only [List.getElem?_cons_zero, Option.some.injEq] at h; subst h; simpa using hf
              | succ t =>
                rw [List.getElem?_cons_succ] at h
                have := ih t x y h hf
                simpa using this
          have hstep : ∃ w', (parStep s t).2 = s.2.set t w' ∧ 2 * w'.ops.length + (if w'.pending.isSome then 0 else 1) <
              2 * w.ops.length + if w.pending.isSome then 0 else 1 := by
            unfold parStep
            simp only [hw', ho]
            cases hp : w.pending with
            | none => exact ⟨_, rfl, by simp [ho]⟩
            | some old => exact ⟨_, rfl, by simp; omega⟩
          obtain ⟨w', e1, e2⟩ := hstep
          have hlt := hsum s.2 (fun w => 2 * w.ops.length + if w.pending.isSome then 0 else 1) t w w' hw' e2
          obtain ⟨more, hm⟩ := ih (parStep s t) (by rw [e1]; omega)
          exact ⟨t :: more, by rw [List.foldl_cons]; exact hm⟩
  obtain ⟨more, hm⟩ := key _ (schedule.foldl parStep (mem, tasks.map fun ops => (⟨ops, none⟩ : Worker α))) (Nat.le_refl _)
  refine ⟨more, ?_⟩
  unfold parRun
  simp only [List.foldl_append]
  rw [if_pos]
  · rfl
  · rw [List.all_eq_true]
    intro w hw
    rw [hm w hw]; rfl

/-- `r` along a motion of the skeleton has the derivatives `D`, joint by joint. -/
def MovesWith (r : (Fin (n + 1) → ℝ) → Transform ℝ → Fin m → ℝ)
    (D : (Fin (n + 1) → ℝ) → Transform ℝ → JointState → Fin 7 → Fin m → ℝ) : Prop :=
  ∀ {s : Skeleton ℝ} (_ : s.Valid) (_ : ∀ jt ∈ s.joints, jt.preRotation.normSq = 1) {θ : ℝ → List ℝ}
    {S : ℝ → List JointState} (_ : ∀ u, FKGood s (θ u) true (S u)) (_ : ∀ u, (S u).length = s.joints.length) {t : ℝ}
    {θ' : Nat → ℝ} (_ : ∀ i, HasDerivAt (fun u => (θ u).getD i 0) (θ' i) t) {j : Nat} {l : List Nat}
    (_ : Chain s (some j) l) (x : Fin (n + 1) → ℝ) (c : Fin m),
    HasDerivAt (fun u => r x (worldOf (S u) (some j)) c)
      ((l.map fun a => ∑ d : Fin 7, D x (worldOf (S t) (some j)) (stateAt (S t) a) d c * θ' (a * 7 + d)).sum) t

namespace SimdError

section
variable {B : ErrorBase} {pt : ParameterTransform ℝ} {st : List JointState} {ch : Nat → List Nat} {i : Nat}
  {K : SimdKernel n m W} {r : (Fin (n + 1) → ℝ) → Transform ℝ → Fin m → ℝ}
  {D : (Fin (n + 1) → ℝ) → Transform ℝ → JointState → Fin 7 → Fin m → ℝ}

/-- What the constraints of joint `j` add to the error, without weights. -/
noncomputable def jointError (r : (Fin (n + 1) → ℝ) → Transform ℝ → Fin m → ℝ) (C : Nat → List (Fin (n + 1) → ℝ))
    (st : List JointState) (j : Nat) : ℝ :=
  ((C j).map fun x => x (Fin.last n) * ∑ c, r x (stateAt st j).transform c ^ 2).sum

/-- What they add to component `i` of the gradient. -/
noncomputable def jointGrad (scale : ℝ) (r : (Fin (n + 1) → ℝ) → Transform ℝ → Fin m → ℝ)
    (D : (Fin (n + 1) → ℝ) → Transform ℝ → JointState → Fin 7 → Fin m → ℝ) (A : SparseMat ℝ) (ch : Nat → List Nat)
    (C : Nat → List (Fin (n + 1) → ℝ)) (st : List JointState) (i j : Nat) : ℝ :=
  ((C j).map fun x => 2 * scale * x (Fin.last n) * ∑ c, r x (stateAt st j).transform c *
    residualVel D A st (ch j) i j x c).sum

section
variable (hK : K.Measures r) (hG : K.GradForm r D) (hB : B.Fits pt) (hS : S.Holds C) (hW : 0 < W) (hd : W ∣ 4096)
  (hN : S.numJoints ≤ B.skeleton.joints.length) (hst : st.length = B.skeleton.joints.length)
  (hclean : ∀ js ∈ st, js.derivDirty = false)
  (hch : ∀ j < B.skeleton.joints.length, Chain B.skeleton (some j) (ch j)) (hen : B.enabledParameters.mem i = true)

include hK hG hB hS hW hd hN hst hclean hch hen in
theorem gradTasks_eq (L : List Nat) (hL : ∀ j ∈ L, j < S.numJoints) :
    ∃ tasks, L.mapM (gradTask K B S st) = some tasks ∧ (∀ T ∈ tasks, ∀ op ∈ T.2, op.Adds) ∧
      (tasks.map (·.1)).sum = (L.map (jointError r C st)).sum ∧
      (tasks.map fun T => addedBy T.2 i).sum = (L.map (jointGrad K.scale r D B.transform ch C st i)).sum := by
  induction L with
  | nil => exact ⟨[], rfl, by simp, rfl, rfl⟩
  | cons j L ih =>
    obtain ⟨tasks, t1, t2, t3, t4⟩ := ih fun k hk => hL k (List.mem_cons_of_mem _ hk)
    have hj := hL j List.mem_cons_self
    obtain ⟨e, ops, g1, g2, g3, g4⟩ := gradTask_eq hK hG hB hS hW hd hj hst hclean (hch j (by omega)) hen
    refine ⟨(e, ops) :: tasks, mapM_cons_some.2 ⟨_, _, g1, t1, rfl⟩, ?_, ?_, ?_⟩
    · intro T hT
      rcases List.mem_cons.1 hT with rfl | hT
      · exact g2
      · exact t2 T hT
    · simp only [List.map_cons, List.sum_cons, t3, g3, jointError]
    · simp only [List.map_cons, List.sum_cons, t4, g4, jointGrad]

variable {E : SimdError n} (hE : E.store = some S) (hEB : E.base = B)

include hK hG hB hS hW hd hN hst hclean hch hen hE hEB in
theorem getGradientSerial_eq (g : Nat → ℝ) : ∃ g', E.getGradientSerial K st g =
    some (((List.range S.numJoints).map (jointError r C st)).sum * K.scale * B.weight, g') ∧
      g' i = g i + ((List.range S.numJoints).map (jointGrad K.scale r D B.transform ch C st i)).sum := by
  obtain ⟨tasks, t1, t2, t3, t4⟩ := gradTasks_eq hK hG hB hS hW hd hN hst hclean hch hen (List.range S.numJoints)
    (fun j hj => List.mem_range.1 hj)
  refine ⟨execOps (tasks.flatMap (·.2)) g, ?_, ?_⟩
  · unfold getGradientSerial
    simp only [hE, hEB, t1, Option.bind_some, t3]
  · rw [execOps_adds, addedBy_flatMap, t4]
    intro op hop
    obtain ⟨T, hT, ho⟩ := List.mem_flatMap.1 hop
    exact t2 T hT op ho

include hK hG hB hS hW hd hN hst hclean hch hen hE hEB in
theorem getGradient_eq (g : Nat → ℝ) (order : List Nat) {res : ℝ × (Nat → ℝ)}
    (h : E.getGradient K st (order.flatMap fun t => [t, t]) g = some res) :
    res.1 = K.scale * B.weight * ((List.range S.numJoints).map (jointError r C st)).sum ∧
      res.2 i = g i + ((List.range S.numJoints).map (jointGrad K.scale r D B.transform ch C st i)).sum := by
  obtain ⟨tasks, t1, t2, t3, t4⟩ := gradTasks_eq hK hG hB hS hW hd hN hst hclean hch hen (List.range S.numJoints)
    (fun j hj => List.mem_range.1 hj)
  unfold getGradient at h
  simp only [hE, hEB, t1, Option.bind_some] at h
  cases hp : parRun (tasks.map (·.2)) (order.flatMap fun t => [t, t]) g with
  | none => rw [hp] at h; cases h
  | some g' =>
    rw [hp, Option.bind_some, t3] at h
    cases h
    refine ⟨rfl, ?_⟩
    simp only
    rw [parRun_atomic order _ hp i, List.map_map]
    · congr 1
    · intro ops ho
      obtain ⟨T, hT, rfl⟩ := List.mem_map.1 ho
      exact t2 T hT

include hK hG hB hS hW hd hN hst hclean hch hen hE hEB in
theorem getGradientAvx_eq (g : Nat → ℝ) (parts : List (List Nat)) (hp : parts.flatten.Perm (List.range S.numJoints)) :
    ∃ g', E.getGradientAvx K st parts g =
      some (((List.range S.numJoints).map (jointError r C st)).sum * K.scale * B.weight, g') ∧
      g' i = g i + ((List.range S.numJoints).map (jointGrad K.scale r D B.transform ch C st i)).sum * B.weight := by
  have key : ∀ parts : List (List Nat), (∀ j ∈ parts.flatten, j < S.numJoints) →
      ∃ locals, parts.mapM (gradLocal E K S st) = some locals ∧
        (locals.map (·.1)).sum = (parts.flatten.map (jointError r C st)).sum ∧
        (locals.map fun l => l.2 i).sum = (parts.flatten.map (jointGrad K.scale r D B.transform ch C st i)).sum := by
    intro parts
    induction parts with
    | nil => intro _; exact ⟨[], rfl, rfl, rfl⟩
    | cons L parts ih =>
      intro h
      obtain ⟨locals, l1, l2, l3⟩ := ih fun j hj => h j (by rw [List.flatten_cons]; exact List.mem_append_right _ hj)
      obtain ⟨tasks, t1, t2, t3, t4⟩ := gradTasks_eq hK hG hB hS hW hd hN hst hclean hch hen L
        (fun j hj => h j (by rw [List.flatten_cons]; exact List.mem_append_left _ hj))
      refine ⟨((tasks.map (·.1)).sum, execOps (tasks.flatMap (·.2)) fun _ => 0) :: locals,
        mapM_cons_some.2 ⟨_, _, ?_, l1, rfl⟩, ?_, ?_⟩
      · unfold gradLocal
        rw [hEB, t1, Option.bind_some]
      · simp only [List.map_cons, List.sum_cons, List.flatten_cons, List.map_append, List.sum_append, l2, t3]
      · simp only [List.map_cons, List.sum_cons, List.flatten_cons, List.map_append, List.sum_append, l3]
        rw [execOps_adds, addedBy_flatMap, t4, zero_add]
        intro op hop
        obtain ⟨T, hT, ho⟩ := List.mem_flatMap.1 hop
        exact t2 T hT op ho
  obtain ⟨locals, l1, l2, l3⟩ := key parts fun j hj => List.mem_range.1 (hp.subset hj)
  refine ⟨fun k => g k + (locals.map fun l => l.2 k).sum * B.weight, ?_, ?_⟩
  · unfold getGradientAvx
    simp only [hE, hEB, l1, Option.bind_some, l2]
    rw [(hp.map _).sum_eq]
  · simp only [l3]
    rw [(hp.map _).sum_eq]

end

end

end SimdError

end Momentum
