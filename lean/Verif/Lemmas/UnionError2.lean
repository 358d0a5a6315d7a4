import Verif.Lemmas.UnionError
import Mathlib.Analysis.Calculus.Deriv.Add
import Mathlib.Analysis.Calculus.Deriv.Mul

/-!
# Lemmas for C80: setting inputs of all members, and the derivative of the sum of their gradients
-/

namespace Momentum
open Finset
variable {μ P : Type} {ops : MemberOps μ P} {ok : μ → String → List ℝ → Prop}

theorem has_congr {e e' : μ} (h : ops.inputs e' = ops.inputs e) (name : String) : ops.Has name e' ↔ ops.Has name e := by
  unfold MemberOps.Has; rw [h]

theorem all_consistent (name : String) (fs : List μ) (hg : ∀ e ∈ fs, ops.Good ok e) :
    ∃ x, getAll ops name fs = some x ∧ sizeAll ops name fs = some x.length ∧
      (ops.PiecesOk ok name fs x → setAll ops name fs x = some fs) ∧
      ∀ y : List ℝ, y.length = x.length → ∃ fs', setAll ops name fs y = some fs' ∧
        (ops.PiecesOk ok name fs y → getAll ops name fs' = some y) ∧
        (∀ other, other ≠ name → getAll ops other fs' = getAll ops other fs) ∧
        fs'.map ops.inputs = fs.map ops.inputs := by
  induction fs with
  | nil =>
    refine ⟨[], rfl, rfl, fun _ => rfl, fun y hy => ⟨[], rfl, fun h => ?_, fun _ _ => rfl, rfl⟩⟩
    rw [List.length_nil, List.length_eq_zero_iff] at hy
    rw [hy]; rfl
  | cons e r ih =>
    obtain ⟨x, h1, h2, h3, h4⟩ := ih fun e' he => hg e' (List.mem_cons_of_mem _ he)
    have G := hg e (by simp)
    by_cases h : ops.Has name e
    · obtain ⟨a, k1, k2, k3⟩ := G.consistent.known name h
      refine ⟨a ++ x, ?_, ?_, ?_, ?_⟩
      · unfold getAll; rw [if_pos h, k1, Option.bind_some, h1]; rfl
      · unfold sizeAll; rw [if_pos h, k2, Option.bind_some, h2, Option.map_some, List.length_append]
      · intro hp
        unfold MemberOps.PiecesOk at hp
        rw [if_pos h] at hp
        obtain ⟨a', b', e1, e2, e3, e4⟩ := hp
        rw [k2] at e2
        obtain ⟨rfl, rfl⟩ := List.append_inj e1 (Option.some.inj e2)
        unfold setAll
        rw [if_pos h, k2, Option.bind_some, List.take_left, k3 e3, Option.bind_some, List.drop_left, h3 e4]
        rfl
      · intro y hy
        rw [List.length_append] at hy
        obtain ⟨e', s1, s2, s3⟩ := G.consistent.setGet name a (y.take a.length) k1 (by rw [List.length_take]; omega)
        obtain ⟨r', t1, t2, t3, t4⟩ := h4 (y.drop a.length) (by rw [List.length_drop]; omega)
        have hin := G.names _ _ _ s1
        refine ⟨e' :: r', ?_, ?_, ?_, ?_⟩
        · unfold setAll; rw [if_pos h, k2, Option.bind_some, s1, Option.bind_some, t1]; rfl
        · intro hp
          unfold MemberOps.PiecesOk at hp
          rw [if_pos h] at hp
          obtain ⟨a', b', e1, e2, e3, e4⟩ := hp
          rw [k2] at e2
          have e2 := Option.some.inj e2
          have ea : y.take a.length = a' := by rw [e1, e2, List.take_left]
          have eb : y.drop a.length = b' := by rw [e1, e2, List.drop_left]
          rw [ea] at s2
          rw [eb] at t2
          unfold getAll
          rw [if_pos ((has_congr hin name).2 h), s2 e3, Option.bind_some, t2 e4, e1]
          rfl
        · intro other ho
          unfold getAll
          by_cases h' : ops.Has other e
          · rw [if_pos ((has_congr hin other).2 h'), if_pos h', s3 other h' ho, t3 other ho]
          · rw [if_neg (mt (has_congr hin other).1 h'), if_neg h', t3 other ho]
        · rw [List.map_cons, List.map_cons, hin, t4]
    · refine ⟨x, ?_, ?_, ?_, ?_⟩
      · unfold getAll; rw [if_neg h, h1]
      · unfold sizeAll; rw [if_neg h, h2]
      · intro hp
        unfold MemberOps.PiecesOk at hp
        rw [if_neg h] at hp
        unfold setAll
        rw [if_neg h, h3 hp]; rfl
      · intro y hy
        obtain ⟨r', t1, t2, t3, t4⟩ := h4 y hy
        refine ⟨e :: r', ?_, ?_, ?_, ?_⟩
        · unfold setAll; rw [if_neg h, t1]; rfl
        · intro hp
          unfold MemberOps.PiecesOk at hp
          rw [if_neg h] at hp
          unfold getAll
          rw [if_neg h, t2 hp]
        · intro other ho
          unfold getAll
          rw [t3 other ho]
        · rw [List.map_cons, List.map_cons, t4]

/-- Members without the input have a gradient; those with it are differentiable in it. -/
def AllDifferentiable (ops : MemberOps μ P) (p : P) (n : Nat) (v : Nat → ℝ) (name : String) (fs : List μ) : Prop :=
  ∀ e ∈ fs, if ops.Has name e then ∃ x d, ops.Differentiable p n v name e x d else (ops.addGradient e p fun _ => 0).isSome

theorem sum_add_mul (n : Nat) (a b v : Nat → ℝ) : ∑ k ∈ range n, (a k + b k) * v k = ∑ k ∈ range n, a k * v k + ∑ k ∈ range n, b k * v k := by
  rw [← Finset.sum_add_distrib]; exact Finset.sum_congr rfl fun _ _ => by ring

theorem all_derivative (p : P) (n : Nat) (v : Nat → ℝ) (name : String) (fs : List μ) (h : AllDifferentiable ops p n v name fs) :
    ∃ x d, getAll ops name fs = some x ∧ sizeAll ops name fs = some x.length ∧ dotAll ops name p v fs = some d ∧
      IsInputDerivative (setAll ops name fs) (fun fs' => (gradAll ops p fs').map (·.2)) n v x d ∧
      ∃ fs' g, setAll ops name fs x = some fs' ∧ gradAll ops p fs' = some g := by
  induction fs with
  | nil => exact ⟨[], [], rfl, rfl, rfl, ⟨rfl, fun c hc => absurd hc (by simp)⟩, [], _, rfl, rfl⟩
  | cons e r ih =>
    obtain ⟨x, d, h1, h2, h3, h4, r', g', h5, h6⟩ := ih fun e' he => h e' (List.mem_cons_of_mem _ he)
    have he := h e (by simp)
    by_cases hh : ops.Has name e
    · rw [if_pos hh] at he
      obtain ⟨a, da, D⟩ := he
      obtain ⟨e', ge, k1, k2⟩ := D.again
      have hset : ∀ (y z : List ℝ) (hy : y.length = a.length), setAll ops name (e :: r) (y ++ z) =
          (ops.setInput e name y).bind fun e' => (setAll ops name r z).map (e' :: ·) := by
        intro y z hy
        rw [setAll, if_pos hh, D.size, Option.bind_some, ← hy, List.take_left, List.drop_left]
      refine ⟨a ++ x, da ++ d, ?_, ?_, ?_, ⟨?_, ?_⟩, ?_⟩
      · unfold getAll; rw [if_pos hh, D.value, Option.bind_some, h1]; rfl
      · unfold sizeAll; rw [if_pos hh, D.size, Option.bind_some, h2, Option.map_some, List.length_append]
      · unfold dotAll; rw [if_pos hh, D.dot, Option.bind_some, h3]; rfl
      · rw [List.length_append, List.length_append, D.derivative.1, h4.1]
      · intro c hc
        rw [List.length_append] at hc
        by_cases hca : c < a.length
        · obtain ⟨F, f1, f2⟩ := D.derivative.2 c hca
          refine ⟨fun u => F u + ∑ k ∈ range n, g'.2 k * v k, fun u => ?_, ?_⟩
          · obtain ⟨e1, g1, m1, m2, m3⟩ := f1 u
            obtain ⟨ge1, m4, m5⟩ := Option.map_eq_some_iff.1 m2
            subst m5
            refine ⟨e1 :: r', fun i => ge1.2 i + g'.2 i, ?_, ?_, ?_⟩
            · rw [List.set_append_left _ _ hca, hset _ _ (by simp), m1, Option.bind_some, h5]; rfl
            · simp only [gradAll, m4, Option.bind_some, h6, Option.map_some]
            · simp only [sum_add_mul, m3]
          · have e1 : (da ++ d).getD c 0 = da.getD c 0 := by
              simp only [List.getD_eq_getElem?_getD]
              rw [List.getElem?_append_left (by rw [D.derivative.1]; exact hca)]
            have e2 : (a ++ x).getD c 0 = a.getD c 0 := by
              simp only [List.getD_eq_getElem?_getD]
              rw [List.getElem?_append_left hca]
            rw [e1, e2]
            exact f2.add_const _
        · obtain ⟨F, f1, f2⟩ := h4.2 (c - a.length) (by omega)
          refine ⟨fun u => ∑ k ∈ range n, ge.2 k * v k + F u, fun u => ?_, ?_⟩
          · obtain ⟨r1, g1, m1, m2, m3⟩ := f1 u
            obtain ⟨ge1, m4, m5⟩ := Option.map_eq_some_iff.1 m2
            subst m5
            refine ⟨e' :: r1, fun i => ge.2 i + ge1.2 i, ?_, ?_, ?_⟩
            · rw [List.set_append_right _ _ (by omega), hset _ _ rfl, k1, Option.bind_some, m1]; rfl
            · simp only [gradAll, k2, Option.bind_some, m4, Option.map_some]
            · simp only [sum_add_mul, m3]
          · have e1 : (da ++ d).getD c 0 = d.getD (c - a.length) 0 := by
              simp only [List.getD_eq_getElem?_getD]
              rw [List.getElem?_append_right (by rw [D.derivative.1]; omega), D.derivative.1]
            have e2 : (a ++ x).getD c 0 = x.getD (c - a.length) 0 := by
              simp only [List.getD_eq_getElem?_getD]
              rw [List.getElem?_append_right (by omega)]
            rw [e1, e2]
            exact f2.const_add _
      · exact ⟨e' :: r', (ge.1 + g'.1, fun i => ge.2 i + g'.2 i), by rw [hset _ _ rfl, k1, Option.bind_some, h5]; rfl,
          by simp only [gradAll, k2, Option.bind_some, h6, Option.map_some]⟩
    · rw [if_neg hh] at he
      obtain ⟨ge, hge⟩ := Option.isSome_iff_exists.1 he
      have hset : ∀ y : List ℝ, setAll ops name (e :: r) y = (setAll ops name r y).map (e :: ·) := by
        intro y; rw [setAll, if_neg hh]
      refine ⟨x, d, ?_, ?_, ?_, ⟨h4.1, ?_⟩, ?_⟩
      · unfold getAll; rw [if_neg hh, h1]
      · unfold sizeAll; rw [if_neg hh, h2]
      · unfold dotAll; rw [if_neg hh, h3]
      · intro c hc
        obtain ⟨F, f1, f2⟩ := h4.2 c hc
        refine ⟨fun u => ∑ k ∈ range n, ge.2 k * v k + F u, fun u => ?_, f2.const_add _⟩
        obtain ⟨r1, g1, m1, m2, m3⟩ := f1 u
        obtain ⟨ge1, m4, m5⟩ := Option.map_eq_some_iff.1 m2
        subst m5
        refine ⟨e :: r1, fun i => ge.2 i + ge1.2 i, by rw [hset, m1]; rfl, ?_, ?_⟩
        · simp only [gradAll, hge, Option.bind_some, m4, Option.map_some]
        · simp only [sum_add_mul, m3]
      · exact ⟨e :: r', (ge.1 + g'.1, fun i => ge.2 i + g'.2 i), by rw [hset, h5]; rfl, by simp only [gradAll, hge, Option.bind_some, h6, Option.map_some]⟩

/-! ## The Jacobian -/

theorem foldl_add_nat {α : Type} (f : α → Nat) (l : List α) : ∀ s, l.foldl (fun s e => s + f e) s = s + (l.map f).sum := by
  induction l with
  | nil => intro s; simp
  | cons a r ih => intro s; rw [List.foldl_cons, ih, List.map_cons, List.sum_cons, add_assoc]

theorem foldl_add_real {α : Type} (f : α → ℝ) (l : List α) : ∀ s, l.foldl (fun s e => s + f e) s = s + (l.map f).sum := by
  induction l with
  | nil => intro s; simp
  | cons a r ih => intro s; rw [List.foldl_cons, ih, List.map_cons, List.sum_cons, add_assoc]

/-- Row `t` of the residuals of all members, and of the Jacobians. -/
def resAll (p : Nat → ℝ) : List ErrorFunction → Nat → ℝ
  | [], _ => 0
  | f :: r, t => if t < (f.getJacobian p).rows then (f.getJacobian p).residual t else
      if t < f.jacobianSize then 0 else resAll p r (t - f.jacobianSize)

/-- Row `t` of column `j`. -/
def jacAll (p : Nat → ℝ) (j : Nat) : List ErrorFunction → Nat → ℝ
  | [], _ => 0
  | f :: r, t => if t < (f.getJacobian p).rows then (f.getJacobian p).e j t else
      if t < f.jacobianSize then 0 else jacAll p j r (t - f.jacobianSize)

theorem stack_rows (p : Nat → ℝ) (l : List ErrorFunction) (hl : ∀ f ∈ l, (f.getJacobian p).rows ≤ f.jacobianSize) :
    ∀ s : StackState, (∀ t, s.position ≤ t → s.residual t = 0 ∧ ∀ j, s.e j t = 0) →
      (∀ t, (l.foldl (stackStep p) s).residual t = if t < s.position then s.residual t else resAll p l (t - s.position)) ∧
      (∀ j t, (l.foldl (stackStep p) s).e j t = if t < s.position then s.e j t else jacAll p j l (t - s.position)) ∧
      (l.foldl (stackStep p) s).error = s.error + (l.map fun f => (f.getJacobian p).error).sum := by
  induction l with
  | nil =>
    intro s hs
    refine ⟨fun t => ?_, fun j t => ?_, by simp⟩
    · by_cases h : t < s.position
      · simp [h]
      · simp [h, resAll, (hs t (by omega)).1]
    · by_cases h : t < s.position
      · simp [h]
      · simp [h, jacAll, (hs t (by omega)).2]
  | cons f r ih =>
    intro s hs
    have hf := hl f (by simp)
    have hz : ∀ t, (stackStep p s f).position ≤ t → (stackStep p s f).residual t = 0 ∧ ∀ j, (stackStep p s f).e j t = 0 := by
      intro t ht
      simp only [stackStep] at ht ⊢
      have h1 : ¬ (s.position ≤ t ∧ t < s.position + (f.getJacobian p).rows) := by omega
      rw [if_neg h1]
      refine ⟨(hs t (by omega)).1, fun j => ?_⟩
      rw [if_neg h1]
      exact (hs t (by omega)).2 j
    obtain ⟨i1, i2, i3⟩ := ih (fun g hg => hl g (List.mem_cons_of_mem _ hg)) (stackStep p s f) hz
    refine ⟨fun t => ?_, fun j t => ?_, ?_⟩
    · rw [List.foldl_cons, i1 t]
      simp only [stackStep, resAll]
      by_cases h1 : t < s.position
      · have a1 : t < s.position + f.jacobianSize := by omega
        have a2 : ¬ (s.position ≤ t ∧ t < s.position + (f.getJacobian p).rows) := by omega
        exact (if_pos a1).trans ((if_neg a2).trans (if_pos h1).symm)
      · refine Eq.trans ?_ (if_neg h1).symm
        by_cases h2 : t - s.position < (f.getJacobian p).rows
        · have a1 : t < s.position + f.jacobianSize := by omega
          have a2 : s.position ≤ t ∧ t < s.position + (f.getJacobian p).rows := by omega
          exact (if_pos a1).trans ((if_pos a2).trans (if_pos h2).symm)
        · have a2 : ¬ (s.position ≤ t ∧ t < s.position + (f.getJacobian p).rows) := by omega
          refine Eq.trans ?_ (if_neg h2).symm
          by_cases h3 : t - s.position < f.jacobianSize
          · have a1 : t < s.position + f.jacobianSize := by omega
            exact (if_pos a1).trans ((if_neg a2).trans ((hs t (by omega)).1.trans (if_pos h3).symm))
          · have a1 : ¬ t < s.position + f.jacobianSize := by omega
            refine (if_neg a1).trans (Eq.trans ?_ (if_neg h3).symm)
            rw [Nat.sub_add_eq]
    · rw [List.foldl_cons, i2 j t]
      simp only [stackStep, jacAll]
      by_cases h1 : t < s.position
      · have a1 : t < s.position + f.jacobianSize := by omega
        have a2 : ¬ (s.position ≤ t ∧ t < s.position + (f.getJacobian p).rows) := by omega
        exact (if_pos a1).trans ((if_neg a2).trans (if_pos h1).symm)
      · refine Eq.trans ?_ (if_neg h1).symm
        by_cases h2 : t - s.position < (f.getJacobian p).rows
        · have a1 : t < s.position + f.jacobianSize := by omega
          have a2 : s.position ≤ t ∧ t < s.position + (f.getJacobian p).rows := by omega
          exact (if_pos a1).trans ((if_pos a2).trans (if_pos h2).symm)
        · have a2 : ¬ (s.position ≤ t ∧ t < s.position + (f.getJacobian p).rows) := by omega
          refine Eq.trans ?_ (if_neg h2).symm
          by_cases h3 : t - s.position < f.jacobianSize
          · have a1 : t < s.position + f.jacobianSize := by omega
            exact (if_pos a1).trans ((if_neg a2).trans (((hs t (by omega)).2 j).trans (if_pos h3).symm))
          · have a1 : ¬ t < s.position + f.jacobianSize := by omega
            refine (if_neg a1).trans (Eq.trans ?_ (if_neg h3).symm)
            rw [Nat.sub_add_eq]
    · rw [List.foldl_cons, i3, List.map_cons, List.sum_cons]
      simp only [stackStep]
      ring

theorem resAll_sq (p : Nat → ℝ) (l : List ErrorFunction) (hl : ∀ f ∈ l, (f.getJacobian p).rows ≤ f.jacobianSize) :
    ∑ t ∈ range (l.map ErrorFunction.jacobianSize).sum, resAll p l t ^ 2 =
      (l.map fun f => ∑ t ∈ range (f.getJacobian p).rows, (f.getJacobian p).residual t ^ 2).sum := by
  induction l with
  | nil => simp
  | cons f r ih =>
    have hf := hl f (by simp)
    rw [List.map_cons, List.sum_cons, Finset.sum_range_add, List.map_cons, List.sum_cons,
      ← ih fun g hg => hl g (List.mem_cons_of_mem _ hg)]
    congr 1
    · obtain ⟨k, hk⟩ := Nat.exists_eq_add_of_le hf
      rw [hk, Finset.sum_range_add]
      rw [Finset.sum_congr rfl fun t ht => by rw [resAll, if_pos (Finset.mem_range.1 ht)], add_eq_left]
      refine Finset.sum_eq_zero fun t ht => ?_
      have := Finset.mem_range.1 ht
      rw [resAll, if_neg (by omega), if_pos (by omega)]
      ring
    · refine Finset.sum_congr rfl fun t _ => ?_
      rw [resAll, if_neg (by omega), if_neg (by omega), Nat.add_sub_cancel_left]

theorem resAll_deriv (p : Nat → ℝ) (i : Nat) (l : List ErrorFunction) (hl : ∀ f ∈ l, f.JacobianIsDerivative p i) : ∀ t,
    HasDerivAt (fun u => resAll (Function.update p i u) l t) (jacAll p i l t) (p i) := by
  induction l with
  | nil => intro t; exact hasDerivAt_const _ _
  | cons f r ih =>
    intro t
    have hf := hl f (by simp)
    simp only [resAll, jacAll, hf.rows]
    by_cases h1 : t < (f.getJacobian p).rows
    · simp only [if_pos h1]; exact hf.deriv t h1
    · simp only [if_neg h1]
      by_cases h2 : t < f.jacobianSize
      · simp only [if_pos h2]; exact hasDerivAt_const _ _
      · simp only [if_neg h2]; exact ih (fun g hg => hl g (List.mem_cons_of_mem _ hg)) _

end Momentum
