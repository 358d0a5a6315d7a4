import Verif.Lemmas.UnionError2

/-!
# C80: a union of error functions is the weighted sum of its members, also as a function of their inputs
-/

namespace Momentum
open Finset
variable {μ P : Type}

theorem UnionError.made {ops : MemberOps μ P} {w : ℝ} {fs : List μ} {U : UnionError μ} (h : UnionError.make ops w fs = some U)
    (hn : ∀ e ∈ fs, ((ops.inputs e).getD []).Nodup) : UnionError.Made ops U ∧ U.weight = w ∧ U.errorFunctions = fs := by
  unfold UnionError.make at h
  split_ifs at h
  cases h
  exact ⟨⟨hn, rfl⟩, rfl, rfl⟩

/-- The constructor refuses an empty list and nothing else; the inputs are those of the members, each named once; the value of an input
is what the members that have it say, one after the other in the order of the members. -/
theorem C80_names (ops : MemberOps μ P) (w : ℝ) (fs : List μ) (hn : ∀ e ∈ fs, ((ops.inputs e).getD []).Nodup) :
    (UnionError.make ops w fs = none ↔ fs = []) ∧ ∀ U, UnionError.make ops w fs = some U →
      U.inputs.Nodup ∧ (∀ name, name ∈ U.inputs ↔ ∃ e ∈ fs, ops.Has name e) ∧
      ∀ name ∈ U.inputs, ∀ xs, (fs.filter fun e => ops.Has name e).mapM (fun e => ops.getInput e name) = some xs →
        U.getInput ops name = some xs.flatten := by
  refine ⟨by unfold UnionError.make; split_ifs with h <;> simp [h], fun U hU => ?_⟩
  obtain ⟨hM, hw, hf⟩ := UnionError.made hU hn
  refine ⟨hM.nodup_inputs, fun name => by rw [hM.mem_inputs, hf], fun name hname xs hxs => ?_⟩
  rw [hM.getInput_eq, if_pos hname, hf]
  clear hM hU hf hname hn
  induction fs generalizing xs with
  | nil =>
    simp at hxs
    subst hxs
    rfl
  | cons e r ih =>
    unfold getAll
    by_cases h : ops.Has name e
    · rw [List.filter_cons_of_pos (by simpa using h), List.mapM_cons] at hxs
      rw [if_pos h]
      cases ha : ops.getInput e name with
      | none => rw [ha] at hxs; cases hxs
      | some a =>
        rw [ha] at hxs
        cases hb : (r.filter fun e => ops.Has name e).mapM (fun e => ops.getInput e name) with
        | none => rw [hb] at hxs; cases hxs
        | some bs =>
          rw [hb] at hxs
          have : a :: bs = xs := by injection hxs
          subst this
          rw [Option.bind_some, ih bs hb]
          rfl
    · rw [List.filter_cons_of_neg (by simpa using h)] at hxs
      rw [if_neg h]
      exact ih xs hxs

/-- If the inputs of the members are consistent so are those of the union. -/
theorem C80_inputs (ops : MemberOps μ P) (ok : μ → String → List ℝ → Prop) (w : ℝ) (fs : List μ) (hg : ∀ e ∈ fs, ops.Good ok e)
    (U : UnionError μ) (hU : UnionError.make ops w fs = some U) :
    InputsConsistent U.inputs (UnionError.getInputSize ops) (UnionError.getInput ops) (UnionError.setInput ops)
      (fun name y => ops.PiecesOk ok name fs y) U := by
  obtain ⟨hM, hw, hf⟩ := UnionError.made hU fun e he => (hg e he).nodup
  constructor
  · intro name h
    refine ⟨?_, ?_, fun y => ?_⟩
    · rw [hM.size_eq, if_neg h]
    · rw [hM.getInput_eq, if_neg h]
    · rw [hM.set_eq, if_neg h]
  · intro name h
    obtain ⟨x, h1, h2, h3, -⟩ := all_consistent (ops := ops) (ok := ok) name fs hg
    refine ⟨x, by rw [hM.getInput_eq, if_pos h, hf, h1], by rw [hM.size_eq, if_pos h, hf, h2], fun hok => ?_⟩
    rw [hM.set_eq, if_pos h, hf, h2, Option.bind_some, if_pos rfl, h3 hok, Option.map_some, ← hf]
  · intro name x y hx hy
    have h : name ∈ U.inputs := by
      by_contra h
      rw [hM.getInput_eq, if_neg h] at hx
      cases hx
    obtain ⟨x', h1, h2, h3, -⟩ := all_consistent (ops := ops) (ok := ok) name fs hg
    rw [hM.getInput_eq, if_pos h, hf, h1] at hx
    cases hx
    rw [hM.set_eq, if_pos h, hf, h2, Option.bind_some, if_neg hy]
  · intro name x y hx hy
    have h : name ∈ U.inputs := by
      by_contra h
      rw [hM.getInput_eq, if_neg h] at hx
      cases hx
    obtain ⟨x', h1, h2, h3, h4⟩ := all_consistent (ops := ops) (ok := ok) name fs hg
    rw [hM.getInput_eq, if_pos h, hf, h1] at hx
    cases hx
    obtain ⟨fs', s1, s2, s3, s4⟩ := h4 y hy
    have hidx : fs'.zipIdx.foldl (indexMember ops) [] = fs.zipIdx.foldl (indexMember ops) [] := by
      have key : ∀ (a b : List μ) (k : Nat) (m : List (String × List Nat)), a.map ops.inputs = b.map ops.inputs →
          (a.zipIdx k).foldl (indexMember ops) m = (b.zipIdx k).foldl (indexMember ops) m := by
        intro a
        induction a with
        | nil => intro b k m hab; cases b <;> simp_all
        | cons c r ih =>
          intro b k m hab
          cases b with
          | nil => simp at hab
          | cons d q =>
            rw [List.map_cons, List.map_cons, List.cons.injEq] at hab
            rw [List.zipIdx_cons, List.zipIdx_cons, List.foldl_cons, List.foldl_cons]
            have : indexMember ops m (c, k) = indexMember ops m (d, k) := by unfold indexMember; simp only [hab.1]
            rw [this]
            exact ih q _ _ hab.2
      exact key _ _ _ _ s4
    have hM' : UnionError.Made ops { U with errorFunctions := fs' } := by
      refine ⟨fun e he => ?_, by rw [hM.index, hf]; exact hidx.symm⟩
      have : ops.inputs e ∈ fs.map ops.inputs := by rw [← s4]; exact List.mem_map_of_mem he
      obtain ⟨e0, he0, heq⟩ := List.mem_map.1 this
      rw [← heq]
      exact (hg e0 he0).nodup
    refine ⟨{ U with errorFunctions := fs' }, ?_, fun hok => ?_, fun other ho hne => ?_⟩
    · rw [hM.set_eq, if_pos h, hf, h2, Option.bind_some, if_pos hy, s1]; rfl
    · rw [hM'.getInput_eq, if_pos (show name ∈ UnionError.inputs { U with errorFunctions := fs' } from h)]; exact s2 hok
    · rw [hM'.getInput_eq, if_pos (show other ∈ UnionError.inputs { U with errorFunctions := fs' } from ho), hM.getInput_eq, if_pos ho, hf]; exact s3 other hne

/-- If for every member with the input the reported derivative is that of its gradient, then so it is for the union. -/
theorem C80_derivative (ops : MemberOps μ P) (w : ℝ) (fs : List μ) (hn : ∀ e ∈ fs, ((ops.inputs e).getD []).Nodup) (U : UnionError μ)
    (hU : UnionError.make ops w fs = some U) (p : P) (hadd : ∀ e, ops.Adds e p) (n : Nat) (v : Nat → ℝ) (name : String)
    (hname : name ∈ U.inputs)
    (hd : ∀ e ∈ fs, if ops.Has name e then ∃ x d, ops.Differentiable p n v name e x d else (ops.addGradient e p fun _ => 0).isSome) :
    ∃ x d, U.getInput ops name = some x ∧ U.dGradientDot ops name p v = some d ∧
      IsInputDerivative (U.setInput ops name) (fun U' => (U'.addGradient ops p fun _ => 0).map (·.2)) n v x d := by
  obtain ⟨hM, hw, hf⟩ := UnionError.made hU hn
  obtain ⟨x, d, h1, h2, h3, h4, -⟩ := all_derivative (ops := ops) p n v name fs hd
  refine ⟨x, d.map (· * U.weight), by rw [hM.getInput_eq, if_pos hname, hf, h1],
    by rw [hM.dot_eq, if_pos hname, hf, h3]; rfl, by rw [List.length_map, h4.1], fun c hc => ?_⟩
  obtain ⟨F, f1, f2⟩ := h4.2 c hc
  refine ⟨fun u => F u * U.weight, fun u => ?_, ?_⟩
  · obtain ⟨fs', g, m1, m2, m3⟩ := f1 u
    obtain ⟨ge, m4, m5⟩ := Option.map_eq_some_iff.1 m2
    subst m5
    refine ⟨{ U with errorFunctions := fs' }, fun i => (0 + ge.2 i) * U.weight, ?_, ?_, ?_⟩
    · rw [hM.set_eq, if_pos hname, hf, h2, Option.bind_some, if_pos (by simp), m1]; rfl
    · simp only [UnionError.addGradient_eq p (fun e _ => hadd e), m4, Option.map_some]
    · simp only [m3, Finset.sum_mul, zero_add]
      exact Finset.sum_congr rfl fun _ _ => by ring
  · have : (d.map (· * U.weight)).getD c 0 = d.getD c 0 * U.weight := by
      have hcd : c < d.length := by rw [h4.1]; exact hc
      simp [hcd]
    rw [this]
    exact f2.mul_const _

/-- The Jacobian: if those of the members are the derivatives of their residuals then so is that of the union. -/
theorem C80_jacobian (ops : MemberOps μ (Nat → ℝ)) (w : ℝ) (hw0 : 0 ≤ w) (fs : List μ) (U : UnionError μ)
    (hU : UnionError.make ops w fs = some U) (p : Nat → ℝ) (i : Nat)
    (hf : ∀ e ∈ fs, (ops.toErrorFunction e).JacobianIsDerivative p i) :
    (U.toErrorFunction ops).JacobianIsDerivative p i ∧ U.weight = w ∧
      ∀ q, U.getError ops q = w * (fs.map fun e => ops.getError e q).sum := by
  have hUw : U.weight = w ∧ U.errorFunctions = fs := by
    unfold UnionError.make at hU
    split_ifs at hU
    cases hU
    exact ⟨rfl, rfl⟩
  obtain ⟨h1, h2⟩ := hUw
  set l := fs.map ops.toErrorFunction with hl
  have hfold : ∀ (q : Nat → ℝ) (s : StackState), fs.foldl (UnionError.jacobianStep ops q) s = l.foldl (stackStep q) s := by
    intro q s
    rw [hl, List.foldl_map]
    rfl
  have hsize : U.jacobianSize ops = (l.map ErrorFunction.jacobianSize).sum := by
    unfold UnionError.jacobianSize
    rw [h2, foldl_add_nat, zero_add, hl, List.map_map]
    rfl
  have herr : ∀ q, U.getError ops q = w * (fs.map fun e => ops.getError e q).sum := by
    intro q
    unfold UnionError.getError
    rw [h1, h2, foldl_add_real, zero_add]
  have hJ : ∀ f ∈ l, f.JacobianIsDerivative p i := by
    intro f hfl
    obtain ⟨e, he, rfl⟩ := List.mem_map.1 hfl
    exact hf e he
  have hrows : ∀ u, ∀ f ∈ l, (f.getJacobian (Function.update p i u)).rows ≤ f.jacobianSize := by
    intro u f hfl
    rw [(hJ f hfl).rows]
    exact (hJ f hfl).size
  have hrows0 : ∀ f ∈ l, (f.getJacobian p).rows ≤ f.jacobianSize := fun f hfl => (hJ f hfl).size
  have hst := fun (q : Nat → ℝ) (h : ∀ f ∈ l, (f.getJacobian q).rows ≤ f.jacobianSize) =>
    stack_rows q l h ⟨0, 0, fun _ _ => 0, fun _ => 0⟩ fun _ _ => ⟨rfl, fun _ => rfl⟩
  have hres : ∀ q, (∀ f ∈ l, (f.getJacobian q).rows ≤ f.jacobianSize) → ∀ t,
      (U.getJacobian ops q).residual t = resAll q l t * Real.sqrt w := by
    intro q h t
    unfold UnionError.getJacobian
    simp only [h1, h2, hfold]
    rw [(hst q h).1 t]
    simp
  have hsq : ∀ q, (∀ f ∈ l, (f.getJacobian q).rows ≤ f.jacobianSize) →
      ∑ t ∈ range (U.jacobianSize ops), (U.getJacobian ops q).residual t ^ 2 =
        w * (l.map fun f => ∑ t ∈ range (f.getJacobian q).rows, (f.getJacobian q).residual t ^ 2).sum := by
    intro q h
    rw [← resAll_sq q l h, hsize, Finset.mul_sum]
    refine Finset.sum_congr rfl fun t _ => ?_
    rw [hres q h, mul_pow, Real.sq_sqrt hw0, mul_comm]
  refine ⟨⟨?_, le_refl _, fun u => rfl, fun u => ?_, fun t _ => ?_⟩, h1, herr⟩
  · show (U.getJacobian ops p).error = U.getError ops p
    rw [herr]
    unfold UnionError.getJacobian
    simp only [h1, h2, hfold]
    rw [(hst p hrows0).2.2, zero_add, hl, List.map_map]
    congr 2
    exact List.map_congr_left fun e he => (hf e he).error
  · show U.getError ops _ = ∑ t ∈ range (U.jacobianSize ops), (U.getJacobian ops _).residual t ^ 2
    rw [hsq _ (hrows u), herr, hl, List.map_map]
    congr 2
    refine List.map_congr_left fun e he => ?_
    have := (hf e he).squares u
    rw [← (hf e he).rows u] at this
    exact this
  · show HasDerivAt (fun u => (U.getJacobian ops (Function.update p i u)).residual t) ((U.getJacobian ops p).e i t) (p i)
    have e1 : (fun u => (U.getJacobian ops (Function.update p i u)).residual t) =
        fun u => resAll (Function.update p i u) l t * Real.sqrt w := by
      funext u; exact hres _ (hrows u) t
    have e2 : (U.getJacobian ops p).e i t = jacAll p i l t * Real.sqrt w := by
      unfold UnionError.getJacobian
      simp only [h1, h2, hfold]
      rw [(hst p hrows0).2.1 i t]
      simp
    rw [e1, e2]
    exact (resAll_deriv p i l hJ t).mul_const _

/-- The gradient, added to zero: if those of the members are the derivatives of their errors then so is that of the union. -/
theorem C80_gradient (ops : MemberOps μ (Nat → ℝ)) (w : ℝ) (fs : List μ) (U : UnionError μ) (hU : UnionError.make ops w fs = some U)
    (p : Nat → ℝ) (hadd : ∀ e ∈ fs, ops.Adds e p) (hs : ∀ e ∈ fs, (ops.addGradient e p fun _ => 0).isSome) (i : Nat)
    (hg : ∀ e ∈ fs, (ops.toErrorFunction e).GradientIsDerivative p i) : (U.toErrorFunction ops).GradientIsDerivative p i := by
  have hUw : U.weight = w ∧ U.errorFunctions = fs := by
    unfold UnionError.make at hU
    split_ifs at hU
    cases hU
    exact ⟨rfl, rfl⟩
  obtain ⟨h1, h2⟩ := hUw
  have herr : ∀ q, U.getError ops q = w * (fs.map fun e => ops.getError e q).sum := by
    intro q
    unfold UnionError.getError
    rw [h1, h2, foldl_add_real, zero_add]
  have hall : ∃ b, gradAll ops p fs = some b ∧ b.1 = (fs.map fun e => ops.getError e p).sum ∧
      HasDerivAt (fun u => (fs.map fun e => ops.getError e (Function.update p i u)).sum) (b.2 i) (p i) := by
    clear hU h2 herr
    induction fs with
    | nil => exact ⟨_, rfl, rfl, hasDerivAt_const _ _⟩
    | cons e r ih =>
      obtain ⟨b, b1, b2, b3⟩ := ih (fun e' he => hadd e' (List.mem_cons_of_mem _ he)) (fun e' he => hs e' (List.mem_cons_of_mem _ he))
        (fun e' he => hg e' (List.mem_cons_of_mem _ he))
      obtain ⟨a, ha⟩ := Option.isSome_iff_exists.1 (hs e (by simp))
      obtain ⟨g1, g2⟩ := hg e (by simp)
      simp only [MemberOps.toErrorFunction, ha, Option.getD_some] at g1 g2
      refine ⟨(a.1 + b.1, fun k => a.2 k + b.2 k), by simp only [gradAll, ha, Option.bind_some, b1, Option.map_some], ?_, ?_⟩
      · simp only [List.map_cons, List.sum_cons, g1, b2]
      · simp only [List.map_cons, List.sum_cons]
        exact g2.add b3
  obtain ⟨b, b1, b2, b3⟩ := hall
  have hgr : (U.toErrorFunction ops).getGradient p = (w * b.1, fun k => (0 + b.2 k) * w) := by
    simp only [UnionError.toErrorFunction]
    rw [UnionError.addGradient_eq p (by rw [h2]; exact hadd), h1, h2, b1]
    rfl
  refine ⟨?_, ?_⟩
  · rw [hgr]
    show w * b.1 = U.getError ops p
    rw [herr, b2]
  · rw [hgr]
    have : (fun u => (U.toErrorFunction ops).getError (Function.update p i u)) =
        fun u => w * (fs.map fun e => ops.getError e (Function.update p i u)).sum := by
      funext u; exact herr _
    rw [this]
    refine (b3.const_mul w).congr_deriv ?_
    simp only [zero_add]
    ring

end Momentum
