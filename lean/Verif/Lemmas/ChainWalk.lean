import Verif.Spec.ErrorFunction
import Verif.Lemmas.ConstraintCurve2

/-!
# The walk up the hierarchy adds up what every joint contributes
-/

namespace Momentum
open Skeleton

/-- The joints from `j` up to, and without, `stop`. -/
inductive PathTo (s : Skeleton ℝ) (stop : Option Nat) : Option Nat → List Nat → Prop
  | nil : PathTo s stop stop []
  | cons {j : Nat} {jt : Joint ℝ} {l : List Nat} : some j ≠ stop → s.joints[j]? = some jt →
      PathTo s stop jt.parent l → PathTo s stop (some j) (j :: l)

theorem Chain.to {s : Skeleton ℝ} {o : Option Nat} {l : List Nat} (h : Chain s o l) : PathTo s none o l := by
  induction h with
  | nil => exact .nil
  | cons hj _ ih => exact .cons (by simp) hj ih

/-- What `emit` has to do for the tracked numbers. -/
def Emits {α σ ι : Type} (rows : Nat) (emit : Nat → α → σ → Option σ) (φ : ι → σ → ℝ) (ev : ι → α → ℝ)
    (w : ι → Nat → ℝ) : Prop :=
  ∀ row a s, row < rows → ∃ s', emit row a s = some s' ∧ ∀ i, φ i s' = φ i s + ev i a * w i row

section
variable {α σ ι : Type} {emit : Nat → α → σ → Option σ} {φ : ι → σ → ℝ} {ev : ι → α → ℝ} {w : ι → Nat → ℝ} {rows : Nat}
  {active : List Bool}

theorem activeStep_track (ht : Emits rows emit φ ev w) (hlen : active.length = rows)
    (hact : ∀ i r, w i r ≠ 0 → active[r]? = some true) (base : Nat) (d : Nat × α) (hd : base + d.1 < rows) (s : σ) :
    ∃ s', activeStep active emit base s (d.1, some d.2) = some s' ∧
      ∀ i, φ i s' = φ i s + ev i d.2 * w i (base + d.1) := by
  have hl : base + d.1 < active.length := by omega
  unfold activeStep
  cases hb : active[base + d.1] with
  | false =>
    have he : active[base + d.1]? = some false := by rw [List.getElem?_eq_getElem hl, hb]
    simp only [he]
    refine ⟨s, rfl, fun i => ?_⟩
    have : w i (base + d.1) = 0 := by
      by_contra hne
      have := hact i _ hne
      rw [he] at this; cases this
    rw [this]; ring
  | true =>
    have he : active[base + d.1]? = some true := by rw [List.getElem?_eq_getElem hl, hb]
    simp only [he]
    exact ht _ _ _ hd

/-- What the degrees of freedom of one joint contribute. -/
def dofSum (ev : α → ℝ) (w : Nat → ℝ) (a : Nat) (l : List (Nat × α)) : ℝ :=
  (l.map fun d => ev d.2 * w (a * 7 + d.1)).sum

theorem chainWalk_track {skel : Skeleton ℝ} (ht : Emits rows emit φ ev w) (hlen : active.length = rows)
    (hrows : rows = skel.joints.length * 7) (hact : ∀ i r, w i r ≠ 0 → active[r]? = some true)
    {st : List JointState} (hst : st.length = skel.joints.length) {dofs : JointState → List (Nat × Option α)}
    {dv : JointState → List (Nat × α)} (hd : ∀ js ∈ st, dofs js = (dv js).map fun d => (d.1, some d.2))
    (h7 : ∀ js ∈ st, ∀ d ∈ dv js, d.1 < 7) {stop o : Option Nat} {l : List Nat} (hc : PathTo skel stop o l) : ∀ s,
    ∃ s', chainWalk skel active st dofs emit stop o s = some s' ∧
      ∀ i, φ i s' = φ i s + (l.map fun a => dofSum (ev i) (w i) a (dv (stateAt st a))).sum := by
  induction hc with
  | nil =>
    intro s
    refine ⟨s, by rw [chainWalk.eq_def, if_pos rfl], fun i => by simp⟩
  | @cons j jt l hj1 hj hcl ih =>
    intro s
    have hjl := getElem?_lt hj
    have hsj : st[j]? = some st[j] := List.getElem?_eq_getElem (by omega)
    have hmem : st[j] ∈ st := List.getElem_mem _
    have hsa : stateAt st j = st[j] := stateAt_eq hsj
    obtain ⟨s1, e1, e2⟩ := foldlM_track (fun s (d : Nat × α) => activeStep active emit (j * 7) s (d.1, some d.2)) φ
      (fun i d => ev i d.2 * w i (j * 7 + d.1)) (dv st[j])
      (fun d hdd s => activeStep_track ht hlen hact (j * 7) d (by have := h7 _ hmem d hdd; omega) s) s
    obtain ⟨s2, e3, e4⟩ := ih s1
    refine ⟨s2, ?_, fun i => ?_⟩
    · rw [chainWalk.eq_def, if_neg hj1]
      simp only [hj, hsj]
      rw [hd _ hmem, List.foldlM_map, e1]
      exact e3
    · rw [e4, e2, List.map_cons, List.sum_cons, hsa, dofSum, add_assoc]
end

theorem coeff_sum (A : SparseMat ℝ) (i row : Nat) (x : ℝ) :
    ((A.entries.filter (·.row == row)).map fun e => if e.col = i then x * e.val else 0).sum = x * A.coeff row i := by
  rw [list_sum_filter]
  unfold SparseMat.coeff
  rw [list_sum_filter, ← list_sum_map_mul]
  congr 1
  refine List.map_congr_left fun e _ => ?_
  by_cases h1 : e.row = row <;> by_cases h2 : e.col = i <;> simp [h1, h2]

theorem gradScatter_emits {A : SparseMat ℝ} (hwf : A.WF) (rows : Nat) {ι : Type} (κ : ι → Nat) :
    Emits rows (gradScatter A) (fun (i : ι) g => g (κ i)) (fun _ v => v) (fun i r => A.coeff r (κ i)) := by
  intro row val g _
  obtain ⟨g', e1, e2⟩ := foldlM_track (fun (g : Nat → ℝ) (e : Triplet ℝ) =>
      if e.col < A.cols then some (Function.update g e.col (g e.col + val * e.val)) else none) (fun (i : Nat) g => g i)
    (fun i e => if e.col = i then val * e.val else 0) (A.entries.filter (·.row == row)) (by
      intro e he g
      have hw := hwf e (List.mem_of_mem_filter he)
      refine ⟨_, if_pos hw.2, fun i => ?_⟩
      by_cases hi : e.col = i
      · subst hi; simp
      · simp only [hi, if_false, add_zero]
        exact Function.update_of_ne (fun h => hi h.symm) _ _) g
  refine ⟨g', e1, fun i => ?_⟩
  have := e2 (κ i)
  rw [coeff_sum] at this
  exact this

theorem jacScatter_emits {m : Nat} {A : SparseMat ℝ} (hwf : A.WF) (offset rows : Nat) {ι : Type} (κ : ι → Nat) :
    Emits rows (jacScatter (m := m) A offset) (fun (it : ι × Nat) J => J (κ it.1) it.2)
      (fun it jc => if h : offset ≤ it.2 ∧ it.2 < offset + m then jc ⟨it.2 - offset, by omega⟩ else 0)
      (fun it r => A.coeff r (κ it.1)) := by
  intro row jc J _
  obtain ⟨J', e1, e2⟩ := foldlM_track (fun (J : Nat → Nat → ℝ) (e : Triplet ℝ) =>
      if e.col < A.cols then
        some (Function.update J e.col fun t =>
          if h : offset ≤ t ∧ t < offset + m then J e.col t + jc ⟨t - offset, by omega⟩ * e.val else J e.col t)
      else none) (fun (it : Nat × Nat) J => J it.1 it.2)
    (fun it e => if e.col = it.1 then
      (if h : offset ≤ it.2 ∧ it.2 < offset + m then jc ⟨it.2 - offset, by omega⟩ else 0) * e.val else 0)
    (A.entries.filter (·.row == row)) (by
      intro e he J
      have hw := hwf e (List.mem_of_mem_filter he)
      refine ⟨_, if_pos hw.2, fun it => ?_⟩
      obtain ⟨i, t⟩ := it
      by_cases hi : e.col = i
      · subst hi
        simp only [if_true, Function.update_self]
        by_cases hb : offset ≤ t ∧ t < offset + m
        · rw [dif_pos hb, dif_pos hb]
        · rw [dif_neg hb, dif_neg hb]; ring
      · simp only [hi, if_false, add_zero]
        rw [Function.update_of_ne (fun h => hi h.symm)]) J
  refine ⟨J', e1, fun it => ?_⟩
  have := e2 (κ it.1, it.2)
  rw [coeff_sum] at this
  exact this

namespace ErrorBase

/-- The states along a motion of model parameter `i`. -/
theorem states_curve {E : ErrorBase} {pt : ParameterTransform ℝ} (hE : E.Fits pt) {p : List ℝ}
    (hp : p.length = pt.transform.cols) {i : Nat} (hi : i < pt.transform.cols) :
    ∃ (θ : ℝ → List ℝ) (S S' : ℝ → List JointState), (∀ u, E.stateFor pt (p.set i u) true = some (S u)) ∧
      (∀ u, E.stateFor pt (p.set i u) false = some (S' u)) ∧
      (∀ u, FKGood E.skeleton (θ u) true (S u)) ∧ (∀ u, (S u).length = E.skeleton.joints.length) ∧
      (∀ u, (S' u).length = E.skeleton.joints.length) ∧
      (∀ r t, HasDerivAt (fun u => (θ u).getD r 0) (pt.transform.coeff r i) t) ∧
      ∀ u j, worldOf (S u) (some j) = worldOf (S' u) (some j) := by
  obtain ⟨θ, h1, h2, h3⟩ := apply_curve pt hE.wf hE.offs hp hi
  have hx := fun u => skeletonState_good hE.skeleton (params := θ u) true (by rw [h2 u, hE.rows])
  have hx' := fun u => skeletonState_good hE.skeleton (params := θ u) false (by rw [h2 u, hE.rows])
  choose S s1 s2 s3 using hx
  choose S' t1 t2 t3 using hx'
  refine ⟨θ, S, S', fun u => ?_, fun u => ?_, s2, s3, t3, h3, fun u j => worldOf_cd hE.skeleton (s2 u) (t2 u) (s3 u) (t3 u) j⟩
  · unfold stateFor; rw [h1, Option.bind_some, s1]
  · unfold stateFor; rw [h1, Option.bind_some, t1]

theorem clean_of_good {s : Skeleton ℝ} {θ : List ℝ} {st : List JointState} (hgood : FKGood s θ true st)
    (hlen : st.length = s.joints.length) : ∀ js ∈ st, js.derivDirty = false := by
  intro js hj
  obtain ⟨j, hj1, hj2⟩ := List.mem_iff_getElem.1 hj
  have e : s.joints[j]? = some (s.joints[j]'(by omega)) := List.getElem?_eq_getElem _
  rw [hgood.eq j _ js e (by rw [List.getElem?_eq_getElem hj1, hj2]), set_derivDirty]; rfl

end ErrorBase

theorem map_range_update (n : Nat) (p : Nat → ℝ) (i : Nat) (u : ℝ) :
    (List.range n).map (Function.update p i u) = ((List.range n).map p).set i u := by
  apply List.ext_getElem?
  intro j
  rw [List.getElem?_set]
  by_cases hj : j < n
  · by_cases hij : i = j
    · subst hij
      simp [hj]
    · simp [hj, hij, Function.update_of_ne (Ne.symm hij)]
  · simp [hj]
    intro h1; omega

theorem worldOf_stateAt {st : List JointState} {j : Nat} (hj : j < st.length) :
    (stateAt st j).transform = worldOf st (some j) := by
  have e : st[j]? = some st[j] := List.getElem?_eq_getElem hj
  rw [stateAt_eq e]
  simp only [worldOf, e]

end Momentum
