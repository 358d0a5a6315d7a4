import Verif.Spec.ConstraintError
import Verif.Lemmas.FkDeriv
import Verif.Lemmas.ParameterTransform
import Mathlib.Algebra.BigOperators.Fin

/-!
# The walk up the hierarchy adds up the derivatives
-/

namespace Momentum
open Skeleton

/-- A fold whose every step adds something to each of several numbers. -/
theorem foldlM_track {σ α ι : Type} (step : σ → α → Option σ) (φ : ι → σ → ℝ) (T : ι → α → ℝ) (l : List α)
    (h : ∀ x ∈ l, ∀ s, ∃ s', step s x = some s' ∧ ∀ i, φ i s' = φ i s + T i x) :
    ∀ s, ∃ s', l.foldlM step s = some s' ∧ ∀ i, φ i s' = φ i s + (l.map (T i)).sum := by
  induction l with
  | nil => intro s; exact ⟨s, rfl, fun i => by simp⟩
  | cons x l ih =>
    intro s
    obtain ⟨s1, e1, h1⟩ := h x List.mem_cons_self s
    obtain ⟨s2, e2, h2⟩ := ih (fun y hy => h y (List.mem_cons_of_mem _ hy)) s1
    refine ⟨s2, ?_, fun i => ?_⟩
    · rw [List.foldlM_cons, e1]; exact e2
    · rw [h2, h1, List.map_cons, List.sum_cons, add_assoc]

theorem list_sum_map_mul {α : Type} (l : List α) (f : α → ℝ) (c : ℝ) : (l.map fun x => c * f x).sum = c * (l.map f).sum := by
  induction l with
  | nil => simp
  | cons x l ih => simp [ih, mul_add]

theorem list_sum_filter {α : Type} (l : List α) (p : α → Bool) (f : α → ℝ) :
    ((l.filter p).map f).sum = (l.map fun x => if p x then f x else 0).sum := by
  induction l with
  | nil => simp
  | cons x l ih => by_cases h : p x <;> simp [h, ih]

theorem list_sum_vec_dot {α : Type} (l : List α) (f : α → Vec3 ℝ) (M : Vec3 ℝ) :
    M.dot (l.map f).sum = (l.map fun x => M.dot (f x)).sum := by
  induction l with
  | nil => simp [Vec3.dot]
  | cons x l ih =>
    rw [List.map_cons, List.sum_cons, List.map_cons, List.sum_cons, ← ih]
    simp [Vec3.dot]; ring

theorem HasVecDerivAt.toFn {f : ℝ → Vec3 ℝ} {f' : Vec3 ℝ} {t : ℝ} (h : HasVecDerivAt f f' t) (i : Fin 3) :
    HasDerivAt (fun u => (f u).toFn i) (f'.toFn i) t := by
  fin_cases i
  · exact h.1
  · exact h.2.1
  · exact h.2.2

theorem idRows_dot (i : Fin 3) (v : Vec3 ℝ) : (idRows i).dot v = v.toFn i := by
  fin_cases i <;> simp [idRows, Vec3.toFn, Vec3.dot, Vec3.unitX, Vec3.unitY, Vec3.unitZ]

theorem toFn_add (a b : Vec3 ℝ) (i : Fin 3) : (a + b).toFn i = a.toFn i + b.toFn i := by
  fin_cases i <;> simp [Vec3.toFn]
theorem toFn_sub (a b : Vec3 ℝ) (i : Fin 3) : (a - b).toFn i = a.toFn i - b.toFn i := by
  fin_cases i <;> simp [Vec3.toFn]
theorem toFn_smul (r : ℝ) (a : Vec3 ℝ) (i : Fin 3) : (r • a).toFn i = r * a.toFn i := by
  fin_cases i <;> simp [Vec3.toFn]
theorem toFn_neg (a : Vec3 ℝ) (i : Fin 3) : (-a).toFn i = -a.toFn i := by
  fin_cases i <;> simp [Vec3.toFn]
theorem toFn_zero (i : Fin 3) : (0 : Vec3 ℝ).toFn i = 0 := by
  fin_cases i <;> simp [Vec3.toFn]
theorem dot_sub_left (a b c : Vec3 ℝ) : (a - b).dot c = a.dot c - b.dot c := by simp [Vec3.dot]; ring
theorem dot_add_left (a b c : Vec3 ℝ) : (a + b).dot c = a.dot c + b.dot c := by simp [Vec3.dot]; ring
theorem dot_smul_left (r : ℝ) (a c : Vec3 ℝ) : (r • a).dot c = r * a.dot c := by simp [Vec3.dot]; ring
theorem dot_neg_left (a c : Vec3 ℝ) : (-a).dot c = -a.dot c := by simp [Vec3.dot]; ring
theorem zero_dot_left (c : Vec3 ℝ) : (0 : Vec3 ℝ).dot c = 0 := by simp [Vec3.dot]
theorem dot_comm_real (a c : Vec3 ℝ) : a.dot c = c.dot a := by simp [Vec3.dot]; ring

namespace ConstraintError
variable {m nv : Nat}

/-- The derivatives in `jointDofs` when they are up to date. -/
noncomputable def dofVecs (isPoint : Bool) (js : JointState) (v : Vec3 ℝ) : List (Nat × Vec3 ℝ) :=
  let offset := if isPoint then v - js.transform.translation else v
  (if isPoint then [(0, js.translationAxis 0), (1, js.translationAxis 1), (2, js.translationAxis 2)] else []) ++
    [(3, (js.rotationAxis 0).cross offset), (4, (js.rotationAxis 1).cross offset), (5, (js.rotationAxis 2).cross offset)] ++
    (if isPoint then [(6, Real.log 2 • offset)] else [])

theorem jointDofs_eq (b : Bool) {js : JointState} (h : js.derivDirty = false) (v : Vec3 ℝ) :
    jointDofs b js v = (dofVecs b js v).map fun d => (d.1, some d.2) := by
  cases b <;> simp [jointDofs, dofVecs, JointState.getRotationDerivative, JointState.getTranslationDerivative,
    JointState.getScaleDerivative, h]

theorem dofVecs_lt {b : Bool} {js : JointState} {v : Vec3 ℝ} {d : Nat × Vec3 ℝ} (h : d ∈ dofVecs b js v) : d.1 < 7 := by
  cases b <;> simp [dofVecs] at h <;> aesop

/-- Velocity of a vector when the joint parameters move at rates `w`. -/
noncomputable def velocity (st : List JointState) (chain : List Nat) (b : Bool) (w : Nat → ℝ) (v : Vec3 ℝ) : Vec3 ℝ :=
  (chain.map fun a => ((dofVecs b (stateAt st a) v).map fun d => w (a * 7 + d.1) • d.2).sum).sum

/-- Emission: what `emit` has to do for the tracked numbers. -/
def Tracks {σ ι : Type} (rows : Nat) (emit : Nat → (Fin m → ℝ) → σ → Option σ) (φ : ι → σ → ℝ) (c : ι → Fin m → ℝ)
    (w : ι → Nat → ℝ) : Prop :=
  ∀ row jc s, row < rows → ∃ s', emit row jc s = some s' ∧ ∀ i, φ i s' = φ i s + (∑ b, c i b * jc b) * w i row

section
variable {σ ι : Type} (E : ConstraintError m nv) {emit : Nat → (Fin m → ℝ) → σ → Option σ} {φ : ι → σ → ℝ}
  {c : ι → Fin m → ℝ} {w : ι → Nat → ℝ} {rows : Nat}

theorem dofStep_track (ht : Tracks rows emit φ c w) (hlen : E.activeJointParams.length = rows)
    (hact : ∀ i r, w i r ≠ 0 → E.activeJointParams[r]? = some true) (M : Fin m → Vec3 ℝ) (base : Nat) (d : Nat × Vec3 ℝ)
    (hd : base + d.1 < rows) (s : σ) :
    ∃ s', E.dofStep emit M base s (d.1, some d.2) = some s' ∧
      ∀ i, φ i s' = φ i s + ∑ b, c i b * (M b).dot (w i (base + d.1) • d.2) := by
  have hl : base + d.1 < E.activeJointParams.length := by omega
  have hval : ∀ i, (∑ b, c i b * (M b).dot d.2) * w i (base + d.1) = ∑ b, c i b * (M b).dot (w i (base + d.1) • d.2) := by
    intro i
    rw [Finset.sum_mul]
    refine Finset.sum_congr rfl fun b _ => ?_
    simp [Vec3.dot]; ring
  unfold dofStep
  cases hb : E.activeJointParams[base + d.1] with
  | false =>
    have he : E.activeJointParams[base + d.1]? = some false := by rw [List.getElem?_eq_getElem hl, hb]
    simp only [he]
    refine ⟨s, rfl, fun i => ?_⟩
    have : w i (base + d.1) = 0 := by
      by_contra hne
      have := hact i _ hne
      rw [he] at this; cases this
    rw [← hval, this]; ring
  | true =>
    have he : E.activeJointParams[base + d.1]? = some true := by rw [List.getElem?_eq_getElem hl, hb]
    simp only [he]
    obtain ⟨s', e1, e2⟩ := ht (base + d.1) (fun i => (M i).dot d.2) s hd
    exact ⟨s', e1, fun i => by rw [e2, hval]⟩

theorem vecStep_track (ht : Tracks rows emit φ c w) (hlen : E.activeJointParams.length = rows)
    (hact : ∀ i r, w i r ≠ 0 → E.activeJointParams[r]? = some true) (r : EvalResult m nv) {js : JointState}
    (hjs : js.derivDirty = false) (a : Nat) (ha : a * 7 + 7 ≤ rows) (k : Fin nv)
    (hz : isZeroRows E.precision (r.dfdv k) = true → ∀ i, r.dfdv k i = 0) (s : σ) :
    ∃ s', E.vecStep emit r js (a * 7) s k = some s' ∧
      ∀ i, φ i s' = φ i s + ∑ b, c i b * (r.dfdv k b).dot
        ((dofVecs (decide (k.val < E.numPos)) js (r.v k)).map fun d => w i (a * 7 + d.1) • d.2).sum := by
  unfold vecStep
  by_cases h0 : isZeroRows E.precision (r.dfdv k) = true
  · rw [if_pos h0]
    refine ⟨s, rfl, fun i => ?_⟩
    rw [Finset.sum_eq_zero, add_zero]
    intro b _
    rw [hz h0 b]
    simp [Vec3.dot]
  · rw [if_neg h0, jointDofs_eq _ hjs, List.foldlM_map]
    obtain ⟨s', e1, e2⟩ := foldlM_track (fun s (d : Nat × Vec3 ℝ) => E.dofStep emit (r.dfdv k) (a * 7) s (d.1, some d.2)) φ
      (fun i d => ∑ b, c i b * (r.dfdv k b).dot (w i (a * 7 + d.1) • d.2))
      (dofVecs (decide (k.val < E.numPos)) js (r.v k))
      (fun d hd s => E.dofStep_track ht hlen hact (r.dfdv k) (a * 7) d (by have := dofVecs_lt hd; omega) s) s
    refine ⟨s', e1, fun i => ?_⟩
    rw [e2]
    congr 1
    generalize dofVecs (decide (k.val < E.numPos)) js (r.v k) = l
    simp only [list_sum_vec_dot]
    induction l with
    | nil => simp
    | cons d l ih =>
      simp only [List.map_cons, List.sum_cons, ih, mul_add, Finset.sum_add_distrib]

theorem list_finRange_sum (f : Fin nv → ℝ) : ((List.finRange nv).map f).sum = ∑ k, f k := by
  rw [← List.ofFn_eq_map, List.sum_ofFn]

theorem walkUp_track (hv : E.skeleton.Valid) (ht : Tracks rows emit φ c w) (hlen : E.activeJointParams.length = rows)
    (hrows : rows = E.skeleton.joints.length * 7) (hact : ∀ i r, w i r ≠ 0 → E.activeJointParams[r]? = some true)
    {st : List JointState} (hst : st.length = E.skeleton.joints.length) (hd : ∀ js ∈ st, js.derivDirty = false)
    (r : EvalResult m nv) (hz : ∀ k, isZeroRows E.precision (r.dfdv k) = true → ∀ i, r.dfdv k i = 0)
    {o : Option Nat} {l : List Nat} (hc : Chain E.skeleton o l) : ∀ s,
    ∃ s', E.walkUp emit st r o s = some s' ∧
      ∀ i, φ i s' = φ i s + ∑ b, c i b * ∑ k, (r.dfdv k b).dot
        (velocity st l (decide (k.val < E.numPos)) (w i) (r.v k)) := by
  induction hc with
  | nil =>
    intro s
    refine ⟨s, by rw [walkUp], fun i => ?_⟩
    simp [velocity, Vec3.dot]
  | @cons j jt l hj hcl ih =>
    intro s
    have hjl := getElem?_lt hj
    have hsj : st[j]? = some st[j] := List.getElem?_eq_getElem (by omega)
    have hsa : stateAt st j = st[j] := stateAt_eq hsj
    obtain ⟨s1, e1, e2⟩ := foldlM_track (E.vecStep emit r st[j] (j * 7)) φ
      (fun i k => ∑ b, c i b * (r.dfdv k b).dot
        ((dofVecs (decide (k.val < E.numPos)) st[j] (r.v k)).map fun d => w i (j * 7 + d.1) • d.2).sum)
      (List.finRange nv) (fun k _ s => E.vecStep_track ht hlen hact r (hd _ (List.getElem_mem _)) j (by omega) k (hz k) s) s
    obtain ⟨s2, e3, e4⟩ := ih s1
    refine ⟨s2, ?_, fun i => ?_⟩
    · rw [walkUp]
      simp only [hj, hsj, e1]
      exact e3
    · rw [e4, e2, add_assoc]
      congr 1
      rw [list_finRange_sum, Finset.sum_comm, ← Finset.sum_add_distrib]
      refine Finset.sum_congr rfl fun b _ => ?_
      rw [← Finset.mul_sum, ← mul_add, ← Finset.sum_add_distrib]
      congr 1
      refine Finset.sum_congr rfl fun k _ => ?_
      unfold velocity
      rw [List.map_cons, List.sum_cons, hsa]
      simp [Vec3.dot]; ring
end

/-- The rates of the joint parameters when the enabled model parameter `i` moves at unit speed. -/
noncomputable def rates (E : ConstraintError m nv) (i row : Nat) : ℝ :=
  if E.enabledParameters.mem i then E.transform.coeff row i else 0

theorem test_mem (s : ParameterSet) {i : Nat} (h : i < kMaxModelParams) : s.test i = some (s.mem i) := by
  unfold ParameterSet.test ParameterSet.mem
  rw [dif_pos h, dif_pos h]

theorem rates_sum (E : ConstraintError m nv) (i row : Nat) (x : ℝ) :
    ((E.transform.entries.filter (·.row == row)).map fun e => if E.enabledParameters.mem e.col = true ∧ e.col = i
      then x * e.val else 0).sum = x * E.rates i row := by
  rw [list_sum_filter]
  unfold rates SparseMat.coeff
  rw [list_sum_filter]
  by_cases h : E.enabledParameters.mem i = true
  · rw [if_pos h, ← list_sum_map_mul]
    congr 1
    refine List.map_congr_left fun e _ => ?_
    by_cases h1 : e.row = row <;> by_cases h2 : e.col = i <;> simp [h1, h2, h]
  · rw [if_neg h, mul_zero, List.sum_eq_zero]
    intro x hx
    obtain ⟨e, -, rfl⟩ := List.mem_map.1 hx
    split
    · rw [if_neg]; rintro ⟨h1, h2⟩; rw [h2] at h1; exact h h1
    · rfl

theorem gradEmit_tracks (E : ConstraintError m nv) (hwf : E.transform.WF) (hcols : E.transform.cols ≤ kMaxModelParams)
    (deriv : Fin m → ℝ) (rows : Nat) :
    Tracks rows (E.gradEmit deriv) (fun (i : Nat) g => g i) (fun _ => deriv) E.rates := by
  intro row jc g _
  obtain ⟨g', e1, e2⟩ := foldlM_track (fun (g : Nat → ℝ) (e : Triplet ℝ) => (do
    let en ← E.enabledParameters.test e.col
    if en then
      if e.col < E.transform.cols then
        some (Function.update g e.col (g e.col + (∑ i, deriv i * jc i) * e.val))
      else none
    else some g : Option (Nat → ℝ))) (fun (i : Nat) g => g i)
    (fun i e => if E.enabledParameters.mem e.col = true ∧ e.col = i then (∑ i, deriv i * jc i) * e.val else 0)
    (E.transform.entries.filter (·.row == row)) (by
      intro e he g
      have hw := hwf e (List.mem_of_mem_filter he)
      rw [test_mem _ (by omega)]
      simp only [Option.bind_eq_bind, Option.bind_some, hw.2, if_true]
      by_cases h : E.enabledParameters.mem e.col = true
      · refine ⟨_, by rw [if_pos h], fun i => ?_⟩
        by_cases hi : e.col = i
        · subst hi; simp [h]
        · simp only [h, hi, and_false, if_false, add_zero]
          exact Function.update_of_ne (fun h => hi h.symm) _ _
      · exact ⟨g, by rw [if_neg h], fun i => by simp [h]⟩) g
  refine ⟨g', e1, fun i => ?_⟩
  have h2 := e2 i
  rw [rates_sum] at h2
  exact h2

theorem jacEmit_tracks (E : ConstraintError m nv) (hwf : E.transform.WF) (hcols : E.transform.cols ≤ kMaxModelParams)
    (deriv : ℝ) (index rows : Nat) :
    Tracks rows (E.jacEmit deriv index) (fun (it : Nat × Nat) J => J it.1 it.2)
      (fun it b => if m * index + b.val = it.2 then deriv else 0) (fun it => E.rates it.1) := by
  intro row jc J _
  obtain ⟨J', e1, e2⟩ := foldlM_track (fun (J : Nat → Nat → ℝ) (e : Triplet ℝ) => (do
    let en ← E.enabledParameters.test e.col
    if en then
      if e.col < E.transform.cols then
        some (Function.update J e.col fun t =>
          if h : m * index ≤ t ∧ t < m * index + m then
            J e.col t + deriv * jc ⟨t - m * index, by omega⟩ * e.val
          else J e.col t)
      else none
    else some J : Option (Nat → Nat → ℝ))) (fun (it : Nat × Nat) J => J it.1 it.2)
    (fun it e => if E.enabledParameters.mem e.col = true ∧ e.col = it.1 then
      (∑ b : Fin m, (if m * index + b.val = it.2 then deriv else 0) * jc b) * e.val else 0)
    (E.transform.entries.filter (·.row == row)) (by
      intro e he J
      have hw := hwf e (List.mem_of_mem_filter he)
      rw [test_mem _ (by omega)]
      simp only [Option.bind_eq_bind, Option.bind_some, hw.2, if_true]
      by_cases h : E.enabledParameters.mem e.col = true
      · refine ⟨_, by rw [if_pos h], fun it => ?_⟩
        obtain ⟨i, t⟩ := it
        by_cases hi : e.col = i
        · subst hi
          simp only [h, and_self, if_true, Function.update_self]
          by_cases hb : m * index ≤ t ∧ t < m * index + m
          · rw [dif_pos hb, Finset.sum_eq_single (⟨t - m * index, by omega⟩ : Fin m)]
            · rw [if_pos (by simp only []; omega)]
            · intro b _ hne
              rw [if_neg, zero_mul]
              intro hc
              exact hne (Fin.ext (by simp only []; omega))
            · intro hc; exact absurd (Finset.mem_univ _) hc
          · rw [dif_neg hb, Finset.sum_eq_zero, zero_mul, add_zero]
            intro b _
            rw [if_neg (by have := b.isLt; omega), zero_mul]
        · simp only [h, hi, and_false, if_false, add_zero]
          rw [Function.update_of_ne (fun h => hi h.symm)]
      · exact ⟨J, by simp [h], fun i => by simp [h]⟩) J
  refine ⟨J', e1, fun it => ?_⟩
  have h2 := e2 it
  rw [rates_sum] at h2
  exact h2

/-! ## The velocity is the derivative -/

theorem velocity_point {st : List JointState} {l : List Nat} (w : Nat → ℝ) (v : Vec3 ℝ) :
    velocity st l true w v = (l.map fun a => jointVel (stateAt st a) (ratesOf w a) v).sum := by
  unfold velocity
  congr 1
  refine List.map_congr_left fun a _ => ?_
  simp only [dofVecs, jointVel, jointSpin, ratesOf, mul_comm 7 a]
  ext <;> simp <;> ring

theorem velocity_axis {st : List JointState} {l : List Nat} (w : Nat → ℝ) (v : Vec3 ℝ) :
    velocity st l false w v = ((l.map fun a => jointSpin (stateAt st a) (ratesOf w a)).sum).cross v := by
  unfold velocity
  induction l with
  | nil => simp [zero_cross']
  | cons a l ih =>
    rw [List.map_cons, List.sum_cons, ih, List.map_cons, List.sum_cons, cross_add']
    congr 1
    simp only [dofVecs, jointSpin, ratesOf, mul_comm 7 a]
    ext <;> simp <;> ring

end ConstraintError
end Momentum
