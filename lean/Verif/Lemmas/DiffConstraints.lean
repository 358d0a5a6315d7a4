import Verif.Model.DiffConstraints
import Verif.Spec.DiffConstraints
import Verif.Lemmas.ChainWalk
import Verif.Lemmas.TensorState

/-!
# Jets of quaternions and matrices, the walk up the hierarchy as a sum, inputs in blocks
-/

namespace Momentum
open Skeleton Finset TrivSqZeroExt

/-! ## Jets -/

namespace Tracks
variable {f g : ℝ → ℝ} {j k : Jet} {t : ℝ}

theorem const' (c : ℝ) (j : Jet) (t : ℝ) (h : j = .ofReal c) : Tracks (fun _ => c) j t := h ▸ const c t

theorem neg (h : Tracks f j t) : Tracks (fun u => -f u) (-j) t :=
  ⟨by simp [h.1], h.2.neg.congr_deriv (by simp)⟩

theorem one (t : ℝ) : Tracks (fun _ => (1 : ℝ)) 1 t := const' 1 1 t rfl
theorem zero (t : ℝ) : Tracks (fun _ => (0 : ℝ)) 0 t := const' 0 0 t rfl
theorem two (t : ℝ) : Tracks (fun _ => (2 : ℝ)) 2 t := const' 2 2 t (by
  have : (2 : Jet) = 1 + 1 := by norm_num
  rw [this]
  apply TrivSqZeroExt.ext
  · simp [Jet.ofReal]; norm_num
  · simp [Jet.ofReal])

theorem sqrt (h : Tracks f j t) (hp : 0 < j.fst) : Tracks (fun u => Real.sqrt (f u)) j.sqrt t := by
  refine ⟨by simp [Jet.sqrt, h.1], ?_⟩
  refine (h.2.sqrt (by rw [h.1]; exact hp.ne')).congr_deriv ?_
  simp [Jet.sqrt, h.1]; ring

theorem div (h : Tracks f j t) (h2 : Tracks g k t) (hp : k.fst ≠ 0) : Tracks (fun u => f u / g u) (j.div k) t := by
  refine ⟨by simp [Jet.div, h.1, h2.1, div_eq_mul_inv], ?_⟩
  refine (h.2.div h2.2 (by rw [h2.1]; exact hp)).congr_deriv ?_
  simp [Jet.div, h.1, h2.1]
  field_simp

theorem list_sum {β : Type} (l : List β) (F : β → ℝ → ℝ) (J : β → Jet) (h : ∀ x ∈ l, Tracks (F x) (J x) t) :
    Tracks (fun u => (l.map fun x => F x u).sum) (l.map J).sum t := by
  induction l with
  | nil => exact zero t
  | cons a l ih =>
    simp only [List.map_cons, List.sum_cons]
    exact (h a (by simp)).add (ih fun x hx => h x (by simp [hx]))

/-- The component that is varied. -/
theorem var (x : ℝ) (b : Bool) (t : ℝ) (h : b = true → x = t) : Tracks (fun u => if b then u else x) (.var x b) t := by
  cases b with
  | false => exact const' x _ t (by simp [Jet.var, Jet.ofReal])
  | true =>
    have := h rfl; subst this
    exact ⟨by simp [Jet.var], (hasDerivAt_id' x).congr_deriv (by simp [Jet.var])⟩

end Tracks

theorem TracksV.sub {f g : ℝ → Vec3 ℝ} {j k : Vec3 Jet} {t : ℝ} (h : TracksV f j t) (h2 : TracksV g k t) :
    TracksV (fun u => f u - g u) (j - k) t := ⟨h.1.sub h2.1, h.2.1.sub h2.2.1, h.2.2.sub h2.2.2⟩

theorem TracksV.dot {f g : ℝ → Vec3 ℝ} {j k : Vec3 Jet} {t : ℝ} (h : TracksV f j t) (h2 : TracksV g k t) :
    Tracks (fun u => (f u).dot (g u)) (j.dot k) t := ((h.1.mul h2.1).add (h.2.1.mul h2.2.1)).add (h.2.2.mul h2.2.2)

theorem TracksV.transformPoint {f : ℝ → Vec3 ℝ} {j : Vec3 Jet} {t : ℝ} (T : Transform ℝ) (h : TracksV f j t) :
    TracksV (fun u => T.transformPoint (f u)) (T.toJet.transformPoint j) t := by
  unfold Transform.transformPoint
  exact (TracksV.const T.translation t).add (TracksQ.rotate (TracksQ.const T.rotation t)
    (TracksV.smul (Tracks.const T.scale t) h))

theorem TracksV.build (v : Vec3 ℝ) (k : Nat) (t : ℝ) (h0 : k = 0 → v.x = t) (h1 : k = 1 → v.y = t) (h2 : k = 2 → v.z = t) :
    TracksV (fun u => ⟨if k == 0 then u else v.x, if k == 1 then u else v.y, if k == 2 then u else v.z⟩) (buildJetVec3 v k) t :=
  ⟨.var _ _ _ (by simpa using h0), .var _ _ _ (by simpa using h1), .var _ _ _ (by simpa using h2)⟩

theorem TracksQ.build (q : Quat ℝ) (k : Nat) (t : ℝ) (h0 : k = 0 → q.x = t) (h1 : k = 1 → q.y = t) (h2 : k = 2 → q.z = t)
    (h3 : k = 3 → q.w = t) :
    TracksQ (fun u => ⟨if k == 3 then u else q.w, if k == 0 then u else q.x, if k == 1 then u else q.y, if k == 2 then u else q.z⟩)
      (buildJetQuat q k) t :=
  ⟨.var _ _ _ (by simpa using h3), .var _ _ _ (by simpa using h0), .var _ _ _ (by simpa using h1), .var _ _ _ (by simpa using h2)⟩

theorem Tracks.congr_near {f g : ℝ → ℝ} {j : Jet} {t : ℝ} (h : Tracks f j t) (e : ∀ᶠ u in nhds t, g u = f u) : Tracks g j t :=
  ⟨by rw [e.self_of_nhds, h.1], h.2.congr_of_eventuallyEq e⟩

theorem TracksQ.normalized {f : ℝ → Quat ℝ} {j : Quat Jet} {t : ℝ} (h : TracksQ f j t) (h0 : 0 < (f t).normSq) :
    TracksQ (fun u => (f u).normalized) j.normalizedJet t := by
  obtain ⟨hw, hx, hy, hz⟩ := h
  have hz' : Tracks (fun u => (f u).x * (f u).x + (f u).y * (f u).y + (f u).z * (f u).z + (f u).w * (f u).w)
      (j.x * j.x + j.y * j.y + j.z * j.z + j.w * j.w) t :=
    (((hx.mul hx).add (hy.mul hy)).add (hz.mul hz)).add (hw.mul hw)
  have he : ∀ u, (f u).x * (f u).x + (f u).y * (f u).y + (f u).z * (f u).z + (f u).w * (f u).w = (f u).normSq := fun u => by
    simp [Quat.normSq]; ring
  simp only [he] at hz'
  have hp : 0 < (j.x * j.x + j.y * j.y + j.z * j.z + j.w * j.w).fst := by rw [← hz'.1]; exact h0
  have hs := hz'.sqrt hp
  have hne : (j.x * j.x + j.y * j.y + j.z * j.z + j.w * j.w).sqrt.fst ≠ 0 := by
    rw [← hs.1]; exact (Real.sqrt_pos.2 h0).ne'
  have hnear : ∀ᶠ u in nhds t, 0 < (f u).normSq := hz'.2.continuousAt.eventually (lt_mem_nhds h0)
  unfold Quat.normalizedJet
  simp only [if_pos hp]
  refine ⟨(hw.div hs hne).congr_near ?_, (hx.div hs hne).congr_near ?_, (hy.div hs hne).congr_near ?_, (hz.div hs hne).congr_near ?_⟩ <;>
    exact hnear.mono fun u hu => by simp [Quat.normalized, hu]

/-- A matrix of Jets follows a matrix. -/
structure TracksM (f : ℝ → Mat3 ℝ) (j : Mat3 Jet) (t : ℝ) : Prop where
  m00 : Tracks (fun u => (f u).m00) j.m00 t
  m01 : Tracks (fun u => (f u).m01) j.m01 t
  m02 : Tracks (fun u => (f u).m02) j.m02 t
  m10 : Tracks (fun u => (f u).m10) j.m10 t
  m11 : Tracks (fun u => (f u).m11) j.m11 t
  m12 : Tracks (fun u => (f u).m12) j.m12 t
  m20 : Tracks (fun u => (f u).m20) j.m20 t
  m21 : Tracks (fun u => (f u).m21) j.m21 t
  m22 : Tracks (fun u => (f u).m22) j.m22 t

theorem TracksQ.toMat {f : ℝ → Quat ℝ} {j : Quat Jet} {t : ℝ} (h : TracksQ f j t) : TracksM (fun u => (f u).toMat) j.toMat t := by
  obtain ⟨hw, hx, hy, hz⟩ := h
  have o := Tracks.one t
  have tt := Tracks.two t
  constructor
  · exact o.sub (((tt.mul hy).mul hy).add ((tt.mul hz).mul hz))
  · exact ((tt.mul hy).mul hx).sub ((tt.mul hz).mul hw)
  · exact ((tt.mul hz).mul hx).add ((tt.mul hy).mul hw)
  · exact ((tt.mul hy).mul hx).add ((tt.mul hz).mul hw)
  · exact o.sub (((tt.mul hx).mul hx).add ((tt.mul hz).mul hz))
  · exact ((tt.mul hz).mul hy).sub ((tt.mul hx).mul hw)
  · exact ((tt.mul hz).mul hx).sub ((tt.mul hy).mul hw)
  · exact ((tt.mul hz).mul hy).add ((tt.mul hx).mul hw)
  · exact o.sub (((tt.mul hx).mul hx).add ((tt.mul hy).mul hy))

theorem TracksM.minus {f g : ℝ → Mat3 ℝ} {j k : Mat3 Jet} {t : ℝ} (h : TracksM f j t) (h2 : TracksM g k t) :
    TracksM (fun u => (f u).minus (g u)) (j.minus k) t :=
  ⟨h.1.sub h2.1, h.2.sub h2.2, h.3.sub h2.3, h.4.sub h2.4, h.5.sub h2.5, h.6.sub h2.6, h.7.sub h2.7, h.8.sub h2.8, h.9.sub h2.9⟩

theorem TracksM.sumProd {f g : ℝ → Mat3 ℝ} {j k : Mat3 Jet} {t : ℝ} (h : TracksM f j t) (h2 : TracksM g k t) :
    Tracks (fun u => (f u).sumProd (g u)) (j.sumProd k) t :=
  ((((((((h.1.mul h2.1).add (h.2.mul h2.2)).add (h.3.mul h2.3)).add (h.4.mul h2.4)).add (h.5.mul h2.5)).add (h.6.mul h2.6)).add
    (h.7.mul h2.7)).add (h.8.mul h2.8)).add (h.9.mul h2.9)

theorem TracksM.mul {f g : ℝ → Mat3 ℝ} {j k : Mat3 Jet} {t : ℝ} (h : TracksM f j t) (h2 : TracksM g k t) :
    TracksM (fun u => (f u).mul (g u)) (j.mul k) t := by
  have e : ∀ {a b c a' b' c' : ℝ → ℝ} {ja jb jc ja' jb' jc' : Jet}, Tracks a ja t → Tracks b jb t → Tracks c jc t → Tracks a' ja' t →
      Tracks b' jb' t → Tracks c' jc' t → Tracks (fun u => a u * a' u + b u * b' u + c u * c' u) (ja * ja' + jb * jb' + jc * jc') t :=
    fun h1 h2 h3 h4 h5 h6 => ((h1.mul h4).add (h2.mul h5)).add (h3.mul h6)
  exact ⟨e h.1 h.2 h.3 h2.1 h2.4 h2.7, e h.1 h.2 h.3 h2.2 h2.5 h2.8, e h.1 h.2 h.3 h2.3 h2.6 h2.9,
    e h.4 h.5 h.6 h2.1 h2.4 h2.7, e h.4 h.5 h.6 h2.2 h2.5 h2.8, e h.4 h.5 h.6 h2.3 h2.6 h2.9,
    e h.7 h.8 h.9 h2.1 h2.4 h2.7, e h.7 h.8 h.9 h2.2 h2.5 h2.8, e h.7 h.8 h.9 h2.3 h2.6 h2.9⟩

theorem TracksM.cross (v : Vec3 ℝ) (t : ℝ) : TracksM (fun _ => crossProductMatrix v) (crossMatJet v.toJet) t := by
  have z := Tracks.zero t
  have x := Tracks.const v.x t
  have y := Tracks.const v.y t
  have w := Tracks.const v.z t
  exact ⟨z, w.neg, y, w, z, x.neg, y.neg, x, z⟩

/-! ## The walk as a sum -/

/-- Row `r` of the parameter transform times `v`. -/
def rowDot (A : SparseMat ℝ) (v : Nat → ℝ) (r : Nat) : ℝ := ∑ k ∈ range A.cols, A.coeff r k * v k

/-- What the joints `l` add: for each, the values of the degrees of freedom that are active, weighted. -/
noncomputable def walkSum {R : Type} [Semiring R] (active : List Bool) (st : List JointState) (w : Nat → R) (l : List Nat)
    (dv : JointState → List (Nat × R)) : R :=
  (l.map fun a => ((dv (stateAt st a)).map fun d => if active[a * 7 + d.1]? = some true then d.2 * w (a * 7 + d.1) else 0).sum).sum

theorem chainWalk_sum {R σ : Type} [Semiring R] {emit : Nat → R → σ → Option σ} {rows : Nat} {φ : σ → R} {w : Nat → R}
    (he : ∀ row a s, row < rows → ∃ s', emit row a s = some s' ∧ φ s' = φ s + a * w row)
    {skel : Skeleton ℝ} {active : List Bool} (hlen : active.length = rows) (hrows : rows = skel.joints.length * 7)
    {st : List JointState} (hst : st.length = skel.joints.length) {dofs : JointState → List (Nat × Option R)}
    {dv : JointState → List (Nat × R)} (hd : ∀ js ∈ st, dofs js = (dv js).map fun d => (d.1, some d.2))
    (h7 : ∀ js ∈ st, ∀ d ∈ dv js, d.1 < 7) {o : Option Nat} {l : List Nat} (hc : Chain skel o l) : ∀ s,
    ∃ s', chainWalk skel active st dofs emit none o s = some s' ∧ φ s' = φ s + walkSum active st w l dv := by
  have hstep : ∀ (base : Nat) (ds : List (Nat × R)), (∀ d ∈ ds, base + d.1 < rows) → ∀ s,
      ∃ s', (ds.map fun d => (d.1, some d.2)).foldlM (activeStep active emit base) s = some s' ∧
        φ s' = φ s + (ds.map fun d => if active[base + d.1]? = some true then d.2 * w (base + d.1) else 0).sum := by
    intro base ds
    induction ds with
    | nil => intro _ s; exact ⟨s, rfl, by simp⟩
    | cons d ds ih =>
      intro hb s
      have hd0 := hb d (by simp)
      have hl : base + d.1 < active.length := by omega
      have e0 : active[base + d.1]? = some active[base + d.1] := List.getElem?_eq_getElem hl
      have hs1 : ∃ s1, activeStep active emit base s (d.1, some d.2) = some s1 ∧
          φ s1 = φ s + if active[base + d.1]? = some true then d.2 * w (base + d.1) else 0 := by
        unfold activeStep
        rw [e0]
        cases active[base + d.1] with
        | false => exact ⟨s, rfl, by simp⟩
        | true =>
          obtain ⟨s1, a1, a2⟩ := he (base + d.1) d.2 s hd0
          exact ⟨s1, a1, by rw [a2]; simp⟩
      obtain ⟨s1, a1, a2⟩ := hs1
      obtain ⟨s2, b1, b2⟩ := ih (fun x hx => hb x (by simp [hx])) s1
      refine ⟨s2, ?_, ?_⟩
      · rw [List.map_cons, List.foldlM_cons, a1]; exact b1
      · rw [b2, a2, List.map_cons, List.sum_cons, add_assoc]
  induction hc with
  | nil => intro s; exact ⟨s, by rw [chainWalk.eq_def, if_pos rfl], by simp [walkSum]⟩
  | @cons j jt l hj _ ih =>
    intro s
    have hjl := getElem?_lt hj
    have hsj : st[j]? = some st[j] := List.getElem?_eq_getElem (by omega)
    have hmem : st[j] ∈ st := List.getElem_mem _
    obtain ⟨s1, e1, e2⟩ := hstep (j * 7) (dv st[j]) (fun d hdd => by have := h7 _ hmem d hdd; omega) s
    obtain ⟨s2, e3, e4⟩ := ih s1
    refine ⟨s2, ?_, ?_⟩
    · rw [chainWalk.eq_def, if_neg (by simp)]
      simp only [hj, hsj]
      rw [hd _ hmem, e1]
      exact e3
    · rw [e4, e2, add_assoc]
      simp only [walkSum, List.map_cons, List.sum_cons, stateAt_eq hsj]

theorem gradScatter_dot {A : SparseMat ℝ} (hwf : A.WF) (v : Nat → ℝ) (row : Nat) (val : ℝ) (g : Nat → ℝ) :
    ∃ g', gradScatter A row val g = some g' ∧
      ∑ k ∈ range A.cols, g' k * v k = ∑ k ∈ range A.cols, g k * v k + val * rowDot A v row := by
  obtain ⟨g', e1, e2⟩ := gradScatter_emits hwf (row + 1) (ι := Nat) id row val g (by omega)
  refine ⟨g', e1, ?_⟩
  rw [rowDot, Finset.mul_sum, ← Finset.sum_add_distrib]
  refine Finset.sum_congr rfl fun k _ => ?_
  have := e2 k
  simp only [id] at this
  rw [this]; ring

theorem rowDot_entries {A : SparseMat ℝ} (hwf : A.WF) (v : Nat → ℝ) (row : Nat) :
    ((A.entries.filter (·.row == row)).map fun e => e.val * v e.col).sum = rowDot A v row := by
  have key : ∀ l : List (Triplet ℝ), (∀ e ∈ l, e.col < A.cols) →
      (l.map fun e => e.val * v e.col).sum =
        ∑ k ∈ range A.cols, (l.map fun e => if e.col = k then 1 * e.val else 0).sum * v k := by
    intro l
    induction l with
    | nil => simp
    | cons e l ih =>
      intro hl
      rw [List.map_cons, List.sum_cons, ih fun x hx => hl x (by simp [hx])]
      simp only [List.map_cons, List.sum_cons, add_mul]
      rw [Finset.sum_add_distrib]
      congr 1
      rw [Finset.sum_eq_single e.col]
      · simp
      · intro b _ hb; rw [if_neg (fun h => hb h.symm), zero_mul]
      · intro h; exact absurd (Finset.mem_range.2 (hl e (by simp))) h
  rw [key _ fun e he => (hwf e (List.mem_of_mem_filter he)).2]
  unfold rowDot
  refine Finset.sum_congr rfl fun k _ => ?_
  rw [coeff_sum, one_mul]

theorem timesTransform_eq {A : SparseMat ℝ} (hwf : A.WF) (v : Nat → ℝ) (row : Nat) (val acc : Jet) :
    timesTransformTimesV A v row val acc = some (acc + val * .ofReal (rowDot A v row)) := by
  have key : ∀ (l : List (Triplet ℝ)), (∀ e ∈ l, e.col < A.cols) → ∀ r : Jet,
      (l.foldlM (init := r) fun (r : Jet) e =>
        if e.col < A.cols then some (r + val * .ofReal e.val * .ofReal (v e.col)) else none) =
        some (r + val * .ofReal (l.map fun e => e.val * v e.col).sum) := by
    intro l
    induction l with
    | nil => intro _ r; simp [Jet.ofReal]
    | cons e l ih =>
      intro hl r
      rw [List.foldlM_cons, if_pos (hl e (by simp))]
      show (l.foldlM _ _) = _
      rw [ih fun x hx => hl x (by simp [hx])]
      congr 1
      rw [List.map_cons, List.sum_cons]
      have : Jet.ofReal (e.val * v e.col + (l.map fun e => e.val * v e.col).sum) =
          Jet.ofReal e.val * Jet.ofReal (v e.col) + Jet.ofReal (l.map fun e => e.val * v e.col).sum := by
        simp [Jet.ofReal]
      rw [this]; ring
  unfold timesTransformTimesV
  rw [key _ (fun e he => (hwf e (List.mem_of_mem_filter he)).2) 0, Option.map_some, rowDot_entries hwf, zero_add]

theorem Tracks.walkSum {active : List Bool} {st : List JointState} {w : Nat → ℝ} {l : List Nat} {t : ℝ}
    {dv : ℝ → JointState → List (Nat × ℝ)} {dj : JointState → List (Nat × Jet)}
    (h : ∀ js, ∃ ds : List (Nat × (ℝ → ℝ) × Jet), (∀ u, dv u js = ds.map fun x => (x.1, x.2.1 u)) ∧
      dj js = ds.map (fun x => (x.1, x.2.2)) ∧ ∀ x ∈ ds, Tracks x.2.1 x.2.2 t) :
    Tracks (fun u => Momentum.walkSum active st w l (dv u)) (Momentum.walkSum active st (fun r => Jet.ofReal (w r)) l dj) t := by
  unfold Momentum.walkSum
  refine Tracks.list_sum l (fun a u => ((dv u (stateAt st a)).map fun d =>
    if active[a * 7 + d.1]? = some true then d.2 * w (a * 7 + d.1) else 0).sum) _ fun a _ => ?_
  obtain ⟨ds, h1, h2, h3⟩ := h (stateAt st a)
  simp only [h1, h2, List.map_map]
  refine Tracks.list_sum ds (fun x u => if active[a * 7 + x.1]? = some true then x.2.1 u * w (a * 7 + x.1) else 0) _ fun x hx => ?_
  by_cases hb : active[a * 7 + x.1]? = some true
  · simp only [hb, if_true, Function.comp]
    exact (h3 x hx).mul (Tracks.const _ _)
  · simp only [hb, if_false, Function.comp]
    exact Tracks.zero t

theorem walkSum_scale (active : List Bool) (st : List JointState) (w : Nat → ℝ) (l : List Nat) (dv : JointState → List (Nat × ℝ))
    (c : ℝ) : walkSum active st w l dv * c = walkSum active st w l fun js => (dv js).map fun d => (d.1, d.2 * c) := by
  unfold walkSum
  rw [mul_comm, ← list_sum_map_mul]
  congr 1
  refine List.map_congr_left fun a _ => ?_
  rw [← list_sum_map_mul, List.map_map]
  congr 1
  refine List.map_congr_left fun d _ => ?_
  simp only [Function.comp]
  split <;> ring

/-! ## Inputs in blocks -/

theorem flatMap_getD {α : Type} {k : Nat} (f : α → List ℝ) (hf : ∀ a, (f a).length = k) (j : Nat) (hj : j < k) :
    ∀ (l : List α) (i : Nat) (a : α), l[i]? = some a → (l.flatMap f).getD (k * i + j) 0 = (f a).getD j 0 := by
  intro l
  induction l with
  | nil => intro i a h; simp at h
  | cons b l ih =>
    intro i a h
    rw [List.flatMap_cons]
    cases i with
    | zero =>
      simp only [List.getElem?_cons_zero, Option.some.injEq] at h
      subst h
      rw [List.getD_append _ _ _ _ (by rw [hf]; omega)]; simp
    | succ i =>
      rw [List.getElem?_cons_succ] at h
      rw [List.getD_append_right _ _ _ _ (by rw [hf]; nlinarith), hf, ← ih i a h]
      congr 1
      rw [Nat.mul_succ]; omega

theorem flatMap_length' {α : Type} {k : Nat} (f : α → List ℝ) (hf : ∀ a, (f a).length = k) (l : List α) :
    (l.flatMap f).length = k * l.length := by
  induction l with
  | nil => simp
  | cons b l ih => rw [List.flatMap_cons, List.length_append, ih, hf, List.length_cons]; ring

theorem sum_set_deriv {α : Type} (l : List α) (F : α → ℝ) (i : Nat) (hi : i < l.length) (y : ℝ → α) {d t : ℝ}
    (h : HasDerivAt (fun u => F (y u)) d t) : HasDerivAt (fun u => ((l.set i (y u)).map F).sum) d t := by
  induction l generalizing i with
  | nil => simp at hi
  | cons b l ih =>
    cases i with
    | zero => simpa using h.add_const ((l.map F).sum)
    | succ i =>
      have := ih i (by simpa using hi)
      simpa using this.const_add (F b)

/-- An input of `k` numbers for each of the items: the derivative of a sum over the items. -/
theorem blocked_deriv {α : Type} {k : Nat} (F : α → ℝ) (upd : α → (Fin k → ℝ) → α) (enc D : α → List ℝ)
    (henc : ∀ a, (enc a).length = k) (hD : ∀ a, (D a).length = k) (items : List α)
    (h : ∀ a ∈ items, ∀ j : Fin k, HasDerivAt (fun u => F (upd a (Function.update (fun j : Fin k => (enc a).getD j 0) j u)))
      ((D a).getD j 0) ((enc a).getD j 0)) {c : Nat} (hc : c < (items.flatMap enc).length) :
    HasDerivAt (fun u => ((items.mapIdx fun i a => upd a fun j : Fin k => ((items.flatMap enc).set c u).getD (k * i + j) 0).map F).sum)
      ((items.flatMap D).getD c 0) ((items.flatMap enc).getD c 0) := by
  rw [flatMap_length' enc henc] at hc
  have hk : 0 < k := by
    rcases Nat.eq_zero_or_pos k with h0 | h0
    · subst h0; simp at hc
    · exact h0
  have hi : c / k < items.length := Nat.div_lt_of_lt_mul hc
  have hcm : c % k < k := Nat.mod_lt _ hk
  have hce : k * (c / k) + c % k = c := Nat.div_add_mod c k
  have ha : items[c / k]? = some items[c / k] := List.getElem?_eq_getElem hi
  set a := items[c / k] with hadef
  have e1 : (items.flatMap D).getD c 0 = (D a).getD (c % k) 0 := by
    conv_lhs => rw [← hce]
    exact flatMap_getD D hD _ hcm items _ _ ha
  have e2 : (items.flatMap enc).getD c 0 = (enc a).getD (c % k) 0 := by
    conv_lhs => rw [← hce]
    exact flatMap_getD enc henc _ hcm items _ _ ha
  rw [e1, e2]
  have hset : ∀ u, (items.mapIdx fun i a => upd a fun j : Fin k => ((items.flatMap enc).set c u).getD (k * i + j) 0) =
      (items.map fun a => upd a fun j : Fin k => (enc a).getD j 0).set (c / k)
        (upd a (Function.update (fun j : Fin k => (enc a).getD j 0) ⟨c % k, hcm⟩ u)) := by
    intro u
    apply List.ext_getElem?
    intro i
    rw [List.getElem?_mapIdx, List.getElem?_set]
    by_cases hil : i < items.length
    · have hb : items[i]? = some items[i] := List.getElem?_eq_getElem hil
      have hval : ∀ j : Fin k, ((items.flatMap enc).set c u).getD (k * i + j) 0 =
          if c = k * i + j then u else (enc items[i]).getD j 0 := by
        intro j
        have hlt : k * i + j.val < (items.flatMap enc).length := by
          rw [flatMap_length' enc henc]
          have := j.2
          calc k * i + j.val < k * i + k := by omega
            _ = k * (i + 1) := by ring
            _ ≤ k * items.length := Nat.mul_le_mul_left _ (by omega)
        by_cases hcj : c = k * i + j
        · rw [if_pos hcj, List.getD_eq_getElem?_getD, List.getElem?_set, if_pos hcj, if_pos (hcj ▸ hlt)]; rfl
        · rw [if_neg hcj, List.getD_eq_getElem?_getD, List.getElem?_set, if_neg hcj, ← List.getD_eq_getElem?_getD]
          exact flatMap_getD enc henc _ j.2 items i _ hb
      rw [hb, Option.map_some]
      simp only [hval]
      by_cases hic : c / k = i
      · subst hic
        rw [if_pos rfl, if_pos (by simpa using hi)]
        congr 2
        funext j
        by_cases hj : j = ⟨c % k, hcm⟩
        · subst hj; simp [hce]
        · rw [Function.update_of_ne hj, if_neg]
          intro hcj
          apply hj
          apply Fin.ext
          show j.val = c % k
          omega
      · rw [if_neg hic, List.getElem?_map, hb, Option.map_some]
        congr 2
        funext j
        rw [if_neg]
        intro hcj
        apply hic
        rw [hcj, Nat.mul_add_div hk, Nat.div_eq_of_lt j.2, add_zero]
    · rw [List.getElem?_eq_none (by omega)]
      simp only [Option.map_none]
      rw [if_neg (by rintro rfl; exact hil hi), List.getElem?_eq_none (by simpa using hil)]
  simp only [hset]
  exact sum_set_deriv _ F _ (by simpa using hi) _ (h a (List.getElem_mem _) ⟨c % k, hcm⟩)

end Momentum

namespace Momentum
open Skeleton Finset

/-- What the loops of the error functions need. -/
structure ErrorBase.Sound (E : ErrorBase) (st : List JointState) (ch : Nat → List Nat) : Prop where
  wf : E.transform.WF
  active : E.activeJointParams.length = E.skeleton.joints.length * 7
  length : st.length = E.skeleton.joints.length
  clean : ∀ js ∈ st, js.derivDirty = false
  chain : ∀ j < E.skeleton.joints.length, Chain E.skeleton (some j) (ch j)

theorem ErrorBase.Fits.sound {E : ErrorBase} {pt : ParameterTransform ℝ} (h : E.Fits pt) {p : List ℝ} {st : List JointState}
    (hs : E.stateFor pt p true = some st) : ∃ ch, E.Sound st ch := by
  unfold ErrorBase.stateFor at hs
  cases ha : pt.apply p with
  | none => rw [ha] at hs; cases hs
  | some jp =>
    rw [ha, Option.bind_some] at hs
    have hl : jp.length = E.skeleton.joints.length * 7 := by
      unfold skeletonState at hs
      by_contra hne
      rw [if_neg hne] at hs; cases hs
    obtain ⟨S, s1, s2, s3⟩ := skeletonState_good h.skeleton (params := jp) true hl
    rw [s1] at hs
    cases hs
    have hc : ∀ j, ∃ l, j < E.skeleton.joints.length → Chain E.skeleton (some j) l := by
      intro j
      by_cases hj : j < E.skeleton.joints.length
      · obtain ⟨l, hl⟩ := chain_exists h.skeleton j hj
        exact ⟨l, fun _ => hl⟩
      · exact ⟨[], fun h => absurd h hj⟩
    choose ch hch using hc
    exact ⟨ch, by rw [h.transform]; exact h.wf, by rw [h.activeLength, h.rows], s3, ErrorBase.clean_of_good s2 s3, hch⟩

theorem ErrorBase.Sound.walk {E : ErrorBase} {st : List JointState} {ch : Nat → List Nat} (h : E.Sound st ch) (v : Nat → ℝ)
    {dofs : JointState → List (Nat × Option ℝ)} {dv : JointState → List (Nat × ℝ)}
    (hd : ∀ js ∈ st, dofs js = (dv js).map fun d => (d.1, some d.2)) (h7 : ∀ js ∈ st, ∀ d ∈ dv js, d.1 < 7) {j : Nat}
    (hj : j < E.skeleton.joints.length) (g : Nat → ℝ) :
    ∃ g', chainWalk E.skeleton E.activeJointParams st dofs (gradScatter E.transform) none (some j) g = some g' ∧
      ∑ k ∈ range E.transform.cols, g' k * v k = ∑ k ∈ range E.transform.cols, g k * v k +
        walkSum E.activeJointParams st (rowDot E.transform v) (ch j) dv :=
  chainWalk_sum (φ := fun g => ∑ k ∈ range E.transform.cols, g k * v k) (fun row a s _ => gradScatter_dot h.wf v row a s) h.active rfl
    h.length hd h7 (h.chain j hj) g

theorem ErrorBase.Sound.walkJet {E : ErrorBase} {st : List JointState} {ch : Nat → List Nat} (h : E.Sound st ch) (v : Nat → ℝ)
    {dofs : JointState → List (Nat × Option Jet)} {dv : JointState → List (Nat × Jet)}
    (hd : ∀ js ∈ st, dofs js = (dv js).map fun d => (d.1, some d.2)) (h7 : ∀ js ∈ st, ∀ d ∈ dv js, d.1 < 7) {j : Nat}
    (hj : j < E.skeleton.joints.length) :
    chainWalk E.skeleton E.activeJointParams st dofs (timesTransformTimesV E.transform v) none (some j) 0 =
      some (walkSum E.activeJointParams st (fun r => Jet.ofReal (rowDot E.transform v r)) (ch j) dv) := by
  obtain ⟨s, e1, e2⟩ := chainWalk_sum (φ := fun s : Jet => s) (fun row a s _ => ⟨_, timesTransform_eq h.wf v row a s, rfl⟩) h.active rfl
    h.length hd h7 (h.chain j hj) 0
  rw [e1]
  simp only [zero_add] at e2
  rw [e2]

end Momentum
