import Verif.Spec.CollisionError
import Verif.Lemmas.FkDeriv
import Mathlib.Topology.Order.Compact
import Mathlib.Analysis.Calculus.Deriv.Mul
import Mathlib.Analysis.SpecialFunctions.Sqrt

/-!
# The distance of two moving segments
-/

namespace Momentum

open Set Filter Topology

/-- The unit square of parameters. -/
def unitSquare : Set (ℝ × ℝ) := Icc 0 1 ×ˢ Icc 0 1

theorem unitSquare_compact : IsCompact unitSquare := isCompact_Icc.prod isCompact_Icc

theorem mem_unitSquare {q : ℝ × ℝ} : q ∈ unitSquare ↔ (0 ≤ q.1 ∧ q.1 ≤ 1) ∧ (0 ≤ q.2 ∧ q.2 ≤ 1) := Iff.rfl

/-- The six coefficients of the squared distance as a polynomial in the parameters. -/
def sqCoeff (w d e : Vec3 ℝ) : Fin 6 → ℝ := ![w.dot w, d.dot d, e.dot e, w.dot d, w.dot e, d.dot e]

/-- The six monomials. -/
def sqMono (q : ℝ × ℝ) : Fin 6 → ℝ := ![1, q.1 ^ 2, q.2 ^ 2, 2 * q.1, -(2 * q.2), -(2 * (q.1 * q.2))]

theorem sqDist_poly (o1 d1 o2 d2 : Vec3 ℝ) (q : ℝ × ℝ) :
    sqDist (segPoint o1 d1 q.1) (segPoint o2 d2 q.2) = ∑ k, sqMono q k * sqCoeff (o1 - o2) d1 d2 k := by
  simp only [sqDist, segPoint, Vec3.sqNorm, Vec3.dot, sqMono, sqCoeff, Fin.sum_univ_succ]
  simp
  ring

theorem sqMono_le {q : ℝ × ℝ} (hq : q ∈ unitSquare) (k : Fin 6) : |sqMono q k| ≤ 2 := by
  obtain ⟨⟨a, b⟩, c, d⟩ := mem_unitSquare.1 hq
  have h1 : q.1 * q.2 ≤ 1 := mul_le_one₀ b c d
  have h2 : 0 ≤ q.1 * q.2 := mul_nonneg a c
  rw [abs_le]
  fin_cases k <;> constructor <;> simp only [sqMono] <;> norm_num <;> nlinarith

theorem sqMono_continuous (k : Fin 6) : Continuous fun q => sqMono q k := by
  fin_cases k <;> simp [sqMono] <;> fun_prop

theorem sqDist_continuous (o1 d1 o2 d2 : Vec3 ℝ) :
    Continuous fun q : ℝ × ℝ => sqDist (segPoint o1 d1 q.1) (segPoint o2 d2 q.2) := by
  simp only [sqDist_poly]
  exact continuous_finsetSum _ fun k _ => (sqMono_continuous k).mul continuous_const

theorem closestPair_iff {o1 d1 o2 d2 : Vec3 ℝ} {s t : ℝ} : IsClosestPair o1 d1 o2 d2 s t ↔ (s, t) ∈ unitSquare ∧
    ∀ q ∈ unitSquare, sqDist (segPoint o1 d1 s) (segPoint o2 d2 t) ≤ sqDist (segPoint o1 d1 q.1) (segPoint o2 d2 q.2) := by
  unfold IsClosestPair
  rw [mem_unitSquare]
  constructor
  · rintro ⟨h1, h2, h3⟩
    exact ⟨⟨h1, h2⟩, fun q hq => h3 _ _ (mem_unitSquare.1 hq).1.1 (mem_unitSquare.1 hq).1.2 (mem_unitSquare.1 hq).2.1
      (mem_unitSquare.1 hq).2.2⟩
  · rintro ⟨⟨h1, h2⟩, h3⟩
    exact ⟨h1, h2, fun s' t' a b c d => h3 (s', t') (mem_unitSquare.2 ⟨⟨a, b⟩, c, d⟩)⟩

theorem closestPair_exists (o1 d1 o2 d2 : Vec3 ℝ) : ∃ s t, IsClosestPair o1 d1 o2 d2 s t := by
  obtain ⟨q, hq, hm⟩ := unitSquare_compact.exists_isMinOn ⟨(0, 0), mem_unitSquare.2 (by norm_num)⟩
    (sqDist_continuous o1 d1 o2 d2).continuousOn
  exact ⟨q.1, q.2, closestPair_iff.2 ⟨hq, fun q' hq' => hm hq'⟩⟩

theorem segmentDistance_eq {o1 d1 o2 d2 : Vec3 ℝ} {s t : ℝ} (h : IsClosestPair o1 d1 o2 d2 s t) :
    segmentDistance o1 d1 o2 d2 = Real.sqrt (sqDist (segPoint o1 d1 s) (segPoint o2 d2 t)) := by
  unfold segmentDistance
  refine IsLeast.csInf_eq ⟨⟨s, t, h.1, h.2.1, rfl⟩, ?_⟩
  rintro x ⟨s', t', h1, h2, rfl⟩
  exact Real.sqrt_le_sqrt (h.2.2 s' t' h1.1 h1.2 h2.1 h2.2)

theorem sqDist_nonneg' (a b : Vec3 ℝ) : 0 ≤ sqDist a b := by
  simp only [sqDist, Vec3.sqNorm, Vec3.dot]; nlinarith [sq_nonneg (a - b).x, sq_nonneg (a - b).y, sq_nonneg (a - b).z]

theorem segmentDistance_nonneg (o1 d1 o2 d2 : Vec3 ℝ) : 0 ≤ segmentDistance o1 d1 o2 d2 := by
  obtain ⟨s, t, h⟩ := closestPair_exists o1 d1 o2 d2
  rw [segmentDistance_eq h]; exact Real.sqrt_nonneg _

theorem segmentDistance_le {o1 d1 o2 d2 : Vec3 ℝ} {s t : ℝ} (hs : 0 ≤ s ∧ s ≤ 1) (ht : 0 ≤ t ∧ t ≤ 1) :
    segmentDistance o1 d1 o2 d2 ≤ Real.sqrt (sqDist (segPoint o1 d1 s) (segPoint o2 d2 t)) := by
  obtain ⟨s', t', h⟩ := closestPair_exists o1 d1 o2 d2
  rw [segmentDistance_eq h]
  exact Real.sqrt_le_sqrt (h.2.2 s t hs.1 hs.2 ht.1 ht.2)

theorem sqDist_comm' (a b : Vec3 ℝ) : sqDist a b = sqDist b a := by
  simp only [sqDist, Vec3.sqNorm, Vec3.dot, Vec3.sub_x, Vec3.sub_y, Vec3.sub_z]; ring

theorem segmentDistance_comm (o1 d1 o2 d2 : Vec3 ℝ) : segmentDistance o1 d1 o2 d2 = segmentDistance o2 d2 o1 d1 := by
  unfold segmentDistance
  congr 1
  ext x
  constructor <;> rintro ⟨s, t, h1, h2, h3⟩ <;> exact ⟨t, s, h2, h1, by rw [h3, sqDist_comm']⟩

section
variable {o1 d1 o2 d2 : ℝ → Vec3 ℝ} {o1' d1' o2' d2' : Vec3 ℝ} {t : ℝ}

/-- The derivative of the squared distance of the points with fixed parameters. -/
theorem sqDist_deriv (h1 : HasVecDerivAt o1 o1' t) (h2 : HasVecDerivAt d1 d1' t) (h3 : HasVecDerivAt o2 o2' t)
    (h4 : HasVecDerivAt d2 d2' t) (q : ℝ × ℝ) :
    HasDerivAt (fun u => sqDist (segPoint (o1 u) (d1 u) q.1) (segPoint (o2 u) (d2 u) q.2))
      (2 * (segPoint (o1 t) (d1 t) q.1 - segPoint (o2 t) (d2 t) q.2).dot
        (segPoint o1' d1' q.1 - segPoint o2' d2' q.2)) t := by
  have h := (h1.add (h2.const_smul q.1)).sub (h3.add (h4.const_smul q.2))
  refine (h.dot h).congr_deriv ?_
  simp only [segPoint, Vec3.dot]; ring

/-- The derivatives of the coefficients. -/
def sqCoeff' (w d e w' d' e' : Vec3 ℝ) : Fin 6 → ℝ :=
  ![w'.dot w + w.dot w', d'.dot d + d.dot d', e'.dot e + e.dot e', w'.dot d + w.dot d', w'.dot e + w.dot e',
    d'.dot e + d.dot e']

theorem sqCoeff_deriv (h1 : HasVecDerivAt o1 o1' t) (h2 : HasVecDerivAt d1 d1' t) (h3 : HasVecDerivAt o2 o2' t)
    (h4 : HasVecDerivAt d2 d2' t) (k : Fin 6) :
    HasDerivAt (fun u => sqCoeff (o1 u - o2 u) (d1 u) (d2 u) k)
      (sqCoeff' (o1 t - o2 t) (d1 t) (d2 t) (o1' - o2') d1' d2' k) t := by
  have h := h1.sub h3
  fin_cases k
  · exact h.dot h
  · exact h2.dot h2
  · exact h4.dot h4
  · exact h.dot h2
  · exact h.dot h4
  · exact h2.dot h4

theorem sqDist_deriv_poly (h1 : HasVecDerivAt o1 o1' t) (h2 : HasVecDerivAt d1 d1' t) (h3 : HasVecDerivAt o2 o2' t)
    (h4 : HasVecDerivAt d2 d2' t) (q : ℝ × ℝ) :
    2 * (segPoint (o1 t) (d1 t) q.1 - segPoint (o2 t) (d2 t) q.2).dot (segPoint o1' d1' q.1 - segPoint o2' d2' q.2) =
      ∑ k, sqMono q k * sqCoeff' (o1 t - o2 t) (d1 t) (d2 t) (o1' - o2') d1' d2' k := by
  refine (sqDist_deriv h1 h2 h3 h4 q).unique ?_
  have hf : (fun u => sqDist (segPoint (o1 u) (d1 u) q.1) (segPoint (o2 u) (d2 u) q.2)) =
      fun u => ∑ k, sqMono q k * sqCoeff (o1 u - o2 u) (d1 u) (d2 u) k := funext fun u => sqDist_poly _ _ _ _ q
  rw [hf]
  exact HasDerivAt.fun_sum fun k _ => (sqCoeff_deriv h1 h2 h3 h4 k).const_mul _

/-- The least value of a polynomial in the parameters whose coefficients move: its derivative is that of the value at the
least point, when all least points agree about it. -/
theorem min_deriv {a : ℝ → Fin 6 → ℝ} {a' : Fin 6 → ℝ} (ha : ∀ k, HasDerivAt (fun u => a u k) (a' k) t) {m : ℝ → ℝ}
    (hm : ∀ u, (∃ q ∈ unitSquare, m u = ∑ k, sqMono q k * a u k) ∧
      ∀ q ∈ unitSquare, m u ≤ ∑ k, sqMono q k * a u k) {D : ℝ}
    (hD : ∀ q ∈ unitSquare, m t = ∑ k, sqMono q k * a t k → ∑ k, sqMono q k * a' k = D) :
    HasDerivAt m D t := by
  rw [hasDerivAt_iff_isLittleO, Asymptotics.isLittleO_iff]
  intro c hc
  -- uniform first order expansion
  have hexp : ∀ ε > 0, ∀ᶠ u in 𝓝 t, ∀ k, |a u k - a t k - (u - t) * a' k| ≤ ε * |u - t| := by
    intro ε hε
    rw [eventually_all]
    intro k
    have := (hasDerivAt_iff_isLittleO.1 (ha k))
    rw [Asymptotics.isLittleO_iff] at this
    simpa using this hε
  have hdiff : ∀ ε u, (∀ k, |a u k - a t k - (u - t) * a' k| ≤ ε * |u - t|) → ∀ q ∈ unitSquare,
      |∑ k, sqMono q k * a u k - ∑ k, sqMono q k * a t k - (u - t) * ∑ k, sqMono q k * a' k| ≤ 12 * (ε * |u - t|) := by
    intro ε u h q hq
    have e : ∑ k, sqMono q k * a u k - ∑ k, sqMono q k * a t k - (u - t) * ∑ k, sqMono q k * a' k =
        ∑ k, sqMono q k * (a u k - a t k - (u - t) * a' k) := by
      rw [Finset.mul_sum, ← Finset.sum_sub_distrib, ← Finset.sum_sub_distrib]
      exact Finset.sum_congr rfl fun k _ => by ring
    rw [e]
    refine (Finset.abs_sum_le_sum_abs _ _).trans ?_
    have : ∀ k ∈ (Finset.univ : Finset (Fin 6)), |sqMono q k * (a u k - a t k - (u - t) * a' k)| ≤ 2 * (ε * |u - t|) := by
      intro k _
      rw [abs_mul]
      exact mul_le_mul (sqMono_le hq k) (h k) (abs_nonneg _) (by norm_num)
    refine (Finset.sum_le_sum this).trans ?_
    simp; ring_nf; exact le_refl _
  -- points whose slope is far from `D` are not least, by a margin
  have hslope : ∀ ε > 0, ∃ δ > 0, ∀ q ∈ unitSquare, ε ≤ |∑ k, sqMono q k * a' k - D| → m t + δ ≤ ∑ k, sqMono q k * a t k := by
    intro ε hε
    have hcont : ∀ b : Fin 6 → ℝ, Continuous fun q : ℝ × ℝ => ∑ k, sqMono q k * b k := fun b =>
      continuous_finsetSum _ fun k _ => (sqMono_continuous k).mul continuous_const
    have hK : IsCompact (unitSquare ∩ {q | ε ≤ |∑ k, sqMono q k * a' k - D|}) :=
      unitSquare_compact.inter_right (isClosed_le continuous_const ((hcont a').sub continuous_const).abs)
    rcases (unitSquare ∩ {q | ε ≤ |∑ k, sqMono q k * a' k - D|}).eq_empty_or_nonempty with h0 | h0
    · refine ⟨1, one_pos, fun q hq h => ?_⟩
      have : q ∈ unitSquare ∩ {q | ε ≤ |∑ k, sqMono q k * a' k - D|} := ⟨hq, h⟩
      rw [h0] at this; exact this.elim
    · obtain ⟨q, hq, hmin⟩ := hK.exists_isMinOn h0 (hcont (a t)).continuousOn
      have hlt : m t < ∑ k, sqMono q k * a t k := by
        refine lt_of_le_of_ne ((hm t).2 q hq.1) fun h => ?_
        have h2 : ε ≤ |∑ k, sqMono q k * a' k - D| := hq.2
        rw [hD q hq.1 h, sub_self, abs_zero] at h2
        linarith
      refine ⟨_, sub_pos.2 hlt, fun q' hq' h => ?_⟩
      have := hmin (show q' ∈ _ from ⟨hq', h⟩)
      simp only [mem_setOf_eq] at this
      linarith
  obtain ⟨δ, hδ, hfar⟩ := hslope (c / 2) (by positivity)
  -- a bound for the slopes
  have hB : ∀ q ∈ unitSquare, |∑ k, sqMono q k * a' k| ≤ ∑ k, 2 * |a' k| := by
    intro q hq
    refine (Finset.abs_sum_le_sum_abs _ _).trans (Finset.sum_le_sum fun k _ => ?_)
    rw [abs_mul]
    exact mul_le_mul_of_nonneg_right (sqMono_le hq k) (abs_nonneg _)
  set B := ∑ k, 2 * |a' k| with hBdef
  have hBn : 0 ≤ B := Finset.sum_nonneg fun k _ => by positivity
  have hnear : ∀ᶠ u in 𝓝 t, |u - t| < δ / (4 * (B + 1) + c) := by
    have : Tendsto (fun u : ℝ => |u - t|) (𝓝 t) (𝓝 |t - t|) := ((continuous_id.sub continuous_const).abs).tendsto t
    rw [sub_self, abs_zero] at this
    exact this.eventually (gt_mem_nhds (by positivity))
  filter_upwards [hexp (c / 24) (by positivity), hnear] with u hu hsm
  have hd := hdiff _ u hu
  obtain ⟨q0, hq0, e0⟩ := (hm t).1
  obtain ⟨q1, hq1, e1⟩ := (hm u).1
  have a0 := hd q0 hq0
  have a1 := hd q1 hq1
  have up := (hm u).2 q0 hq0
  have lo := (hm t).2 q1 hq1
  rw [hD q0 hq0 e0, ← e0] at a0
  rw [← e1] at a1
  rw [abs_le] at a0 a1
  have hq1near : |∑ k, sqMono q1 k * a' k - D| < c / 2 := by
    by_contra hcon
    have hf := hfar q1 hq1 (not_lt.1 hcon)
    have b0 : |(u - t) * D| ≤ B * |u - t| := by
      rw [abs_mul, mul_comm]
      refine mul_le_mul_of_nonneg_right ?_ (abs_nonneg _)
      rw [← hD q0 hq0 e0]; exact hB q0 hq0
    have b1 : |(u - t) * ∑ k, sqMono q1 k * a' k| ≤ B * |u - t| := by
      rw [abs_mul, mul_comm]
      exact mul_le_mul_of_nonneg_right (hB q1 hq1) (abs_nonneg _)
    rw [abs_le] at b0 b1
    rw [lt_div_iff₀ (by positivity)] at hsm
    have : 0 ≤ |u - t| := abs_nonneg _
    nlinarith
  have hprod : |(u - t) * (∑ k, sqMono q1 k * a' k - D)| ≤ |u - t| * (c / 2) := by
    rw [abs_mul]; exact mul_le_mul_of_nonneg_left hq1near.le (abs_nonneg _)
  rw [abs_le] at hprod
  rw [Real.norm_eq_abs, Real.norm_eq_abs, smul_eq_mul, abs_le]
  constructor <;> nlinarith [abs_nonneg (u - t)]

/-- The distance of two moving segments is differentiable where it is not zero and all closest pairs of points move apart
at the same speed. -/
theorem segmentDistance_deriv (h1 : HasVecDerivAt o1 o1' t) (h2 : HasVecDerivAt d1 d1' t) (h3 : HasVecDerivAt o2 o2' t)
    (h4 : HasVecDerivAt d2 d2' t) {D : ℝ} (hpos : segmentDistance (o1 t) (d1 t) (o2 t) (d2 t) ≠ 0)
    (hD : ∀ s r, IsClosestPair (o1 t) (d1 t) (o2 t) (d2 t) s r →
      (segPoint (o1 t) (d1 t) s - segPoint (o2 t) (d2 t) r).dot (segPoint o1' d1' s - segPoint o2' d2' r) = D) :
    HasDerivAt (fun u => segmentDistance (o1 u) (d1 u) (o2 u) (d2 u))
      (D / segmentDistance (o1 t) (d1 t) (o2 t) (d2 t)) t := by
  set m : ℝ → ℝ := fun u => segmentDistance (o1 u) (d1 u) (o2 u) (d2 u) ^ 2 with hm
  have hsq : ∀ u s r, IsClosestPair (o1 u) (d1 u) (o2 u) (d2 u) s r →
      m u = sqDist (segPoint (o1 u) (d1 u) s) (segPoint (o2 u) (d2 u) r) := by
    intro u s r h
    simp only [hm, segmentDistance_eq h]
    exact Real.sq_sqrt (sqDist_nonneg' _ _)
  have key := min_deriv (t := t) (a := fun u => sqCoeff (o1 u - o2 u) (d1 u) (d2 u)) (m := m) (D := 2 * D)
    (fun k => sqCoeff_deriv h1 h2 h3 h4 k) (by
      intro u
      obtain ⟨s, r, h⟩ := closestPair_exists (o1 u) (d1 u) (o2 u) (d2 u)
      have h' := closestPair_iff.1 h
      refine ⟨⟨(s, r), h'.1, by rw [hsq u s r h]; exact sqDist_poly _ _ _ _ (s, r)⟩, fun q hq => ?_⟩
      rw [← sqDist_poly, hsq u s r h]
      exact h'.2 q hq) (by
      intro q hq hmq
      rw [← sqDist_deriv_poly h1 h2 h3 h4 q, hD q.1 q.2]
      rw [closestPair_iff]
      refine ⟨hq, fun q' hq' => ?_⟩
      obtain ⟨s, r, h⟩ := closestPair_exists (o1 t) (d1 t) (o2 t) (d2 t)
      rw [sqDist_poly (q := q), ← hmq, hsq t s r h]
      exact (closestPair_iff.1 h).2 q' hq')
  have hmt : m t ≠ 0 := pow_ne_zero 2 hpos
  have hs := key.sqrt hmt
  have hfun : (fun u => segmentDistance (o1 u) (d1 u) (o2 u) (d2 u)) = fun u => Real.sqrt (m u) := by
    funext u; exact (Real.sqrt_sq (segmentDistance_nonneg _ _ _ _)).symm
  rw [hfun]
  refine hs.congr_deriv ?_
  rw [show Real.sqrt (m t) = segmentDistance (o1 t) (d1 t) (o2 t) (d2 t) from Real.sqrt_sq (segmentDistance_nonneg _ _ _ _)]
  field_simp

/-- The squared distance of two moving segments changes at most linearly. -/
theorem segmentDistance_lipschitz (h1 : HasVecDerivAt o1 o1' t) (h2 : HasVecDerivAt d1 d1' t) (h3 : HasVecDerivAt o2 o2' t)
    (h4 : HasVecDerivAt d2 d2' t) : ∃ C, ∀ᶠ u in 𝓝 t, |segmentDistance (o1 u) (d1 u) (o2 u) (d2 u) ^ 2 -
      segmentDistance (o1 t) (d1 t) (o2 t) (d2 t) ^ 2| ≤ C * |u - t| := by
  have hk : ∀ k, ∃ C, ∀ᶠ u in 𝓝 t, |sqCoeff (o1 u - o2 u) (d1 u) (d2 u) k - sqCoeff (o1 t - o2 t) (d1 t) (d2 t) k| ≤
      C * |u - t| := by
    intro k
    obtain ⟨C, hC⟩ := (sqCoeff_deriv h1 h2 h3 h4 k).isBigO_sub.bound
    exact ⟨C, by simpa using hC⟩
  choose C hC using hk
  refine ⟨∑ k, 2 * C k, ?_⟩
  filter_upwards [eventually_all.2 hC] with u hu
  have hsq : ∀ u s r, IsClosestPair (o1 u) (d1 u) (o2 u) (d2 u) s r → segmentDistance (o1 u) (d1 u) (o2 u) (d2 u) ^ 2 =
      ∑ k, sqMono (s, r) k * sqCoeff (o1 u - o2 u) (d1 u) (d2 u) k := by
    intro u s r h
    rw [segmentDistance_eq h, Real.sq_sqrt (sqDist_nonneg' _ _)]
    exact sqDist_poly _ _ _ _ (s, r)
  have hdiff : ∀ q ∈ unitSquare, |∑ k, sqMono q k * sqCoeff (o1 u - o2 u) (d1 u) (d2 u) k -
      ∑ k, sqMono q k * sqCoeff (o1 t - o2 t) (d1 t) (d2 t) k| ≤ (∑ k, 2 * C k) * |u - t| := by
    intro q hq
    rw [← Finset.sum_sub_distrib, Finset.sum_mul]
    refine (Finset.abs_sum_le_sum_abs _ _).trans (Finset.sum_le_sum fun k _ => ?_)
    rw [← mul_sub, abs_mul, mul_assoc]
    exact mul_le_mul (sqMono_le hq k) (hu k) (abs_nonneg _) (by norm_num)
  obtain ⟨s, r, h⟩ := closestPair_exists (o1 u) (d1 u) (o2 u) (d2 u)
  obtain ⟨s', r', h'⟩ := closestPair_exists (o1 t) (d1 t) (o2 t) (d2 t)
  have k := closestPair_iff.1 h
  have k' := closestPair_iff.1 h'
  have b1 := hdiff _ k.1
  have b2 := hdiff _ k'.1
  have c1 := k.2 _ k'.1
  have c2 := k'.2 _ k.1
  have p1 := sqDist_poly (o1 u) (d1 u) (o2 u) (d2 u) (s', r')
  have p2 := sqDist_poly (o1 u) (d1 u) (o2 u) (d2 u) (s, r)
  have p3 := sqDist_poly (o1 t) (d1 t) (o2 t) (d2 t) (s', r')
  have p4 := sqDist_poly (o1 t) (d1 t) (o2 t) (d2 t) (s, r)
  simp only at p1 p2 p3 p4 c1 c2
  rw [hsq u s r h, hsq t s' r' h']
  rw [abs_le] at b1 b2 ⊢
  constructor <;> linarith

end
end Momentum
