import Verif.Props.TensorQuat

/-!
# C77: the hypotheses are met
-/

namespace Momentum

open TensorQuat

/-- A unit quaternion whose pitch is not ±90°: (0.1, 0.1, 0.7, 0.7). -/
example : IsUnit4 (![1 / 10, 1 / 10, 7 / 10, 7 / 10] : Fin 4 → ℝ) ∧
    |2 * ((![1 / 10, 1 / 10, 7 / 10, 7 / 10] : Fin 4 → ℝ) 3 * (![1 / 10, 1 / 10, 7 / 10, 7 / 10] : Fin 4 → ℝ) 1 -
      (![1 / 10, 1 / 10, 7 / 10, 7 / 10] : Fin 4 → ℝ) 2 * (![1 / 10, 1 / 10, 7 / 10, 7 / 10] : Fin 4 → ℝ) 0)| < 1 := by
  refine ⟨?_, ?_⟩
  · rw [IsUnit4, sum4]; simp; norm_num
  · simp

/-- A quarter turn about z. -/
def exQuarterTurn : Mat3 ℝ := ⟨0, -1, 0, 1, 0, 0, 0, 0, 1⟩

/-- Its eigenvalues -i, 1, i and eigenvectors. -/
noncomputable def exQuarterEig : Eig where
  values := ![-Complex.I, 1, Complex.I]
  vectors := ![⟨3 / 5 - 4 / 5 * Complex.I, 4 / 5 + 3 / 5 * Complex.I, 0⟩ |> fun v => ((Real.sqrt 2)⁻¹ : ℂ) • v, ⟨0, 0, -1⟩,
    ⟨1, -Complex.I, 0⟩ |> fun v => ((Real.sqrt 2)⁻¹ : ℂ) • v]

/-- The hypotheses of `C77_fromMatrix` hold for a quarter turn, even with an axis that points down. -/
example : IsRotation exQuarterTurn ∧ IsEig exQuarterTurn exQuarterEig := by
  have h2 : Complex.normSq ((Real.sqrt 2 : ℝ) : ℂ) = 2 := by
    rw [Complex.normSq_ofReal, Real.mul_self_sqrt (by norm_num)]
  refine ⟨⟨?_, ?_⟩, ⟨?_, ?_, ?_, ?_⟩⟩
  · simp [exQuarterTurn, Mat3.mul, Mat3.transpose, Mat3.one]
  · simp [exQuarterTurn, Mat3.det]
  · intro z v hv h
    have hx := congrArg Vec3.x h
    have hy := congrArg Vec3.y h
    have hz := congrArg Vec3.z h
    simp [exQuarterTurn, toComplex, Mat3.mulVec] at hx hy hz
    by_cases h3 : v.z = 0
    · have hsq : z * z = -1 := by
        by_cases h1 : v.x = 0
        · have h4 : v.y = 0 := by
            rw [h1, mul_zero] at hx
            exact neg_eq_zero.1 hx
          exact absurd (Vec3.ext h1 h4 h3) hv
        · apply mul_right_cancel₀ h1
          linear_combination -z * hx + hy
      have : (z - Complex.I) * (z + Complex.I) = 0 := by linear_combination hsq - Complex.I_mul_I
      rcases mul_eq_zero.1 this with h | h
      · exact ⟨2, by simp [exQuarterEig]; linear_combination -h⟩
      · exact ⟨0, by simp [exQuarterEig]; linear_combination -h⟩
    · have h1 : z = 1 := mul_right_cancel₀ h3 (by rw [one_mul]; exact hz.symm)
      exact ⟨1, by simp [exQuarterEig, h1]⟩
  · intro i
    fin_cases i <;> ext <;> simp [exQuarterEig, exQuarterTurn, toComplex, Mat3.mulVec] <;> ring_nf <;>
      simp only [Complex.I_sq] <;> ring
  · intro i
    fin_cases i
    · simp [exQuarterEig, Complex.normSq_mul, h2]
      simp [Complex.normSq_apply]
      norm_num
    · simp [exQuarterEig]
    · simp [exQuarterEig, Complex.normSq_mul, h2]
      norm_num
  · intro i
    fin_cases i <;> simp [exQuarterEig]

/-- Two quaternions, no rotation and a half turn about x, with weights 3 and 1 (and one with a negative weight). -/
def exBlendRows : Fin 3 → Fin 4 → ℝ := ![![0, 0, 0, 1], ![1, 0, 0, 0], ![0, 1, 0, 0]]
def exBlendWeights : Fin 3 → ℝ := ![3, 1, -2]

/-- The eigenvalues and eigenvectors. -/
noncomputable def exBlendEigh : Eigh where
  values := ![0, 0, 1 / 4, 3 / 4]
  vectors := ![![0, 1, 0, 0], ![0, 0, 1, 0], ![-1, 0, 0, 0], ![0, 0, 0, -1]]

theorem exBlend_weights : checkAndNormalizeWeights (some exBlendWeights) = some ![3 / 4, 1 / 4, 0] := by
  have hs : ∑ i, max (exBlendWeights i) 0 = 4 := by
    rw [Fin.sum_univ_three]
    simp [exBlendWeights]
    norm_num
  unfold checkAndNormalizeWeights
  simp only [Option.getD_some, hs]
  rw [if_neg (by norm_num)]
  congr 1
  funext i
  fin_cases i <;> simp [exBlendWeights]

/-- The hypotheses of `C77_blend` hold, and the result is the rotation with the larger weight. -/
example : (∀ v, checkAndNormalizeWeights (some exBlendWeights) = some v →
      IsEigh (outerSum exBlendRows v) ((fun _ => exBlendEigh) (outerSum exBlendRows v))) ∧
    blendQuaternions (fun _ => exBlendEigh) exBlendRows (some exBlendWeights) = some ![0, 0, 0, -1] := by
  refine ⟨?_, ?_⟩
  · intro v hv
    rw [exBlend_weights, Option.some.injEq] at hv
    subst hv
    refine ⟨?_, ?_, ?_⟩
    · intro a b hab
      fin_cases a <;> fin_cases b <;> first | (exact absurd hab (by decide)) | (simp [exBlendEigh]; done) | (simp [exBlendEigh]; norm_num)
    · intro i j
      rw [sum4]
      simp only [outerSum, Fin.sum_univ_three]
      fin_cases i <;> fin_cases j <;> simp [exBlendEigh, exBlendRows]
    · intro i j
      rw [dot4, sum4]
      fin_cases i <;> fin_cases j <;> simp [exBlendEigh]
  · unfold blendQuaternions
    rw [exBlend_weights]
    rfl

end Momentum
