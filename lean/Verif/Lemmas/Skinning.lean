import Verif.Spec.Skinning
import Verif.Lemmas.Transform
import Verif.Lemmas.BvhBuild
import Verif.Lemmas.SkeletonState

/-! # Lemmas for skinning -/

namespace Momentum

section affine
variable {K : Type} [CommRing K]

theorem Affine.mul_apply (a b : Affine K) (p : Vec3 K) : (a * b).apply p = a.apply (b.apply p) := by
  show (Affine.mul a b).apply p = _
  ext <;> simp [Affine.mul, Affine.apply, Mat3.mul, Mat3.mulVec] <;> ring

theorem Mat3.mulVec_add (a : Mat3 K) (u v : Vec3 K) : a.mulVec (u + v) = a.mulVec u + a.mulVec v := by
  ext <;> simp [Mat3.mulVec] <;> ring

theorem Mat3.mulVec_smul (a : Mat3 K) (c : K) (v : Vec3 K) : a.mulVec (c • v) = c • a.mulVec v := by
  ext <;> simp [Mat3.mulVec] <;> ring

theorem Mat3.one_mulVec (v : Vec3 K) : (Mat3.one : Mat3 K).mulVec v = v := by
  ext <;> simp [Mat3.mulVec, Mat3.one]

theorem Affine.one_apply (p : Vec3 K) : (Affine.one : Affine K).apply p = p := by
  simp [Affine.apply, Affine.one, Mat3.one_mulVec]

theorem Affine.addScaled_apply (a t : Affine K) (w : K) (p : Vec3 K) :
    (a.addScaled t w).apply p = a.apply p + w • (t.translation + t.linear.mulVec p) := by
  ext <;> simp [Affine.apply, Affine.addScaled, Mat3.mulVec] <;> ring

theorem Affine.zero_apply (p : Vec3 K) : (Affine.zero : Affine K).apply p = 0 := by
  ext <;> simp [Affine.apply, Affine.zero, Mat3.mulVec]

end affine

section inverse
variable {K : Type} [Field K]

theorem Mat3.inverse_mulVec {a : Mat3 K} (h : a.det ≠ 0) (v : Vec3 K) :
    a.inverse.mulVec (a.mulVec v) = v := by
  ext <;> simp only [Mat3.mulVec, Mat3.inverse] <;> field_simp <;> simp only [Mat3.det] <;> ring

theorem Mat3.mulVec_inverse {a : Mat3 K} (h : a.det ≠ 0) (v : Vec3 K) :
    a.mulVec (a.inverse.mulVec v) = v := by
  ext <;> simp only [Mat3.mulVec, Mat3.inverse] <;> field_simp <;> simp only [Mat3.det] <;> ring

theorem Affine.inverse_apply {a : Affine K} (h : a.linear.det ≠ 0) (p : Vec3 K) :
    a.inverse.apply (a.apply p) = p := by
  simp only [Affine.apply, Affine.inverse, Mat3.mulVec_add, Mat3.inverse_mulVec h]
  abel

theorem Affine.apply_inverse {a : Affine K} (h : a.linear.det ≠ 0) (p : Vec3 K) :
    a.apply (a.inverse.apply p) = p := by
  simp only [Affine.apply, Affine.inverse]
  rw [Mat3.mulVec_add, Mat3.mulVec_inverse h]
  have : a.linear.mulVec (-(a.linear.inverse.mulVec a.translation)) = -a.translation := by
    have := Mat3.mulVec_smul a.linear (-1) (a.linear.inverse.mulVec a.translation)
    rw [Mat3.mulVec_inverse h] at this
    simpa using this
  rw [this]; abel

end inverse

section skin
variable {K : Type} [CommRing K] [DecidableEq K]

theorem skinTransforms_get {world ibp : List (Affine K)} {j : Nat} {w b : Affine K}
    (hw : world[j]? = some w) (hb : ibp[j]? = some b) : (skinTransforms world ibp)[j]? = some (w * b) := by
  simp [skinTransforms, List.getElem?_zipWith, hw, hb]

theorem movedBy_eq {world ibp : List (Affine K)} {p : Vec3 K} {j : Nat} {t : Affine K}
    (h : (skinTransforms world ibp)[j]? = some t) :
    movedBy world ibp p j = t.translation + t.linear.mulVec p := by
  simp only [skinTransforms, List.getElem?_zipWith] at h
  unfold movedBy
  cases hw : world[j]? with
  | none => rw [hw] at h; simp at h
  | some w =>
    cases hb : ibp[j]? with
    | none => rw [hw, hb] at h; simp at h
    | some b =>
      rw [hw, hb] at h
      simp only [Option.some.injEq] at h
      subst h
      show w.apply (b.apply p) = _
      rw [← Affine.mul_apply, Affine.apply, add_comm]

theorem sum_zero_weights {row : List (Nat × K)} (h : ∀ b ∈ row, b.2 = 0) (f : Nat → Vec3 K) :
    (row.map fun jw => jw.2 • f jw.1).sum = 0 := by
  induction row with
  | nil => rfl
  | cons a row ih =>
    rw [List.map_cons, List.sum_cons, ih (fun b hb => h b (by simp [hb])), h a (by simp)]
    simp

theorem skinPoint_ok {world ibp : List (Affine K)} (p : Vec3 K) :
    ∀ (row : List (Nat × K)) (acc : Vec3 K), WeightsFirst row →
      (∀ jw ∈ row, jw.1 < (skinTransforms world ibp).length) →
      skinPoint (skinTransforms world ibp) p acc row = .ok (acc + blended world ibp row p) := by
  intro row
  induction row with
  | nil => intro acc _ _; simp [skinPoint, blended]
  | cons a row ih =>
    intro acc hf hi
    obtain ⟨j, w⟩ := a
    have hj := hi (j, w) (by simp)
    unfold skinPoint
    rw [List.getElem?_eq_getElem hj]
    have hm := movedBy_eq (p := p) (List.getElem?_eq_getElem hj)
    simp only
    unfold WeightsFirst at hf
    rw [List.pairwise_cons] at hf
    split_ifs with hw
    · unfold blended
      rw [sum_zero_weights, add_zero]
      intro b hb
      rcases List.mem_cons.1 hb with rfl | hb
      · exact hw
      · exact hf.1 b hb hw
    · rw [ih _ hf.2 (fun b hb => hi b (by simp [hb]))]
      unfold blended
      rw [List.map_cons, List.sum_cons, hm, add_assoc]

theorem skinPointUnchecked_ok {world ibp : List (Affine K)} (p : Vec3 K) :
    ∀ (row : List (Nat × K)) (acc : Vec3 K), WeightsFirst row →
      (∀ jw ∈ row, jw.1 < (skinTransforms world ibp).length) →
      skinPointUnchecked (skinTransforms world ibp) p acc row = .ok (acc + blended world ibp row p) := by
  intro row
  induction row with
  | nil => intro acc _ _; simp [skinPointUnchecked, blended]
  | cons a row ih =>
    intro acc hf hi
    obtain ⟨j, w⟩ := a
    have hj := hi (j, w) (by simp)
    unfold skinPointUnchecked
    rw [List.getElem?_eq_getElem hj]
    have hm := movedBy_eq (p := p) (List.getElem?_eq_getElem hj)
    simp only
    unfold WeightsFirst at hf
    rw [List.pairwise_cons] at hf
    split_ifs with hw
    · unfold blended
      rw [sum_zero_weights, add_zero]
      intro b hb
      rcases List.mem_cons.1 hb with rfl | hb
      · exact hw
      · exact hf.1 b hb hw
    · rw [ih _ hf.2 (fun b hb => hi b (by simp [hb]))]
      unfold blended
      rw [List.map_cons, List.sum_cons, hm, add_assoc, add_comm (Mat3.mulVec _ _)]

theorem blendMatrix_ok {ts : List (Affine K)} : ∀ (row : List (Nat × K)) (acc : Affine K),
      (∀ jw ∈ row, jw.1 < ts.length) → ∃ m, blendMatrix ts acc row = .ok m ∧
        ∀ p v, skinPoint ts p (acc.apply p) row = .ok v → m.apply p = v := by
  intro row
  induction row with
  | nil => intro acc _; exact ⟨acc, rfl, fun p v h => by simpa [skinPoint] using h⟩
  | cons a row ih =>
    intro acc hi
    obtain ⟨j, w⟩ := a
    have hj := hi (j, w) (by simp)
    unfold blendMatrix skinPoint
    rw [List.getElem?_eq_getElem hj]
    simp only
    split_ifs with hw
    · exact ⟨acc, rfl, fun p v h => by simpa using h⟩
    · obtain ⟨m, h1, h2⟩ := ih (acc.addScaled ts[j] w) (fun b hb => hi b (by simp [hb]))
      refine ⟨m, h1, fun p v h => h2 p v ?_⟩
      rw [Affine.addScaled_apply]
      exact h

theorem blendMatrixUnchecked_eq {world ibp : List (Affine K)} : ∀ (row : List (Nat × K)) (acc : Affine K),
      (∀ jw ∈ row, jw.1 < (skinTransforms world ibp).length) →
      blendMatrixUnchecked world ibp acc row = blendMatrix (skinTransforms world ibp) acc row := by
  intro row
  induction row with
  | nil => intro acc _; rfl
  | cons a row ih =>
    intro acc hi
    obtain ⟨j, w⟩ := a
    have hj := hi (j, w) (by simp)
    have hj' : j < world.length ∧ j < ibp.length := by
      simpa [skinTransforms] using hj
    unfold blendMatrix blendMatrixUnchecked
    rw [skinTransforms_get (List.getElem?_eq_getElem hj'.1) (List.getElem?_eq_getElem hj'.2),
      List.getElem?_eq_getElem hj'.1, List.getElem?_eq_getElem hj'.2]
    simp only
    rw [ih _ (fun b hb => hi b (by simp [hb]))]

end skin

section fold
variable {V : Type}

/-- A fold that writes `g i` at place `i` for the indices in `order`. -/
theorem setFold_ok {f : List V → Nat → Outcome (List V)} {g : Nat → V} (n : Nat)
    (hf : ∀ res i, i < n → f res i = .ok (res.set i (g i))) :
    ∀ (order : List Nat), (∀ i ∈ order, i < n) → ∀ res : List V, res.length = n →
      ∃ r, order.foldl (fun (acc : Outcome (List V)) i => acc.bind fun res => f res i) (.ok res) = .ok r ∧
        r.length = n ∧ ∀ i : Nat, i < n → r[i]? = if i ∈ order then some (g i) else res[i]? := by
  intro order
  induction order with
  | nil => intro _ res hr; exact ⟨res, rfl, hr, fun i _ => by simp⟩
  | cons k order ih =>
    intro ho res hr
    rw [List.foldl_cons, Outcome.bind_ok, hf res k (ho k (by simp))]
    obtain ⟨r, h1, h2, h3⟩ := ih (fun i hi => ho i (by simp [hi])) (res.set k (g k)) (by simpa using hr)
    refine ⟨r, h1, h2, fun i hi => ?_⟩
    rw [h3 i hi]
    by_cases hik : i = k
    · subst hik
      simp [hr, hi]
    · simp only [List.mem_cons, hik, false_or]
      rw [List.getElem?_set_ne (fun h => hik h.symm)]

theorem setFold_perm {f : List V → Nat → Outcome (List V)} {g : Nat → V} {n : Nat}
    (hf : ∀ res i, i < n → f res i = .ok (res.set i (g i))) {order : List Nat}
    (ho : order.Perm (List.range n)) (res : List V) (hr : res.length = n) :
    order.foldl (fun (acc : Outcome (List V)) i => acc.bind fun res => f res i) (.ok res) =
      .ok ((List.range n).map g) := by
  obtain ⟨r, h1, h2, h3⟩ := setFold_ok n hf order (fun i hi => List.mem_range.1 (ho.mem_iff.1 hi)) res hr
  rw [h1]
  congr 1
  apply List.ext_getElem?
  intro i
  by_cases hi : i < n
  · rw [h3 i hi, if_pos (ho.mem_iff.2 (List.mem_range.2 hi))]
    simp [hi]
  · rw [List.getElem?_eq_none (by omega), List.getElem?_eq_none (by simp; omega)]

/-- If the outcome of some step is `throws`, and no step has undefined behaviour, the fold throws. -/
theorem setFold_throws {f : List V → Nat → Outcome (List V)} {h : Nat → Outcome V}
    {order : List Nat} (hf : ∀ res, ∀ i ∈ order, f res i = (h i).bind fun v => .ok (res.set i v))
    (hu : ∀ i ∈ order, h i ≠ .ub) (ht : ∃ i ∈ order, h i = .throws) (res : List V) :
    order.foldl (fun (acc : Outcome (List V)) i => acc.bind fun res => f res i) (.ok res) = .throws := by
  have hthrow : ∀ l : List Nat, l.foldl (fun (acc : Outcome (List V)) i => acc.bind fun res => f res i)
      .throws = .throws := by
    intro l; induction l with
    | nil => rfl
    | cons a l ih => rw [List.foldl_cons, Outcome.bind_throws, ih]
  induction order generalizing res with
  | nil => obtain ⟨i, hi, -⟩ := ht; simp at hi
  | cons k order ih =>
    rw [List.foldl_cons, Outcome.bind_ok, hf res k (by simp)]
    cases hk : h k with
    | ub => exact absurd hk (hu k (by simp))
    | throws => rw [Outcome.bind_throws]; exact hthrow order
    | ok v =>
      rw [Outcome.bind_ok]
      apply ih (fun res i hi => hf res i (by simp [hi])) (fun i hi => hu i (by simp [hi]))
      obtain ⟨i, hi, hit⟩ := ht
      rcases List.mem_cons.1 hi with rfl | hi
      · rw [hk] at hit; cases hit
      · exact ⟨i, hi, hit⟩

end fold

end Momentum
