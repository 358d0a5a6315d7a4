import Verif.Spec.PoseShape
import Verif.Lemmas.Transform
import Verif.Model.SkeletonState
import Mathlib.Algebra.BigOperators.Ring.Finset
import Mathlib.Tactic.FieldSimp

/-!
# C96: shapes that depend on the pose
-/

namespace Momentum.PoseShape
variable {K : Type} [Field K] [DecidableEq K]

theorem dot_four (row : List K) (a b c d : K) (l : List K) : dot row ([a, b, c, d] ++ l) =
    row.getD 0 0 * a + row.getD 1 0 * b + row.getD 2 0 * c + row.getD 3 0 * d + dot (row.drop 4) l := by
  match row with
  | [] => simp [dot]
  | [_] => simp [dot]
  | [_, _] => simp [dot]
  | [_, _, _] => simp [dot, add_assoc]
  | _ :: _ :: _ :: _ :: _ => simp [dot, add_assoc]

theorem coefficients_ok {base : Quat K} {rotations : List (Quat K)} : ∀ (js : List Nat) (c : List K), coefficients base rotations js = .ok c →
    c.length = 4 * js.length ∧ (∀ j ∈ js, j < rotations.length) ∧ ∀ row : List K, dot row c = ∑ i ∈ Finset.range js.length,
      (row.getD (4 * i) 0 * (base * rotations.getD (js.getD i 0) ⟨0, 0, 0, 0⟩).x + row.getD (4 * i + 1) 0 * (base * rotations.getD (js.getD i 0) ⟨0, 0, 0, 0⟩).y +
        row.getD (4 * i + 2) 0 * (base * rotations.getD (js.getD i 0) ⟨0, 0, 0, 0⟩).z + row.getD (4 * i + 3) 0 * (base * rotations.getD (js.getD i 0) ⟨0, 0, 0, 0⟩).w)
  | [], c, h => by
    simp only [coefficients, Outcome.ok.injEq] at h
    subst h
    simp [dot]
  | j :: js, c, h => by
    rw [coefficients] at h
    cases hr : rotations[j]? with
    | none => rw [hr] at h; simp at h
    | some r =>
      rw [hr] at h
      dsimp only at h
      cases hc : coefficients base rotations js with
      | throws => rw [hc] at h; simp [Outcome.bind] at h
      | ub => rw [hc] at h; simp [Outcome.bind] at h
      | ok c' =>
        rw [hc] at h
        simp only [Outcome.bind, Outcome.ok.injEq] at h
        subst h
        obtain ⟨i1, i2, i3⟩ := coefficients_ok js c' hc
        have hj := (List.getElem?_eq_some_iff.mp hr).1
        refine ⟨by simp [i1]; omega, ?_, ?_⟩
        · intro x hx
          rcases List.mem_cons.mp hx with rfl | hx
          · exact hj
          · exact i2 x hx
        · intro row
          rw [dot_four, i3, List.length_cons, Finset.sum_range_succ', add_comm]
          have h0 : rotations.getD ((j :: js).getD 0 0) ⟨0, 0, 0, 0⟩ = r := by simp [List.getD, hr]
          rw [h0]
          have hd : ∀ k, (row.drop 4).getD k 0 = row.getD (k + 4) 0 := by
            intro k
            simp [List.getD, List.getElem?_drop, Nat.add_comm]
          congr 1
          refine Finset.sum_congr rfl fun i _ => ?_
          rw [hd, hd, hd, hd]
          have e0 : 4 * i + 4 = 4 * (i + 1) := by omega
          have e1 : 4 * i + 1 + 4 = 4 * (i + 1) + 1 := by omega
          have e2 : 4 * i + 2 + 4 = 4 * (i + 1) + 2 := by omega
          have e3 : 4 * i + 3 + 4 = 4 * (i + 1) + 3 := by omega
          rw [e0, e1, e2, e3, List.getD_cons_succ]

theorem coefficients_some {base : Quat K} {rotations : List (Quat K)} : ∀ (js : List Nat), (∀ j ∈ js, j < rotations.length) →
    ∃ c, coefficients base rotations js = .ok c
  | [], _ => ⟨[], rfl⟩
  | j :: js, h => by
    obtain ⟨c, hc⟩ := coefficients_some (base := base) (rotations := rotations) js fun x hx => h x (List.mem_cons_of_mem _ hx)
    have hj := List.getElem?_eq_getElem (h j (by simp))
    rw [coefficients, hj]
    dsimp only
    rw [hc]
    exact ⟨_, rfl⟩

/-- **C96** (value). For a shape that fits the skeleton every coordinate of every vertex is the linear function of the relative rotations that the shape
defines. -/
theorem C96_value {s : PoseShape K} {rotations : List (Quat K)} (hf : s.Fits rotations.length) :
    s.compute rotations = .ok (List.zipWith (s.coordinate rotations) s.baseShape s.shapeVectors) := by
  unfold compute
  rw [if_neg (not_not.mpr hf.rows)]
  have hb := List.getElem?_eq_getElem hf.base
  obtain ⟨c, hc⟩ := coefficients_some (base := s.baseRot * (rotations[s.baseJoint]'hf.base).inverse) s.jointMap hf.map
  rw [hb]
  dsimp only
  rw [hc]
  obtain ⟨h1, _, h3⟩ := coefficients_ok _ _ hc
  have hn : ¬ (c.length ≠ s.cols ∨ s.baseShape.length % 3 ≠ 0 ∨ s.baseShape = []) := by
    rw [h1, hf.cols]
    simp [hf.vertices.1, hf.vertices.2]
  simp only [Outcome.bind]
  rw [if_neg hn, List.zipWith_map_right]
  congr 2
  funext v row
  rw [h3, coordinate]
  have hg : rotations.getD s.baseJoint ⟨0, 0, 0, 0⟩ = rotations[s.baseJoint]'hf.base := by simp [List.getD, hb]
  simp only [relative, hg]

/-- **C96** (no other shape). A shape that does not fit the skeleton is never computed. -/
theorem C96_fits {s : PoseShape K} {rotations : List (Quat K)} {out : List K} (h : s.compute rotations = .ok out) : s.Fits rotations.length := by
  unfold compute at h
  split at h
  · simp at h
  rename_i hrows
  cases hb : rotations[s.baseJoint]? with
  | none => rw [hb] at h; simp at h
  | some b =>
    rw [hb] at h
    dsimp only at h
    cases hc : coefficients (s.baseRot * b.inverse) rotations s.jointMap with
    | throws => rw [hc] at h; simp [Outcome.bind] at h
    | ub => rw [hc] at h; simp [Outcome.bind] at h
    | ok c =>
      rw [hc] at h
      simp only [Outcome.bind] at h
      split at h
      · simp at h
      rename_i hn
      simp only [ne_eq, not_or, not_not] at hn
      obtain ⟨h1, h2, _⟩ := coefficients_ok _ _ hc
      exact ⟨(List.getElem?_eq_some_iff.mp hb).1, h2, not_not.mp hrows, by rw [← hn.1, h1], hn.2.2, hn.2.1⟩

theorem inverse_mul_mul (g b q : Quat K) (hg : g.normSq ≠ 0) : (g * b).inverse * (g * q) = b.inverse * q := by
  by_cases hb : b.normSq = 0
  · have h1 : (g * b).normSq = 0 := by rw [Quat.normSq_mul, hb, mul_zero]
    rw [Quat.inverse, if_pos h1, Quat.inverse, if_pos hb]
    ext <;> simp
  · have h1 : (g * b).normSq ≠ 0 := by rw [Quat.normSq_mul]; exact mul_ne_zero hg hb
    rw [Quat.inverse, if_neg h1, Quat.inverse, if_neg hb, Quat.normSq_mul]
    ext <;> simp only [Quat.mul_w, Quat.mul_x, Quat.mul_y, Quat.mul_z] <;> field_simp <;> simp only [Quat.normSq] <;> ring

theorem relative_turned (s : PoseShape K) (rotations : List (Quat K)) (g : Quat K) (hg : g.normSq ≠ 0) (hf : s.baseJoint < rotations.length) (i : Nat)
    (hi : s.jointMap.getD i 0 < rotations.length) : s.relative (rotations.map (g * ·)) i = s.relative rotations i := by
  unfold relative
  simp only [List.getD, List.getElem?_map, List.getElem?_eq_getElem hf, Option.map_some, Option.getD_some]
  have hi' : (s.jointMap[i]?.getD 0) < rotations.length := hi
  simp only [List.getElem?_eq_getElem hi', Option.map_some, Option.getD_some]
  rw [Quat.mul_assoc', Quat.mul_assoc', inverse_mul_mul _ _ _ hg]

/-- **C96** (turned). The shape does not depend on how the character as a whole is turned. -/
theorem C96_turned (s : PoseShape K) (rotations : List (Quat K)) (g : Quat K) (hg : g.normSq ≠ 0) (hf : s.Fits rotations.length) :
    s.compute (rotations.map (g * ·)) = s.compute rotations := by
  rw [C96_value hf, C96_value (by simpa using hf)]
  congr 2
  funext v row
  unfold coordinate
  congr 1
  refine Finset.sum_congr rfl fun i hi => ?_
  have hi' : i < s.jointMap.length := Finset.mem_range.mp hi
  rw [relative_turned s rotations g hg hf.base i ?_]
  have : s.jointMap.getD i 0 = s.jointMap[i] := by simp [List.getD, List.getElem?_eq_getElem hi']
  rw [this]
  exact hf.map _ (List.getElem_mem hi')

/-- **C96** (base). A shape without weights for the rotations is the base shape. -/
theorem C96_base (s : PoseShape K) (rotations : List (Quat K)) (hf : s.Fits rotations.length) (h0 : ∀ row ∈ s.shapeVectors, ∀ x ∈ row, x = 0) :
    s.compute rotations = .ok s.baseShape := by
  rw [C96_value hf]
  have hz : ∀ row ∈ s.shapeVectors, ∀ v, s.coordinate rotations v row = v := by
    intro row hrow v
    have hg : ∀ k, row.getD k 0 = 0 := by
      intro k
      cases hk : row[k]? with
      | none => simp [List.getD, hk]
      | some x => simp [List.getD, hk, h0 row hrow x (List.mem_of_getElem? hk)]
    simp [coordinate, hg, -List.getD_eq_getElem?_getD]
  congr 1
  have key : ∀ (l : List K) (m : List (List K)), l.length = m.length → (∀ row ∈ m, ∀ v, s.coordinate rotations v row = v) →
      List.zipWith (s.coordinate rotations) l m = l := by
    intro l
    induction l with
    | nil => intro m _ _; simp
    | cons x l ih =>
      intro m hm hz
      cases m with
      | nil => simp at hm
      | cons row m =>
        rw [List.zipWith_cons_cons, hz row (by simp) x, ih m (by simpa using hm) fun r hr => hz r (List.mem_cons_of_mem _ hr)]
  exact key _ _ hf.rows hz

/-- The other quaternion of the same rotation. -/
def other (q : Quat K) : Quat K := ⟨-q.w, -q.x, -q.y, -q.z⟩

/-- **C96** (negated in part): the shape is not a function of the pose: the two quaternions of a rotation turn every vector in the same way, and a full turn
leads from one to the other, but with the other one for the joints of the shape, the base joint kept, the vertices are moved away from the base shape in the
opposite direction. -/
theorem C96_sign_counterexample (s : PoseShape K) (rotations : List (Quat K)) (hf : s.Fits rotations.length) (hb : s.baseJoint ∉ s.jointMap) :
    (∀ (q : Quat K) (v : Vec3 K), (other q).rotate v = q.rotate v) ∧
    s.compute (rotations.mapIdx fun j q => if j = s.baseJoint then q else other q) =
      .ok (List.zipWith (fun v row => 2 * v - s.coordinate rotations v row) s.baseShape s.shapeVectors) := by
  refine ⟨?_, ?_⟩
  · intro q v
    ext <;> simp [other, Quat.rotate, Quat.vec] <;> ring
  · rw [C96_value (by simpa using hf)]
    congr 2
    funext v row
    have hrel : ∀ i, i < s.jointMap.length → s.relative (rotations.mapIdx fun j q => if j = s.baseJoint then q else other q) i =
        other (s.relative rotations i) := by
      intro i hi
      have hm : s.jointMap[i] ∈ s.jointMap := List.getElem_mem hi
      have h1 : s.jointMap[i] ≠ s.baseJoint := fun h => hb (h ▸ hm)
      unfold relative
      simp only [List.getD, List.getElem?_mapIdx, List.getElem?_eq_getElem hf.base, List.getElem?_eq_getElem hi, Option.map_some, Option.getD_some,
        List.getElem?_eq_getElem (hf.map _ hm), if_neg h1, if_true]
      ext <;> simp [other] <;> ring
    unfold coordinate
    have : ∀ a b c : K, b = -c → a + b = 2 * a - (a + c) := by
      rintro a b c rfl
      ring
    refine this _ _ _ ?_
    rw [← Finset.sum_neg_distrib]
    refine Finset.sum_congr rfl fun i hi => ?_
    rw [hrel i (Finset.mem_range.mp hi)]
    simp only [other]
    ring

/-- A full turn of a joint leads to the other quaternion. -/
theorem C96_full_turn (a : ℝ) (axis : Vec3 ℝ) : Quat.angleAxis (a + 2 * Real.pi) axis = other (Quat.angleAxis a axis) := by
  have h : (a + 2 * Real.pi) / 2 = a / 2 + Real.pi := by ring
  ext <;> simp [Quat.angleAxis, other, h, Real.cos_add_pi, Real.sin_add_pi]

/-- **C96** (negated in part): a shape without vertices is not computed without access outside of a list. -/
theorem C96_empty_counterexample (s : PoseShape K) (rotations : List (Quat K)) (h : s.baseShape = []) (hr : s.shapeVectors = []) :
    s.compute rotations = .ub := by
  unfold compute
  rw [if_neg (by simp [h, hr])]
  split
  · rfl
  · cases hc : coefficients (s.baseRot * _) rotations s.jointMap with
    | throws => exact absurd hc (no_throws _)
    | ub => rfl
    | ok c => simp [Outcome.bind, h]
where
  no_throws {base : Quat K} : ∀ js, coefficients base rotations js ≠ .throws
  | [] => by simp [coefficients]
  | j :: js => by
    rw [coefficients]
    split
    · simp
    · have := no_throws (base := base) js
      cases hc : coefficients base rotations js with
      | throws => exact absurd hc this
      | ub => simp [Outcome.bind]
      | ok c => simp [Outcome.bind]

/-- A shape of one vertex and one joint. -/
def exampleShape : PoseShape ℚ := ⟨0, ⟨1, 0, 0, 0⟩, [1], [1, 2, 3], [[1, 0, 0, 1], [0, 2, 0, 0], [0, 0, 1, -1]], 4⟩

example : exampleShape.Fits 2 := ⟨by decide, by decide, rfl, rfl, by decide +kernel, rfl⟩

example : exampleShape.compute [⟨1, 0, 0, 0⟩, ⟨0, 1, 0, 0⟩] = .ok [2, 2, 3] ∧ exampleShape.compute [⟨1, 0, 0, 0⟩, ⟨0, -1, 0, 0⟩] = .ok [0, 2, 3] ∧
    exampleShape.compute [⟨0, 0, 1, 0⟩, ⟨0, 0, 1, 0⟩ * ⟨0, 1, 0, 0⟩] = .ok [2, 2, 3] := by decide +kernel

end Momentum.PoseShape
