import Verif.Model.Mesh
import Verif.Lemmas.Rotation
import Mathlib.Algebra.BigOperators.Group.List.Basic
import Mathlib.Tactic.Positivity
import Mathlib.Tactic.Linarith

/-!
# C31
-/

namespace Momentum

/-! ### Specification -/

/-- All three indices of the face are vertices. -/
def ValidFace (n : Nat) (f : Int × Int × Int) : Prop :=
  (0 ≤ f.1 ∧ f.1 < n) ∧ (0 ≤ f.2.1 ∧ f.2.1 < n) ∧ (0 ≤ f.2.2 ∧ f.2.2 < n)

instance (n : Nat) (f : Int × Int × Int) : Decidable (ValidFace n f) := by unfold ValidFace; infer_instance

/-- How often vertex `i` occurs in the face. -/
def timesIn (i : Nat) (f : Int × Int × Int) : Nat :=
  (if f.1 = i then 1 else 0) + (if f.2.1 = i then 1 else 0) + (if f.2.2 = i then 1 else 0)

/-- The vertex with the given number. -/
def vertexAt (vs : List (Vec3 ℝ)) (k : Int) : Vec3 ℝ := vs.getD k.toNat 0

/-- `(b - a) × (c - a)` for a face `(a, b, c)`. -/
def faceNormal (vs : List (Vec3 ℝ)) (f : Int × Int × Int) : Vec3 ℝ :=
  (vertexAt vs f.2.1 - vertexAt vs f.1).cross (vertexAt vs f.2.2 - vertexAt vs f.1)

/-- The sum of the normals of the valid faces around vertex `i`. -/
noncomputable def vertexSum (vs : List (Vec3 ℝ)) (faces : List (Int × Int × Int)) (i : Nat) : Vec3 ℝ :=
  (faces.map fun f => if ValidFace vs.length f then timesIn i f • faceNormal vs f else 0).sum

/-- `w` has the direction of `v` and length one, or both are zero. -/
def IsDirection (w v : Vec3 ℝ) : Prop := (v = 0 ∧ w = 0) ∨ (w.sqNorm = 1 ∧ ∃ l : ℝ, 0 < l ∧ v = l • w)

/-! ### Proofs -/

theorem faceInRange_iff (n : Nat) (f : Int × Int × Int) : faceInRange n f = true ↔ ValidFace n f := by
  unfold faceInRange ValidFace
  simp

theorem addNormal_spec (normal : Vec3 ℝ) (idxs : List Nat) (ns : List (Vec3 ℝ)) (h : ∀ i ∈ idxs, i < ns.length) :
    ∃ ns', addNormal normal ns idxs = some ns' ∧ ns'.length = ns.length ∧
      ∀ j, ns'[j]? = ns[j]?.map fun x => x + (idxs.map fun i => if i = j then normal else 0).sum := by
  induction idxs generalizing ns with
  | nil => exact ⟨ns, rfl, rfl, fun j => by simp⟩
  | cons i idxs ih =>
    have hi := h i (by simp)
    obtain ⟨ns', e, hl, hj⟩ := ih (ns.set i (ns[i] + normal)) fun k hk => by
      rw [List.length_set]; exact h k (by simp [hk])
    refine ⟨ns', ?_, by rw [hl, List.length_set], fun j => ?_⟩
    · unfold addNormal at e ⊢
      rw [List.foldlM_cons, List.getElem?_eq_getElem hi]
      exact e
    · rw [hj, List.map_cons, List.sum_cons, List.getElem?_set]
      by_cases hij : i = j
      · subst hij
        rw [if_pos rfl, if_pos hi, if_pos rfl, List.getElem?_eq_getElem hi, Option.map_some, Option.map_some, add_assoc]
      · rw [if_neg hij, if_neg hij, zero_add]

theorem addFace_spec (vs ns : List (Vec3 ℝ)) (hl : ns.length = vs.length) (f : Int × Int × Int) :
    ∃ ns', addFace (fun _ => false) vs ns f = some ns' ∧ ns'.length = ns.length ∧
      ∀ j, ns'[j]? = ns[j]?.map fun x => x + if ValidFace vs.length f then timesIn j f • faceNormal vs f else 0 := by
  unfold addFace
  by_cases hf : ValidFace vs.length f
  · rw [if_neg (by rw [(faceInRange_iff _ _).2 hf]; decide)]
    obtain ⟨⟨h1, h2⟩, ⟨h3, h4⟩, ⟨h5, h6⟩⟩ := id hf
    have k1 : f.1.toNat < vs.length := by omega
    have k2 : f.2.1.toNat < vs.length := by omega
    have k3 : f.2.2.toNat < vs.length := by omega
    rw [List.getElem?_eq_getElem k1, List.getElem?_eq_getElem k2, List.getElem?_eq_getElem k3]
    obtain ⟨ns', e, hlen, hj⟩ := addNormal_spec (edgeCross vs[f.1.toNat] vs[f.2.1.toNat] vs[f.2.2.toNat])
      [f.1.toNat, f.2.1.toNat, f.2.2.toNat] ns (by simp; omega)
    refine ⟨ns', by simpa using e, hlen, fun j => ?_⟩
    rw [hj]
    have hn : edgeCross vs[f.1.toNat] vs[f.2.1.toNat] vs[f.2.2.toNat] = faceNormal vs f := by
      unfold edgeCross faceNormal vertexAt
      rw [List.getD_eq_getElem?_getD, List.getD_eq_getElem?_getD, List.getD_eq_getElem?_getD,
        List.getElem?_eq_getElem k1, List.getElem?_eq_getElem k2, List.getElem?_eq_getElem k3]
      rfl
    congr 1
    funext x
    rw [if_pos hf, hn]
    congr 1
    have e1 : (f.1.toNat = j) ↔ (f.1 = j) := by omega
    have e2 : (f.2.1.toNat = j) ↔ (f.2.1 = j) := by omega
    have e3 : (f.2.2.toNat = j) ↔ (f.2.2 = j) := by omega
    simp only [List.map_cons, List.map_nil, List.sum_cons, List.sum_nil, add_zero, timesIn, e1, e2, e3, add_smul, ite_smul,
      one_smul, zero_smul, add_assoc]
  · rw [if_pos (by
      have : faceInRange vs.length f = false := by
        rw [← Bool.not_eq_true, faceInRange_iff]; exact hf
      rw [this]; decide)]
    exact ⟨ns, rfl, rfl, fun j => by simp [hf]⟩

theorem sumNormals_spec (vs : List (Vec3 ℝ)) (faces : List (Int × Int × Int)) :
    ∃ ns, sumNormals (fun _ => false) vs faces = some ns ∧ ns.length = vs.length ∧
      ∀ j < vs.length, ns[j]? = some (vertexSum vs faces j) := by
  have key : ∀ (faces : List (Int × Int × Int)) (ns : List (Vec3 ℝ)), ns.length = vs.length →
      ∃ ns', faces.foldlM (addFace (fun _ => false) vs) ns = some ns' ∧ ns'.length = vs.length ∧
        ∀ j, ns'[j]? = ns[j]?.map fun x => x + vertexSum vs faces j := by
    intro faces
    induction faces with
    | nil => exact fun ns h => ⟨ns, rfl, h, fun j => by simp [vertexSum]⟩
    | cons f faces ih =>
      intro ns h
      obtain ⟨n1, e1, l1, h1⟩ := addFace_spec vs ns h f
      obtain ⟨n2, e2, l2, h2⟩ := ih n1 (l1.trans h)
      refine ⟨n2, by rw [List.foldlM_cons, e1]; exact e2, l2, fun j => ?_⟩
      rw [h2, h1, Option.map_map]
      congr 1
      funext x
      simp only [Function.comp, vertexSum, List.map_cons, List.sum_cons, add_assoc]
  obtain ⟨ns, e, l, h⟩ := key faces (List.replicate vs.length 0) (by simp)
  refine ⟨ns, e, l, fun j hj => ?_⟩
  rw [h, List.getElem?_replicate, if_pos hj]
  simp

theorem sqNorm_nonneg' (v : Vec3 ℝ) : 0 ≤ v.sqNorm := by
  unfold Vec3.sqNorm Vec3.dot; nlinarith [sq_nonneg v.x, sq_nonneg v.y, sq_nonneg v.z]

theorem sqNorm_eq_zero {v : Vec3 ℝ} (h : v.sqNorm = 0) : v = 0 := by
  unfold Vec3.sqNorm Vec3.dot at h
  have hx : v.x = 0 := by nlinarith [sq_nonneg v.x, sq_nonneg v.y, sq_nonneg v.z]
  have hy : v.y = 0 := by nlinarith [sq_nonneg v.x, sq_nonneg v.y, sq_nonneg v.z]
  have hz : v.z = 0 := by nlinarith [sq_nonneg v.x, sq_nonneg v.y, sq_nonneg v.z]
  ext <;> assumption

theorem normalizeOrKeep_spec (v : Vec3 ℝ) : IsDirection (normalizeOrKeep v) v := by
  unfold normalizeOrKeep
  by_cases h : Real.sqrt v.sqNorm = 0
  · left
    have h0 : v = 0 := sqNorm_eq_zero ((Real.sqrt_eq_zero (sqNorm_nonneg' v)).1 h)
    refine ⟨h0, ?_⟩
    dsimp only
    rw [if_neg (not_not.2 h), h0]
  · right
    dsimp only
    rw [if_pos h]
    have hp : 0 < Real.sqrt v.sqNorm := lt_of_le_of_ne (Real.sqrt_nonneg _) (Ne.symm h)
    have hs : Real.sqrt v.sqNorm * Real.sqrt v.sqNorm = v.sqNorm := Real.mul_self_sqrt (sqNorm_nonneg' v)
    refine ⟨?_, Real.sqrt v.sqNorm, hp, ?_⟩
    · have hs' : v.x * v.x + v.y * v.y + v.z * v.z = Real.sqrt v.sqNorm * Real.sqrt v.sqNorm := hs.symm
      generalize Real.sqrt v.sqNorm = l at *
      simp only [Vec3.sqNorm, Vec3.dot]
      field_simp
      linarith
    · ext <;> simp only [Vec3.smul_x, Vec3.smul_y, Vec3.smul_z] <;> field_simp

theorem isDirection_unique {w w' v : Vec3 ℝ} (h : IsDirection w v) (h' : IsDirection w' v) : w = w' := by
  rcases h with ⟨h0, h1⟩ | ⟨h1, l, hl, h2⟩ <;> rcases h' with ⟨h0', h1'⟩ | ⟨h1', l', hl', h2'⟩
  · rw [h1, h1']
  · exfalso
    have : v.sqNorm = l' * l' * w'.sqNorm := by rw [h2']; simp [Vec3.sqNorm, Vec3.dot]; ring
    rw [h1', h0] at this
    simp [Vec3.sqNorm, Vec3.dot] at this
    exact hl'.ne' this
  · exfalso
    have : v.sqNorm = l * l * w.sqNorm := by rw [h2]; simp [Vec3.sqNorm, Vec3.dot]; ring
    rw [h1, h0'] at this
    simp [Vec3.sqNorm, Vec3.dot] at this
    exact hl.ne' this
  · have e1 : v.sqNorm = l * l * w.sqNorm := by rw [h2]; simp [Vec3.sqNorm, Vec3.dot]; ring
    have e2 : v.sqNorm = l' * l' * w'.sqNorm := by rw [h2']; simp [Vec3.sqNorm, Vec3.dot]; ring
    rw [h1] at e1
    rw [h1'] at e2
    have : l = l' := by nlinarith
    subst this
    have h3 : l • w = l • w' := h2.symm.trans h2'
    have hx := congrArg Vec3.x h3
    have hy := congrArg Vec3.y h3
    have hz := congrArg Vec3.z h3
    simp only [Vec3.smul_x, Vec3.smul_y, Vec3.smul_z] at hx hy hz
    ext
    · exact mul_left_cancel₀ hl.ne' hx
    · exact mul_left_cancel₀ hl.ne' hy
    · exact mul_left_cancel₀ hl.ne' hz

/-! ### The property -/

/-- **C31.**  `updateNormals` never accesses anything out of range, returns one normal per vertex, and the normal of
vertex `i` is the direction of the sum of the normals of the valid faces around it (zero if that sum is zero). -/
theorem C31_normals (vs : List (Vec3 ℝ)) (faces : List (Int × Int × Int)) :
    ∃ ns, updateNormals vs faces = some ns ∧ ns.length = vs.length ∧
      ∀ i < vs.length, ∃ w, ns[i]? = some w ∧ IsDirection w (vertexSum vs faces i) := by
  obtain ⟨ns, e, hl, h⟩ := sumNormals_spec vs faces
  refine ⟨ns.map normalizeOrKeep, by unfold updateNormals; rw [e]; rfl, by rw [List.length_map, hl], fun i hi => ?_⟩
  exact ⟨normalizeOrKeep (vertexSum vs faces i), by rw [List.getElem?_map, h i hi]; rfl, normalizeOrKeep_spec _⟩

/-- **C31.**  Every normal has length one or zero. -/
theorem C31_unit (vs : List (Vec3 ℝ)) (faces : List (Int × Int × Int)) (ns : List (Vec3 ℝ))
    (h : updateNormals vs faces = some ns) : ∀ w ∈ ns, w = 0 ∨ w.sqNorm = 1 := by
  obtain ⟨ns', e, hl, hn⟩ := C31_normals vs faces
  rw [h] at e
  cases e
  intro w hw
  obtain ⟨i, hi, rfl⟩ := List.getElem_of_mem hw
  obtain ⟨w', hw', hd⟩ := hn i (by omega)
  rw [List.getElem?_eq_getElem hi] at hw'
  cases hw'
  rcases hd with ⟨-, h⟩ | ⟨h, -⟩
  · exact Or.inl h
  · exact Or.inr h

theorem normals_eq_of {vs vs' : List (Vec3 ℝ)} {faces faces' : List (Int × Int × Int)} (g : Vec3 ℝ → Vec3 ℝ)
    (hl : vs'.length = vs.length)
    (h : ∀ i < vs.length, ∀ w, IsDirection w (vertexSum vs faces i) → IsDirection (g w) (vertexSum vs' faces' i)) :
    updateNormals vs' faces' = (updateNormals vs faces).map (List.map g) := by
  obtain ⟨a, ea, la, ha⟩ := C31_normals vs faces
  obtain ⟨b, eb, lb, hb⟩ := C31_normals vs' faces'
  rw [ea, eb, Option.map_some, Option.some.injEq]
  apply List.ext_getElem?
  intro i
  by_cases hi : i < vs.length
  · obtain ⟨w, hw, hd⟩ := ha i hi
    obtain ⟨w', hw', hd'⟩ := hb i (by omega)
    rw [hw', List.getElem?_map, hw, Option.map_some, isDirection_unique hd' (h i hi w hd)]
  · rw [List.getElem?_eq_none (by omega), List.getElem?_eq_none (by rw [List.length_map]; omega)]

theorem vertexSum_filter (vs : List (Vec3 ℝ)) (faces : List (Int × Int × Int)) (i : Nat) :
    vertexSum vs (faces.filter fun f => ValidFace vs.length f) i = vertexSum vs faces i := by
  unfold vertexSum
  induction faces with
  | nil => rfl
  | cons f faces ih =>
    by_cases hf : ValidFace vs.length f
    · rw [List.filter_cons_of_pos (by simpa using hf), List.map_cons, List.map_cons, List.sum_cons, List.sum_cons, ih]
    · rw [List.filter_cons_of_neg (by simpa using hf), List.map_cons, List.sum_cons, if_neg hf, zero_add, ih]

/-- **C31.**  Faces with an index out of range do not matter. -/
theorem C31_bad_faces (vs : List (Vec3 ℝ)) (faces : List (Int × Int × Int)) :
    updateNormals vs faces = updateNormals vs (faces.filter fun f => ValidFace vs.length f) := by
  have := normals_eq_of (vs := vs) (vs' := vs) (faces := faces.filter fun f => ValidFace vs.length f) (faces' := faces) id rfl
    (fun i _ w hw => by rw [vertexSum_filter] at hw; exact hw)
  simpa using this

/-- **C31.**  The order of the faces does not matter. -/
theorem C31_order (vs : List (Vec3 ℝ)) (faces faces' : List (Int × Int × Int)) (hp : faces.Perm faces') :
    updateNormals vs faces = updateNormals vs faces' := by
  have := normals_eq_of (vs := vs) (vs' := vs) (faces := faces') (faces' := faces) id rfl
    (fun i _ w hw => by
      have e : vertexSum vs faces i = vertexSum vs faces' i := (hp.map _).sum_eq
      rw [e]; exact hw)
  simpa using this

/-- Which corner of a face comes first does not matter. -/
theorem faceNormal_cycle (vs : List (Vec3 ℝ)) (a b c : Int) : faceNormal vs (b, c, a) = faceNormal vs (a, b, c) := by
  unfold faceNormal
  ext <;> simp <;> ring

/-- The map `p ↦ s R p + t`. -/
def similarity (s : ℝ) (R : Mat3 ℝ) (t p : Vec3 ℝ) : Vec3 ℝ := s • R.mulVec p + t

theorem mulVec_cross {R : Mat3 ℝ} (hR : IsRotation R) (u v : Vec3 ℝ) :
    (R.mulVec u).cross (R.mulVec v) = R.mulVec (u.cross v) := by
  have e := hR.eqs
  ext <;> simp only [Vec3.cross_x, Vec3.cross_y, Vec3.cross_z, Mat3.mulVec]
  · linear_combination (u.y * v.z - u.z * v.y) * e.a00 + (u.z * v.x - u.x * v.z) * e.a01 + (u.x * v.y - u.y * v.x) * e.a02
  · linear_combination (u.y * v.z - u.z * v.y) * e.a10 + (u.z * v.x - u.x * v.z) * e.a11 + (u.x * v.y - u.y * v.x) * e.a12
  · linear_combination (u.y * v.z - u.z * v.y) * e.a20 + (u.z * v.x - u.x * v.z) * e.a21 + (u.x * v.y - u.y * v.x) * e.a22

theorem mulVec_sqNorm {R : Mat3 ℝ} (hR : IsRotation R) (u : Vec3 ℝ) : (R.mulVec u).sqNorm = u.sqNorm := by
  have e := hR.eqs
  simp only [Vec3.sqNorm, Vec3.dot, Mat3.mulVec]
  linear_combination u.x * u.x * e.c00 + u.y * u.y * e.c11 + u.z * u.z * e.c22 + 2 * u.x * u.y * e.c01 +
    2 * u.x * u.z * e.c02 + 2 * u.y * u.z * e.c12

theorem faceNormal_similarity {R : Mat3 ℝ} (hR : IsRotation R) (s : ℝ) (t : Vec3 ℝ) (vs : List (Vec3 ℝ))
    {f : Int × Int × Int} (hf : ValidFace vs.length f) :
    faceNormal (vs.map (similarity s R t)) f = (s * s) • R.mulVec (faceNormal vs f) := by
  have hv : ∀ k : Int, 0 ≤ k → k < vs.length → vertexAt (vs.map (similarity s R t)) k = similarity s R t (vertexAt vs k) := by
    intro k h0 h1
    have hk : k.toNat < vs.length := by omega
    unfold vertexAt
    rw [List.getD_eq_getElem?_getD (l := vs), List.getD_eq_getElem?_getD (l := vs.map _), List.getElem?_map,
      List.getElem?_eq_getElem hk]
    rfl
  obtain ⟨⟨h1, h2⟩, ⟨h3, h4⟩, ⟨h5, h6⟩⟩ := hf
  unfold faceNormal
  rw [hv _ h1 h2, hv _ h3 h4, hv _ h5 h6, ← mulVec_cross hR]
  ext <;> simp [similarity, Mat3.mulVec] <;> ring

theorem mulVec_smul_sum (R : Mat3 ℝ) (c : ℝ) (l : List (Vec3 ℝ)) :
    (l.map fun v => c • R.mulVec v).sum = c • R.mulVec l.sum := by
  induction l with
  | nil => ext <;> simp [Mat3.mulVec]
  | cons v l ih =>
    rw [List.map_cons, List.sum_cons, List.sum_cons, ih]
    ext <;> simp [Mat3.mulVec] <;> ring

theorem mulVec_nsmul (R : Mat3 ℝ) (k : Nat) (v : Vec3 ℝ) : R.mulVec (k • v) = k • R.mulVec v := by
  induction k with
  | zero => rw [zero_smul, zero_smul]; ext <;> simp [Mat3.mulVec]
  | succ k ih => rw [succ_nsmul, succ_nsmul, ← ih]; ext <;> simp [Mat3.mulVec] <;> ring

theorem vertexSum_similarity {R : Mat3 ℝ} (hR : IsRotation R) (s : ℝ) (t : Vec3 ℝ) (vs : List (Vec3 ℝ))
    (faces : List (Int × Int × Int)) (i : Nat) :
    vertexSum (vs.map (similarity s R t)) faces i = (s * s) • R.mulVec (vertexSum vs faces i) := by
  unfold vertexSum
  rw [← mulVec_smul_sum, List.map_map, List.length_map]
  congr 1
  apply List.map_congr_left
  intro f _
  simp only [Function.comp]
  by_cases hf : ValidFace vs.length f
  · rw [if_pos hf, if_pos hf, faceNormal_similarity hR s t vs hf, mulVec_nsmul, smul_comm]
  · rw [if_neg hf, if_neg hf]
    ext <;> simp [Mat3.mulVec]

/-- **C31.**  Rotating, moving and enlarging the mesh turns the normals by the rotation. -/
theorem C31_rotation (vs : List (Vec3 ℝ)) (faces : List (Int × Int × Int)) (s : ℝ) (hs : 0 < s) (R : Mat3 ℝ)
    (hR : IsRotation R) (t : Vec3 ℝ) :
    updateNormals (vs.map fun p => s • R.mulVec p + t) faces = (updateNormals vs faces).map (List.map R.mulVec) := by
  apply normals_eq_of (vs' := vs.map (similarity s R t)) _ (by simp)
  intro i _ w hw
  rw [vertexSum_similarity hR]
  rcases hw with ⟨h0, h1⟩ | ⟨h1, l, hl, h2⟩
  · left
    rw [h0, h1]
    constructor <;> ext <;> simp [Mat3.mulVec]
  · right
    refine ⟨by rw [mulVec_sqNorm hR, h1], s * s * l, by positivity, ?_⟩
    rw [h2]
    ext <;> simp [Mat3.mulVec] <;> ring

/-! ### NaN coordinates -/

theorem nan_cross (ay az b_y bz cy cz : Option ℝ)
    (h : (ay = none ∨ az = none) ∨ (b_y = none ∨ bz = none) ∨ (cy = none ∨ cz = none)) :
    (Option.map₂ (· - ·)
      (Option.map₂ (· * ·) (Option.map₂ (· - ·) b_y ay) (Option.map₂ (· - ·) cz az))
      (Option.map₂ (· * ·) (Option.map₂ (· - ·) bz az) (Option.map₂ (· - ·) cy ay))).isNone = true := by
  rcases h with (rfl | rfl) | (rfl | rfl) | (rfl | rfl) <;> simp

/-- **C31.**  A face with a vertex whose `y` or `z` coordinate is NaN is left out. -/
theorem C31_nan_skipped (vs ns : List (Vec3 NanReal)) (f : Int × Int × Int)
    (hnan : ∃ k ∈ [f.1, f.2.1, f.2.2], ∃ v, vs[k.toNat]? = some v ∧ (v.y.isNan = true ∨ v.z.isNan = true)) :
    addFace NanReal.isNan vs ns f = some ns := by
  unfold addFace
  by_cases hf : faceInRange vs.length f = true
  swap
  · rw [if_pos (by simpa using hf)]
  rw [if_neg (by rw [hf]; decide)]
  have hv := (faceInRange_iff _ _).1 hf
  obtain ⟨⟨h1, h2⟩, ⟨h3, h4⟩, ⟨h5, h6⟩⟩ := hv
  have k1 : f.1.toNat < vs.length := by omega
  have k2 : f.2.1.toNat < vs.length := by omega
  have k3 : f.2.2.toNat < vs.length := by omega
  rw [List.getElem?_eq_getElem k1, List.getElem?_eq_getElem k2, List.getElem?_eq_getElem k3]
  simp only [Option.bind_eq_bind, Option.bind_some]
  rw [if_pos]
  have key : ∀ a b c : Vec3 NanReal, (a.y = none ∨ a.z = none) ∨ (b.y = none ∨ b.z = none) ∨ (c.y = none ∨ c.z = none) →
      (edgeCross a b c).x.isNan = true := by
    intro a b c h
    exact nan_cross a.y a.z b.y b.z c.y c.z h
  have hnone : ∀ x : NanReal, x.isNan = true → x = none := by
    intro x hx
    exact Option.isNone_iff_eq_none.1 hx
  apply key
  obtain ⟨k, hk, v, hv, hn⟩ := hnan
  have hn' : v.y = none ∨ v.z = none := hn.imp (hnone _) (hnone _)
  simp only [List.mem_cons, List.not_mem_nil, or_false] at hk
  rcases hk with rfl | rfl | rfl
  · rw [List.getElem?_eq_getElem k1] at hv; cases hv; exact Or.inl hn'
  · rw [List.getElem?_eq_getElem k2] at hv; cases hv; exact Or.inr (Or.inl hn')
  · rw [List.getElem?_eq_getElem k3] at hv; cases hv; exact Or.inr (Or.inr hn')

/-- A finding: only the first component of the face normal is tested, and it does not depend on the `x` coordinates.  One
vertex with a NaN `x` coordinate makes the normals of its neighbours NaN, here that of vertex 1, which also belongs to a
face without NaN. -/
theorem C31_nan_counterexample :
    let zero : NanReal := some 0
    let one : NanReal := some 1
    let vs : List (Vec3 NanReal) := [⟨none, zero, zero⟩, ⟨zero, one, zero⟩, ⟨zero, zero, one⟩, ⟨one, zero, zero⟩]
    ∃ ns w, sumNormals NanReal.isNan vs [(1, 2, 3), (0, 1, 2)] = some ns ∧ ns[1]? = some w ∧ w.y.isNan = true := by
  refine ⟨_, _, rfl, rfl, rfl⟩

/-! ### A concrete mesh -/

/-- A right triangle in the plane, listed with an out-of-range face. -/
def exTriangle : List (Vec3 ℝ) := [⟨0, 0, 0⟩, ⟨2, 0, 0⟩, ⟨0, 3, 0⟩, ⟨5, 5, 5⟩]

/-- Its first three vertices have the non-zero sum `(0, 0, 6)`, and the last one is on no valid face. -/
example : vertexSum exTriangle [(0, 1, 2), (0, 1, 7)] 0 = ⟨0, 0, 6⟩ ∧
    vertexSum exTriangle [(0, 1, 2), (0, 1, 7)] 3 = 0 := by
  constructor
  · ext <;> simp [vertexSum, exTriangle, ValidFace, timesIn, faceNormal, vertexAt]
    norm_num
  · ext <;> simp [vertexSum, exTriangle, ValidFace, timesIn, faceNormal, vertexAt]

/-- A quarter turn is a rotation. -/
example : IsRotation (⟨0, -1, 0, 1, 0, 0, 0, 0, 1⟩ : Mat3 ℝ) := by
  constructor
  · ext <;> simp [Mat3.mul, Mat3.transpose, Mat3.one]
  · simp [Mat3.det]

end Momentum
