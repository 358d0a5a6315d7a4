import Verif.Lemmas.BinaryIo

/-!
# C61: binary files
-/

namespace Momentum
namespace BinaryIo

/-- A motion whose matrix has all its entries and whose sizes fit into 64 bits. -/
structure Motion.Sized (m : Motion UInt32) : Prop where
  data : m.poses.data.length = m.poses.rows * m.poses.cols
  params : m.parameterNames.length < 2 ^ 64
  joints : m.jointNames.length < 2 ^ 64
  frames : m.poses.cols < 2 ^ 64
  names : ∀ s ∈ m.parameterNames, s.length < 2 ^ 64
  jnames : ∀ s ∈ m.jointNames, s.length < 2 ^ 64

/-- Everything before the numbers. -/
def header (m : Motion UInt32) : List UInt8 :=
  leBytes 8 m.parameterNames.length ++ leBytes 8 m.jointNames.length ++ leBytes 8 m.poses.cols ++
    m.parameterNames.flatMap nameBytes ++ m.jointNames.flatMap nameBytes

theorem saveMmo_some {m : Motion UInt32} {file : List UInt8} (h : saveMmo m = some file) :
    m.poses.rows = m.parameterNames.length ∧ m.scale.length = m.jointNames.length * 7 ∧
      file = header m ++ (floatBytes m.scale ++ floatBytes m.poses.data) := by
  unfold saveMmo at h
  split at h
  · cases h
  · split at h
    · cases h
    · rename_i h1 h2
      cases h
      exact ⟨not_not.1 h1, not_not.1 h2, by simp [header]⟩

/-- Loading a file that has the whole header. -/
theorem loadMmo_header {m : Motion UInt32} (hm : m.Sized) (b : List UInt8) :
    loadMmo (header m ++ b) =
      (let (scale, s) := (⟨b, false⟩ : IStream).readFloats (m.jointNames.length * 7)
       let (data, _) := s.readFloats (m.parameterNames.length * m.poses.cols)
       ⟨⟨m.parameterNames.length, m.poses.cols, data⟩, scale, m.parameterNames, m.jointNames⟩) := by
  unfold loadMmo header
  simp only [List.append_assoc]
  rw [readU64_append hm.params]
  simp only
  rw [readU64_append hm.joints]
  simp only
  rw [readU64_append hm.frames]
  simp only [Option.getD_some]
  rw [readNames_append _ hm.names]
  simp only
  rw [readNames_append _ hm.jnames]

/-- **C61** (motion files): what was saved is what is loaded. -/
theorem C61_mmo_roundtrip {m : Motion UInt32} (hm : m.Sized) {file : List UInt8} (h : saveMmo m = some file) :
    loadMmo file = ⟨⟨m.poses.rows, m.poses.cols, m.poses.data.map some⟩, m.scale.map some, m.parameterNames,
      m.jointNames⟩ := by
  obtain ⟨h1, h2, rfl⟩ := saveMmo_some h
  rw [loadMmo_header hm, ← h2, readFloats_append]
  simp only
  rw [← h1, ← hm.data]
  have := readFloats_append m.poses.data []
  rw [List.append_nil] at this
  rw [this]

/-- **C61** (motion files): nothing is written exactly if the sizes do not fit together. -/
theorem C61_mmo_written (m : Motion UInt32) : (∃ file, saveMmo m = some file) ↔
    m.poses.rows = m.parameterNames.length ∧ m.scale.length = m.jointNames.length * 7 := by
  constructor
  · rintro ⟨file, h⟩
    obtain ⟨h1, h2, -⟩ := saveMmo_some h
    exact ⟨h1, h2⟩
  · rintro ⟨h1, h2⟩
    exact ⟨_, by unfold saveMmo; rw [if_neg (by simp [h1]), if_neg (by simp [h2])]⟩

/-- **C61** (interrupted writes): a motion file that was cut off anywhere after its names loads with the sizes and names of
the whole file; every number that is complete in the file is right, and every other one is indeterminate. -/
theorem C61_mmo_truncated {m : Motion UInt32} (hm : m.Sized) {file : List UInt8} (h : saveMmo m = some file) (n : Nat)
    (hn : file.length - 4 * (m.scale.length + m.poses.data.length) ≤ n) (hle : n ≤ file.length) :
    (loadMmo (file.take n)).parameterNames = m.parameterNames ∧ (loadMmo (file.take n)).jointNames = m.jointNames ∧
    (loadMmo (file.take n)).poses.rows = m.poses.rows ∧ (loadMmo (file.take n)).poses.cols = m.poses.cols ∧
    (loadMmo (file.take n)).scale = (List.range m.scale.length).map (fun i =>
      if file.length - 4 * (m.scale.length + m.poses.data.length) + 4 * (i + 1) ≤ n then m.scale[i]? else none) ∧
    (loadMmo (file.take n)).poses.data = (List.range m.poses.data.length).map fun i =>
      if file.length - 4 * m.poses.data.length + 4 * (i + 1) ≤ n then m.poses.data[i]? else none := by
  obtain ⟨h1, h2, rfl⟩ := saveMmo_some h
  have hlen : (header m ++ (floatBytes m.scale ++ floatBytes m.poses.data)).length =
      (header m).length + 4 * (m.scale.length + m.poses.data.length) := by
    simp only [List.length_append, floatBytes_length]; omega
  rw [hlen] at hn hle ⊢
  have hn' : (header m).length ≤ n := by omega
  rw [List.take_append, List.take_of_length_le hn', loadMmo_header hm, ← h2, readFloats_take]
  simp only
  rw [← h1, ← hm.data]
  refine ⟨?_, ?_, ?_, ?_, ?_, ?_⟩
  iterate 4 trivial
  · apply List.map_congr_left
    intro i hi
    congr 1
    rw [eq_iff_iff]
    constructor <;> intro h <;> omega
  · by_cases hf : n - (header m).length < 4 * m.scale.length
    · rw [show decide (n - (header m).length < 4 * m.scale.length) = true by simpa using hf, readFloats_fail]
      simp only
      rw [eq_comm, List.eq_replicate_iff]
      refine ⟨by simp, fun x hx => ?_⟩
      obtain ⟨i, hi, rfl⟩ := List.mem_map.1 hx
      rw [if_neg (by omega)]
    · rw [show decide (n - (header m).length < 4 * m.scale.length) = false by simpa using hf]
      have := readFloats_take m.poses.data [] (n - (header m).length - 4 * m.scale.length)
      rw [List.append_nil] at this
      rw [this]
      simp only
      apply List.map_congr_left
      intro i hi
      congr 1
      rw [eq_iff_iff]
      constructor <;> intro h <;> omega

/-- **C61**, finding: a truncated file is not noticed.  Whatever is missing at the end, the loader returns matrices of the
full size, and the last number is indeterminate memory. -/
theorem C61_truncation_unnoticed {m : Motion UInt32} (hm : m.Sized) {file : List UInt8} (h : saveMmo m = some file)
    (hpos : 0 < m.poses.data.length) (k : Nat) (hk : 0 < k) (hk' : k ≤ 4 * (m.scale.length + m.poses.data.length)) :
    (loadMmo (file.take (file.length - k))).poses.rows = m.poses.rows ∧
    (loadMmo (file.take (file.length - k))).poses.cols = m.poses.cols ∧
    (loadMmo (file.take (file.length - k))).poses.data[m.poses.data.length - 1]? = some none := by
  obtain ⟨-, -, h1, h2, -, h3⟩ := C61_mmo_truncated hm h (file.length - k) (by omega) (by omega)
  refine ⟨h1, h2, ?_⟩
  have hl : 4 * m.poses.data.length ≤ file.length := by
    obtain ⟨-, -, e⟩ := saveMmo_some h
    rw [e]; simp only [List.length_append, floatBytes_length]; omega
  rw [h3, List.getElem?_map, List.getElem?_range (by omega)]
  simp only [Option.map_some]
  rw [if_neg (by omega)]

/-! ### Matrices stored column by column -/

theorem flatMap_get {α : Type} (f : Nat → List α) (r c : Nat) (hf : ∀ j < c, (f j).length = r) :
    ((List.range c).flatMap f).length = c * r ∧
      ∀ i < r, ∀ j < c, ((List.range c).flatMap f)[j * r + i]? = (f j)[i]? := by
  induction c with
  | zero => exact ⟨by simp, fun i _ j hj => absurd hj (by omega)⟩
  | succ c ih =>
    obtain ⟨l1, l2⟩ := ih (fun j hj => hf j (by omega))
    rw [List.range_succ, List.flatMap_append]
    simp only [List.flatMap_cons, List.flatMap_nil, List.append_nil]
    refine ⟨by rw [List.length_append, l1, hf c (by omega)]; ring, fun i hi j hj => ?_⟩
    by_cases h : j < c
    · rw [List.getElem?_append_left (by rw [l1]; nlinarith), l2 i hi j h]
    · have : j = c := by omega
      subst this
      rw [List.getElem?_append_right (by rw [l1]; omega), l1, Nat.add_sub_cancel_left]

theorem mat_ext {α : Type} {a b : List α} {r c : Nat} (ha : a.length = c * r) (hb : b.length = c * r)
    (h : ∀ i < r, ∀ j < c, a[j * r + i]? = b[j * r + i]?) : a = b := by
  apply List.ext_getElem?
  intro k
  by_cases hk : k < c * r
  · have hr : 0 < r := Nat.pos_of_ne_zero (by rintro rfl; simp at hk)
    have := h (k % r) (Nat.mod_lt _ hr) (k / r) (by rw [Nat.div_lt_iff_lt_mul hr]; exact hk)
    rwa [Nat.div_add_mod'] at this
  · rw [List.getElem?_eq_none (by omega), List.getElem?_eq_none (by omega)]

theorem col_get {α : Type} (l : List α) (r i j : Nat) (hi : i < r) : ((l.drop (j * r)).take r)[i]? = l[j * r + i]? := by
  rw [List.getElem?_take_of_lt hi, List.getElem?_drop]

theorem col_length {α : Type} {l : List α} {r c j : Nat} (hl : l.length = r * c) (hj : j < c) (k : Nat) (hk : k ≤ r) :
    ((l.drop (j * r)).take k).length = k := by
  rw [List.length_take, List.length_drop, hl]
  have : j * r + r ≤ r * c := by nlinarith
  omega

/-! ### Blend shapes -/

/-- How many of `n` things are loaded if `expected` are asked for: all if it is not positive. -/
def limited (n : Nat) (expected : Int) : Nat := if expected > 0 then min n expected.toNat else n

theorem top_get {α : Type} {m : FMat α} (hm : m.data.length = m.rows * m.cols) {r c : Nat} (hr : r ≤ m.rows)
    (hc : c ≤ m.cols) : (m.top r c).data.length = r * c ∧ ∀ i < r, ∀ j < c, (m.top r c).get i j = m.get i j := by
  obtain ⟨h1, h2⟩ := flatMap_get (fun j => (m.data.drop (j * m.rows)).take r) r c
    (fun j hj => col_length hm (by omega) r hr)
  refine ⟨by rw [mul_comm]; exact h1, fun i hi j hj => ?_⟩
  have e1 : (m.top r c).get i j = ((List.range c).flatMap fun j => (m.data.drop (j * m.rows)).take r)[j * r + i]? :=
    if_pos hi
  have e2 : m.get i j = m.data[j * m.rows + i]? := if_pos (by omega)
  rw [e1, e2, h2 i hi j hj, List.getElem?_take_of_lt hi, List.getElem?_drop]

/-- **C61** (blend shape files): loading gives back the first `expectedVertices` vertices and the first `expectedShapes`
shapes of what was saved, or all of them if the numbers are not positive or too large. -/
theorem C61_blend_shape_roundtrip {b : Shapes UInt32} {n : Nat} (hb : b.base.length = 3 * n)
    (hd : b.shapes.data.length = b.shapes.rows * b.shapes.cols) (h64 : b.base.length < 2 ^ 64)
    (hc64 : b.shapes.cols < 2 ^ 64) {file : List UInt8} (h : saveBlendShape b = some file) (es ev : Int) :
    ∃ r, loadBlendShape file es ev = .ok r ∧ r.base = (b.base.take (3 * limited n ev)).map some ∧
      r.shapes.rows = 3 * limited n ev ∧ r.shapes.cols = limited b.shapes.cols es ∧
      r.shapes.data.length = r.shapes.rows * r.shapes.cols ∧
      ∀ i < r.shapes.rows, ∀ j < r.shapes.cols, r.shapes.get i j = (b.shapes.get i j).map some := by
  unfold saveBlendShape at h
  split at h
  · cases h
  · rename_i hrows
    rw [not_not] at hrows
    cases h
    unfold loadBlendShape
    simp only [List.append_assoc]
    rw [hrows, readU64_append h64]
    simp only
    rw [readU64_append hc64]
    simp only
    rw [if_neg (by rw [hb]; omega), readFloats_append]
    simp only
    have hread : ∀ s : IStream, s = ⟨floatBytes b.shapes.data, false⟩ →
        s.readFloats (b.base.length * b.shapes.cols) = (b.shapes.data.map some, ⟨[], false⟩) := by
      rintro s rfl
      have := readFloats_append b.shapes.data []
      rwa [List.append_nil, hd, hrows] at this
    refine ⟨_, rfl, ?_, ?_⟩
    · simp only [limited]
      split
      · rw [← List.map_take, hb]
        congr 2
        omega
      · rw [List.take_of_length_le (by omega)]
    · simp only [readShapeVectors, hread _ rfl]
      set m0 : FMat (Option UInt32) := ⟨b.base.length, b.shapes.cols, b.shapes.data.map some⟩ with hm0
      have hm0l : m0.data.length = m0.rows * m0.cols := by simp [hm0, hd, hrows]
      have hget0 : ∀ i < m0.rows, ∀ j < m0.cols, m0.get i j = (b.shapes.get i j).map some := by
        intro i hi j hj
        simp only [FMat.get, hm0, hrows, List.getElem?_map]
        split <;> rfl
      set m1 : FMat (Option UInt32) := if es > 0 then m0.top m0.rows (min es.toNat m0.cols) else m0 with hm1
      have h1 : m1.rows = b.base.length ∧ m1.cols = limited b.shapes.cols es ∧ m1.data.length = m1.rows * m1.cols ∧
          m1.cols ≤ m0.cols ∧ ∀ i < m1.rows, ∀ j < m1.cols, m1.get i j = m0.get i j := by
        rw [hm1]
        by_cases hes : es > 0
        · rw [if_pos hes]
          obtain ⟨t1, t2⟩ := top_get hm0l (r := m0.rows) (c := min es.toNat m0.cols) le_rfl (min_le_right _ _)
          refine ⟨rfl, ?_, t1, min_le_right _ _, t2⟩
          unfold limited
          rw [if_pos hes, min_comm]
          rfl
        · rw [if_neg hes]
          exact ⟨rfl, by unfold limited; rw [if_neg hes], hm0l, le_rfl, fun _ _ _ _ => rfl⟩
      obtain ⟨a1, a2, a3, a4, a5⟩ := h1
      have hrow0 : m0.rows = b.base.length := rfl
      by_cases hev : ev > 0
      · rw [if_pos hev]
        obtain ⟨t1, t2⟩ := top_get a3 (r := min m1.rows (ev.toNat * 3)) (c := m1.cols) (min_le_left _ _) le_rfl
        have e : min m1.rows (ev.toNat * 3) = 3 * limited n ev := by
          rw [a1, hb]; unfold limited; rw [if_pos hev]; omega
        refine ⟨e, a2, t1, fun i hi j hj => ?_⟩
        have hi' : i < m1.rows := lt_of_lt_of_le hi (min_le_left _ _)
        have hj' : j < m1.cols := hj
        rw [t2 i hi j hj, a5 i hi' j hj', hget0 i (by rw [hrow0, ← a1]; exact hi') j (by omega)]
      · rw [if_neg hev]
        refine ⟨by rw [a1, hb]; unfold limited; rw [if_neg hev], a2, a3, fun i hi j hj => ?_⟩
        rw [a5 i hi j hj, hget0 i (by rw [hrow0, ← a1]; exact hi) j (by omega)]

/-- **C61**, finding: a file whose number of rows is not a multiple of three overruns the base shape, and one that is
shorter than its two dimensions makes the loader use uninitialised numbers. -/
theorem C61_blend_shape_malformed (numRows : Nat) (h : numRows < 2 ^ 64) (h3 : numRows % 3 ≠ 0) (b : List UInt8)
    (es ev : Int) : loadBlendShape (leBytes 8 numRows ++ leBytes 8 0 ++ b) es ev = .ub ∧ loadBlendShape [] es ev = .ub := by
  refine ⟨?_, rfl⟩
  unfold loadBlendShape
  simp only [List.append_assoc]
  rw [readU64_append h]
  simp only
  rw [readU64_append (by norm_num)]
  simp only
  rw [if_pos h3]

/-! ### Mixture models -/

theorem readMats_append (d : Nat) (l : List (FMat UInt32)) (hl : ∀ c ∈ l, c.data.length = d * d) (b : List UInt8) :
    (⟨l.flatMap (fun c => floatBytes (c.data.take (d * d))) ++ b, false⟩ : IStream).readMats d l.length =
      (l.map fun c => ⟨d, d, c.data.map some⟩, ⟨b, false⟩) := by
  induction l with
  | nil => rfl
  | cons c l ih =>
    simp only [List.flatMap_cons, List.length_cons, IStream.readMats]
    have hc := hl c (by simp)
    rw [List.append_assoc, List.take_of_length_le hc.le]
    have := readFloats_append c.data (l.flatMap (fun c => floatBytes (c.data.take (d * d))) ++ b)
    rw [hc] at this
    rw [this]
    simp only
    rw [ih (fun c hc => hl c (by simp [hc]))]
    rfl

/-- **C61** (mixture model files): what was saved is what is loaded.  The factors are recomputed from `Cinv`. -/
theorem C61_mppca_roundtrip {m : MppcaData UInt32} (hd : m.d < 2 ^ 64) (hp : m.p < 2 ^ 64) (hn : m.names.length = m.d)
    (hn64 : ∀ s ∈ m.names, s.length < 2 ^ 64) (hr : m.rpre.length = m.p) (hc : m.cinv.length = m.p)
    (hcd : ∀ c ∈ m.cinv, c.rows = m.d ∧ c.cols = m.d ∧ c.data.length = m.d * m.d)
    (hmu : m.mu.rows = m.p ∧ m.mu.cols = m.d ∧ m.mu.data.length = m.p * m.d) :
    ∃ file, saveMppca m = some file ∧ loadMppca file = .ok ⟨m.d, m.p, m.names, m.rpre.map some,
      m.cinv.map fun c => ⟨c.rows, c.cols, c.data.map some⟩, ⟨m.mu.rows, m.mu.cols, m.mu.data.map some⟩⟩ := by
  have hsave : saveMppca m = some (leBytes 8 m.d ++ leBytes 8 m.p ++ (m.names.take m.d).flatMap nameBytes ++
      floatBytes (m.rpre.take m.p) ++ m.cinv.flatMap (fun c => floatBytes (c.data.take (m.d * m.d))) ++
      floatBytes (m.mu.data.take (m.p * m.d))) := by
    unfold saveMppca
    rw [if_neg (by omega), if_neg]
    rintro (h | ⟨c, h1, h2⟩ | h)
    · omega
    · rw [(hcd c h1).2.2] at h2; omega
    · omega
  refine ⟨_, hsave, ?_⟩
  · unfold loadMppca
    simp only [List.append_assoc]
    rw [readU64_append hd]
    simp only
    rw [readU64_append hp]
    simp only
    rw [List.take_of_length_le hn.le, ← hn, readNames_append _ hn64, hn]
    simp only
    rw [List.take_of_length_le hr.le]
    have e1 := readFloats_append m.rpre (m.cinv.flatMap (fun c => floatBytes (c.data.take (m.d * m.d))) ++
      floatBytes (m.mu.data.take (m.p * m.d)))
    rw [hr] at e1
    rw [e1]
    simp only
    have e2 := readMats_append m.d m.cinv (fun c h => (hcd c h).2.2) (floatBytes (m.mu.data.take (m.p * m.d)))
    rw [hc] at e2
    rw [e2]
    simp only
    rw [List.take_of_length_le hmu.2.2.le]
    have e3 := readFloats_append m.mu.data []
    rw [List.append_nil, hmu.2.2] at e3
    rw [e3, hmu.1, hmu.2.1]
    simp only [Outcome.ok.injEq, MppcaData.mk.injEq, true_and, and_true]
    apply List.map_congr_left
    intro c h
    rw [(hcd c h).1, (hcd c h).2.1]

end BinaryIo
end Momentum
