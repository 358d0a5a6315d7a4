import Verif.Spec.PoseShapeIo
import Verif.Lemmas.BinaryIo

/-!
# C100: files of shapes that depend on the pose
-/

namespace Momentum.PoseShapeIo
open BinaryIo

theorem readCounted_append {n : List UInt8} (h : n.length < 2 ^ 64) (b : List UInt8) (count : Nat) :
    readCounted ⟨nameBytes n ++ b, false⟩ count = (n, n.length, ⟨b, false⟩) := by
  unfold readCounted nameBytes
  rw [List.append_assoc, read_append _ _ (by simp)]
  simp only [defined_some, Option.getD_some]
  rw [leValue_leBytes _ _ (by rw [show (256 : Nat) ^ 8 = 2 ^ 64 by norm_num]; exact h), read_append _ _ (by simp)]
  simp

theorem readCountedNames_append (l : List (List UInt8)) (h : ∀ s ∈ l, s.length < 2 ^ 64) (b : List UInt8) (count : Nat) :
    readCountedNames ⟨l.flatMap nameBytes ++ b, false⟩ count l.length = (l, ⟨b, false⟩) := by
  induction l generalizing count with
  | nil => rfl
  | cons s l ih =>
    rw [List.flatMap_cons, List.append_assoc, List.length_cons, readCountedNames, readCounted_append (h s (by simp))]
    dsimp only
    rw [ih fun t ht => h t (by simp [ht])]

theorem readCountedNames_length (s : IStream) (count n : Nat) : (readCountedNames s count n).1.length = n := by
  induction n generalizing s count with
  | zero => rfl
  | succ n ih => rw [readCountedNames]; simp [ih]

theorem readFloats_length (s : IStream) (n : Nat) : (s.readFloats n).1.length = n := by
  unfold IStream.readFloats
  simp

theorem mapM_length {α β : Type} (f : α → Option β) : ∀ (l : List α) (r : List β), l.mapM f = some r →
    r.length = l.length ∧ ∀ (i : Nat) (a : α) (b : β), l[i]? = some a → r[i]? = some b → f a = some b := by
  intro l
  induction l with
  | nil =>
    intro r h
    simp at h
    subst h
    simp
  | cons a l ih =>
    intro r h
    rw [List.mapM_cons] at h
    cases ha : f a with
    | none => rw [ha] at h; simp at h
    | some b =>
      cases hl : l.mapM f with
      | none => rw [ha, hl] at h; simp at h
      | some t =>
        rw [ha, hl] at h
        simp at h
        subst h
        obtain ⟨h1, h2⟩ := ih t hl
        refine ⟨by simp [h1], fun i x y hx hy => ?_⟩
        cases i with
        | zero => simp at hx hy; subst hx hy; exact ha
        | succ i => exact h2 i x y (by simpa using hx) (by simpa using hy)

theorem mapM_mem {α β : Type} (f : α → Option β) (l : List α) (r : List β) (h : l.mapM f = some r) (b : β) (hb : b ∈ r) : ∃ a, f a = some b := by
  obtain ⟨h1, h2⟩ := mapM_length f l r h
  obtain ⟨i, hi, hib⟩ := List.getElem_of_mem hb
  exact ⟨l[i]'(by omega), h2 i _ b (List.getElem?_eq_getElem (by omega)) (by rw [List.getElem?_eq_getElem hi, hib])⟩

theorem mapM_some {α β : Type} (f : α → Option β) : ∀ (l : List α), (∀ a ∈ l, ∃ b, f a = some b) → ∃ r, l.mapM f = some r := by
  intro l
  induction l with
  | nil => intro _; exact ⟨[], rfl⟩
  | cons a l ih =>
    intro h
    obtain ⟨b, hb⟩ := h a (by simp)
    obtain ⟨t, ht⟩ := ih fun x hx => h x (by simp [hx])
    exact ⟨b :: t, by rw [List.mapM_cons, hb, ht]; rfl⟩

theorem mapM_id_some (l : List UInt32) : (l.map some).mapM id = some l := by
  induction l with
  | nil => rfl
  | cons a l ih => rw [List.map_cons, List.mapM_cons, ih]; rfl

theorem jointId_first {R : Type} {joints : List (List UInt8 × R)} {name : List UInt8} {k : Nat} (h : jointId joints name = some k) :
    IsFirst joints k name := by
  unfold jointId at h
  rw [List.findIdx?_eq_some_iff_getElem] at h
  obtain ⟨hk, h1, h2⟩ := h
  refine ⟨⟨joints[k], List.getElem?_eq_getElem hk, by simpa using h1⟩, fun i hi j hj => ?_⟩
  have := h2 i hi
  rw [List.getElem?_eq_getElem (by omega)] at hj
  injection hj with hj
  rw [hj] at this
  simpa using this

theorem jointId_some {R : Type} {joints : List (List UInt8 × R)} {name : List UInt8} (h : ∃ j ∈ joints, j.1 = name) :
    ∃ k, jointId joints name = some k := by
  unfold jointId
  obtain ⟨j, hj, hn⟩ := h
  cases hk : joints.findIdx? fun j => j.1 = name with
  | some k => exact ⟨k, rfl⟩
  | none =>
    rw [List.findIdx?_eq_none_iff] at hk
    have := hk j hj
    simp [hn] at this

/-- Reading a file that has all before the vectors. -/
theorem load_header {R : Type} (add : UInt32 → UInt32 → UInt32) (joints : List (List UInt8 × R)) (mesh : List UInt32) (base : List UInt8)
    (names : List (List UInt8)) (mean : List UInt32) (rest : List UInt8) (hmesh : mesh ≠ []) (hmean : mean.length = mesh.length)
    (h1 : mesh.length < 2 ^ 64) (h2 : names.length < 2 ^ 64) (h3 : ∀ n ∈ base :: names, n.length < 2 ^ 64)
    (h4 : ∀ n ∈ base :: names, ∃ j ∈ joints, j.1 = n) :
    ∃ r, loadPoseShape add joints (some mesh) (some (header base names mean ++ rest)) = .ok (some r) ∧
      Describes add joints mesh base names mean r ∧
      r.shapeVectors.data = ((⟨rest, false⟩ : IStream).readFloats (mesh.length * (names.length * 4))).1 := by
  obtain ⟨b, hb⟩ := jointId_some (h4 base (by simp))
  obtain ⟨map, hm⟩ := mapM_some (jointId joints) names fun n hn => jointId_some (h4 n (by simp [hn]))
  have hf := jointId_first hb
  obtain ⟨⟨j, hj, hjn⟩, -⟩ := id hf
  obtain ⟨hl, hmap⟩ := mapM_length _ _ _ hm
  refine ⟨⟨b, j.2, map, List.zipWith add mean mesh, ⟨mesh.length, names.length * 4,
    ((⟨rest, false⟩ : IStream).readFloats (mesh.length * (names.length * 4))).1⟩⟩, ?_, ?_, rfl⟩
  · unfold loadPoseShape header
    simp only [List.append_assoc]
    rw [readU64_append (by omega)]
    dsimp only
    rw [readU64_append h2]
    dsimp only
    rw [if_neg (by omega), readCounted_append (h3 base (by simp))]
    dsimp only
    rw [hb]
    dsimp only
    rw [hj]
    dsimp only
    rw [readCountedNames_append names fun n hn => h3 n (by simp [hn])]
    dsimp only
    rw [readFloats_append]
    dsimp only
    rw [if_neg hmesh, mapM_id_some]
    dsimp only
    rw [hm, hmean]
  · refine ⟨hf, ⟨j, hj, rfl⟩, hl, fun i k n hk hn => jointId_first (hmap i n k hn hk), by simp [hmean], fun i x y hx hy => ?_, rfl, by
      show names.length * 4 = _; omega⟩
    show (List.zipWith add mean mesh)[i]? = _
    rw [List.getElem?_zipWith, hx, hy]

/-- **C100**: a file with the names of joints of the character, a mean shape for its vertices and vectors for the four numbers of each joint is loaded
as it is, whatever follows: each joint is the first of its name, the base shape is the mean plus the mesh, and the vectors are those of the file. -/
theorem C100_load {R : Type} (add : UInt32 → UInt32 → UInt32) (joints : List (List UInt8 × R)) (mesh : List UInt32) (base : List UInt8)
    (names : List (List UInt8)) (mean vectors : List UInt32) (more : List UInt8) (hmesh : mesh ≠ []) (hmean : mean.length = mesh.length)
    (hvectors : vectors.length = mesh.length * (names.length * 4)) (h1 : mesh.length < 2 ^ 64) (h2 : names.length < 2 ^ 64)
    (h3 : ∀ n ∈ base :: names, n.length < 2 ^ 64) (h4 : ∀ n ∈ base :: names, ∃ j ∈ joints, j.1 = n) :
    ∃ r, loadPoseShape add joints (some mesh) (some (header base names mean ++ (floatBytes vectors ++ more))) = .ok (some r) ∧
      Describes add joints mesh base names mean r ∧ r.shapeVectors.data = vectors.map some := by
  obtain ⟨r, hr, hd, hv⟩ := load_header add joints mesh base names mean (floatBytes vectors ++ more) hmesh hmean h1 h2 h3 h4
  refine ⟨r, hr, hd, ?_⟩
  rw [hv, ← hvectors, readFloats_append]

/-- **C100** (negated): a file that ends inside the vectors is loaded without an error, and the numbers that are missing are undefined. -/
theorem C100_truncated_counterexample {R : Type} (add : UInt32 → UInt32 → UInt32) (joints : List (List UInt8 × R)) (mesh : List UInt32)
    (base : List UInt8) (names : List (List UInt8)) (mean vectors : List UInt32) (n : Nat) (hmesh : mesh ≠ []) (hmean : mean.length = mesh.length)
    (hvectors : vectors.length = mesh.length * (names.length * 4)) (h1 : mesh.length < 2 ^ 64) (h2 : names.length < 2 ^ 64)
    (h3 : ∀ n ∈ base :: names, n.length < 2 ^ 64) (h4 : ∀ n ∈ base :: names, ∃ j ∈ joints, j.1 = n) :
    ∃ r, loadPoseShape add joints (some mesh) (some (header base names mean ++ (floatBytes vectors).take n)) = .ok (some r) ∧
      Describes add joints mesh base names mean r ∧ r.shapeVectors.data.length = vectors.length ∧
      ∀ i < vectors.length, r.shapeVectors.data[i]? = some (if 4 * (i + 1) ≤ n then vectors[i]? else none) := by
  obtain ⟨r, hr, hd, hv⟩ := load_header add joints mesh base names mean ((floatBytes vectors).take n) hmesh hmean h1 h2 h3 h4
  have := readFloats_take vectors [] n
  rw [List.append_nil] at this
  rw [← hvectors, this] at hv
  refine ⟨r, hr, hd, by rw [hv]; simp, fun i hi => ?_⟩
  rw [hv]
  simp [hi]

/-- **C100**: for any file, also a damaged one, a shape that is loaded fits the character: its joints exist, the base joint with its rotation, and
there are as many numbers as the mesh and the joints need. -/
theorem C100_fits {R : Type} (add : UInt32 → UInt32 → UInt32) (joints : List (List UInt8 × R)) (mesh : Option (List UInt32))
    (file : Option (List UInt8)) (r : Loaded R) (h : loadPoseShape add joints mesh file = .ok (some r)) :
    ∃ m, mesh = some m ∧ m ≠ [] ∧ (∃ j, joints[r.baseJoint]? = some j ∧ j.2 = r.baseRot) ∧ (∀ k ∈ r.jointMap, k < joints.length) ∧
      r.baseShape.length = m.length ∧ r.shapeVectors.rows = m.length ∧ r.shapeVectors.cols = 4 * r.jointMap.length ∧
      r.shapeVectors.data.length = r.shapeVectors.rows * r.shapeVectors.cols := by
  unfold loadPoseShape at h
  cases mesh with
  | none => cases h
  | some m =>
    cases file with
    | none => cases h
    | some file =>
      dsimp only at h
      split at h
      · rename_i rows count _ _
        split at h
        · cases h
        · rename_i hrows
          split at h
          · cases h
          · split at h
            · cases h
            · rename_i hj
              split at h
              · cases h
              · rename_i hm
                split at h
                · cases h
                · rename_i mean hmean
                  split at h
                  · cases h
                  · rename_i map hmap
                    injection h with h
                    injection h with h
                    subst h
                    obtain ⟨hl, -⟩ := mapM_length _ _ _ hmap
                    obtain ⟨hml, -⟩ := mapM_length _ _ _ hmean
                    rw [readFloats_length] at hml
                    rw [readCountedNames_length] at hl
                    refine ⟨m, rfl, hm, ⟨_, hj, rfl⟩, fun k hk => ?_, ?_, ?_, ?_, ?_⟩
                    · obtain ⟨n, hn⟩ := mapM_mem _ _ _ hmap k hk
                      obtain ⟨⟨j, hj, -⟩, -⟩ := jointId_first hn
                      exact (List.getElem?_eq_some_iff.mp hj).1
                    · simp only [List.length_zipWith]; omega
                    · exact (not_not.mp hrows).symm
                    · show count * 4 = 4 * map.length
                      rw [hl]; omega
                    · exact readFloats_length _ _
      · cases h

/-- **C100** (negated): a file of fewer than sixteen bytes is not an error: numbers that were never read are used. -/
theorem C100_short_counterexample {R : Type} (add : UInt32 → UInt32 → UInt32) (joints : List (List UInt8 × R)) (mesh : List UInt32)
    (file : List UInt8) (h : file.length < 16) : loadPoseShape add joints (some mesh) (some file) = .ub := by
  have key : ((⟨file, false⟩ : IStream).readU64 none).1 = none ∨
      ((((⟨file, false⟩ : IStream).readU64 none).2).readU64 none).1 = none := by
    have hshort : ∀ l : List UInt8, l.length < 8 → ((⟨l, false⟩ : IStream).readU64 none).1 = none := by
      intro l hl
      unfold IStream.readU64 IStream.read
      simp only [Bool.false_eq_true, if_false, Option.map_eq_none_iff]
      refine defined_none ?_
      rw [List.mem_append]
      right
      rw [List.drop_replicate, List.mem_replicate]
      exact ⟨by omega, rfl⟩
    by_cases h8 : file.length < 8
    · exact .inl (hshort file h8)
    · right
      have : ((⟨file, false⟩ : IStream).readU64 none).2 = ⟨file.drop 8, false⟩ := by
        unfold IStream.readU64 IStream.read
        simp
        omega
      rw [this]
      exact hshort _ (by rw [List.length_drop]; omega)
  unfold loadPoseShape
  dsimp only
  rcases key with key | key
  · rw [key]
  · rw [key]
    split
    · rename_i h; cases h
    · rfl

/-- **C100**: a character without a mesh is refused, a file that cannot be opened gives a shape without numbers and no error. -/
theorem C100_missing {R : Type} (add : UInt32 → UInt32 → UInt32) (joints : List (List UInt8 × R)) (mesh : List UInt32) (file : Option (List UInt8)) :
    loadPoseShape add joints none file = .throws ∧ loadPoseShape add joints (some mesh) none = .ok none := ⟨rfl, rfl⟩

/-- **C100**: a file for another number of coordinates, or with a base joint the character does not have, is refused. -/
theorem C100_refused {R : Type} (add : UInt32 → UInt32 → UInt32) (joints : List (List UInt8 × R)) (mesh : List UInt32) (base : List UInt8)
    (names : List (List UInt8)) (mean : List UInt32) (rest : List UInt8) (h1 : mean.length < 2 ^ 64) (h2 : names.length < 2 ^ 64)
    (h3 : ∀ n ∈ base :: names, n.length < 2 ^ 64) (hmesh : mesh ≠ [])
    (h : mean.length ≠ mesh.length ∨ ∃ n ∈ base :: names, ∀ j ∈ joints, j.1 ≠ n) :
    loadPoseShape add joints (some mesh) (some (header base names mean ++ rest)) = .throws := by
  unfold loadPoseShape header
  simp only [List.append_assoc]
  rw [readU64_append h1]
  dsimp only
  rw [readU64_append h2]
  dsimp only
  split
  · rfl
  · rename_i hlen
    replace h := h.resolve_left fun h' => hlen fun h'' => h' h''.symm
    have hnone : ∀ n, (∀ j ∈ joints, j.1 ≠ n) → jointId joints n = none := by
      intro n hn
      unfold jointId
      rw [List.findIdx?_eq_none_iff]
      intro j hj
      simpa using hn j hj
    rw [readCounted_append (h3 base (by simp))]
    dsimp only
    split
    · rfl
    · rename_i b hb
      split
      · rfl
      · rw [readCountedNames_append names fun n hn => h3 n (by simp [hn])]
        dsimp only
        rw [readFloats_append]
        dsimp only
        rw [mapM_id_some]
        dsimp only
        split
        · rfl
        · rename_i map hmap
          obtain ⟨n, hn, hj⟩ := h
          rcases List.mem_cons.mp hn with rfl | hn
          · rw [hnone _ hj] at hb; cases hb
          · obtain ⟨hl, hi⟩ := mapM_length _ _ _ hmap
            obtain ⟨i, hi1, hin⟩ := List.getElem_of_mem hn
            have := hi i n (map[i]'(by omega)) (by rw [List.getElem?_eq_getElem hi1, hin]) (List.getElem?_eq_getElem (by omega))
            rw [hnone n hj] at this
            cases this

/-- Not vacuous: a character of two joints and one vertex, and a shape for the second joint relative to the first. -/
example : (loadPoseShape (· + ·) [([97], 0), ([98], 1)] (some [1, 2, 3])
    (some (header [97] [[98]] [10, 20, 30] ++ floatBytes [1, 2, 3, 4, 5, 6, 7, 8, 9, 10, 11, 12])) : Outcome (Option (Loaded Nat))) =
    .ok (some ⟨0, 0, [1], [11, 22, 33], ⟨3, 4, [1, 2, 3, 4, 5, 6, 7, 8, 9, 10, 11, 12].map some⟩⟩) := by decide +kernel

/-- Not vacuous: the other shape is refused. -/
example : (loadPoseShape (· + ·) [([97], 0), ([98], 1)] (some [1, 2, 3]) (some (header [97] [[99]] [10, 20, 30])) : Outcome (Option (Loaded Nat))) =
    .throws := by decide +kernel

end Momentum.PoseShapeIo
