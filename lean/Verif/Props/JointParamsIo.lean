import Verif.Model.JointParamsIo
import Verif.Lemmas.BinaryIo

/-!
# C101: binary files of joint parameters
-/

namespace Momentum.JointParamsIo
open BinaryIo

/-- The bytes of a file: the number of frames, the number of parameters of each, and the numbers frame by frame. -/
def fileBytes (numFrames numParams : Nat) (frames : List (List UInt32)) : List UInt8 :=
  leBytes 8 numFrames ++ (leBytes 8 numParams ++ frames.flatMap floatBytes)

theorem readFrames_fail (rest : List UInt8) (p n : Nat) : readFrames ⟨rest, true⟩ p n = List.replicate n (List.replicate p none) := by
  induction n with
  | zero => rfl
  | succ n ih =>
    rw [readFrames, readFloats_fail]
    dsimp only
    rw [ih, List.replicate_succ]

theorem readFrames_append (frames : List (List UInt32)) (p : Nat) (h : ∀ f ∈ frames, f.length = p) (b : List UInt8) (n : Nat) :
    readFrames ⟨frames.flatMap floatBytes ++ b, false⟩ p (frames.length + n) = frames.map (·.map some) ++ readFrames ⟨b, false⟩ p n := by
  induction frames with
  | nil => simp
  | cons f frames ih =>
    rw [List.flatMap_cons, List.append_assoc, List.length_cons, show frames.length + 1 + n = (frames.length + n) + 1 by omega, readFrames,
      ← h f (by simp), readFloats_append]
    dsimp only
    rw [h f (by simp), ih fun g hg => h g (by simp [hg])]
    rfl

theorem load_file (numFrames numParams : Nat) (h1 : numFrames < 2 ^ 31) (h2 : numParams < 2 ^ 63) (frames : List (List UInt32)) (more : List UInt8) :
    loadJointParamsBinary (some (fileBytes numFrames numParams frames ++ more)) =
      .ok (readFrames ⟨frames.flatMap floatBytes ++ more, false⟩ numParams numFrames) := by
  unfold loadJointParamsBinary fileBytes
  simp only [List.append_assoc]
  rw [readU64_append (by omega)]
  dsimp only
  rw [readU64_append (by omega)]
  dsimp only
  rw [if_neg (by omega), if_neg (by omega), if_neg (by omega)]

/-- **C101**: a file of frames is loaded as it is, whatever follows. -/
theorem C101_load (p : Nat) (frames : List (List UInt32)) (h : ∀ f ∈ frames, f.length = p) (h1 : frames.length < 2 ^ 31) (h2 : p < 2 ^ 63)
    (more : List UInt8) :
    loadJointParamsBinary (some (fileBytes frames.length p frames ++ more)) = .ok (frames.map (·.map some)) := by
  rw [load_file _ _ h1 h2]
  have := readFrames_append frames p h more 0
  rw [Nat.add_zero] at this
  rw [this, readFrames, List.append_nil]

/-- **C101**: whatever the bytes are, all frames that are loaded have the same number of parameters, and there are as many as the file says. -/
theorem C101_shape (file : Option (List UInt8)) (frames : List (List (Option UInt32))) (h : loadJointParamsBinary file = .ok frames) :
    ∃ (bytes : List UInt8) (p : Nat), file = some bytes ∧ 16 ≤ bytes.length ∧ frames.length = leValue (bytes.take 8) ∧
      p = leValue ((bytes.drop 8).take 8) ∧ ∀ f ∈ frames, f.length = p := by
  have hlen : ∀ (n p : Nat) (s : IStream), (readFrames s p n).length = n ∧ ∀ f ∈ readFrames s p n, f.length = p := by
    intro n p
    induction n with
    | zero => intro s; exact ⟨rfl, fun f hf => by simp [readFrames] at hf⟩
    | succ n ih =>
      intro s
      rw [readFrames]
      refine ⟨by simp [ih], fun f hf => ?_⟩
      rcases List.mem_cons.mp hf with rfl | hf
      · simp
      · exact (ih _).2 f hf
  have hfull : ∀ l : List UInt8, ∀ n, ((⟨l, false⟩ : IStream).readU64 none).1 = some n →
      8 ≤ l.length ∧ n = leValue (l.take 8) ∧ ((⟨l, false⟩ : IStream).readU64 none).2 = ⟨l.drop 8, false⟩ := by
    intro l n hn
    by_cases hl : l.length < 8
    · exfalso
      unfold IStream.readU64 IStream.read at hn
      simp only [Bool.false_eq_true, if_false] at hn
      rw [defined_none] at hn
      · cases hn
      · rw [List.mem_append]
        right
        rw [List.drop_replicate, List.mem_replicate]
        exact ⟨by omega, rfl⟩
    · have hl' : 8 ≤ l.length := by omega
      have : l = l.take 8 ++ l.drop 8 := (List.take_append_drop 8 l).symm
      unfold IStream.readU64 at hn ⊢
      rw [this, read_append (l.take 8) (l.drop 8) (by simp [hl'])] at hn
      refine ⟨hl', ?_, ?_⟩
      · simp only [defined_some, Option.map_some, Option.some.injEq] at hn
        exact hn.symm
      · conv_lhs => rw [this]
        rw [read_append (l.take 8) (l.drop 8) (by simp [hl'])]
  unfold loadJointParamsBinary at h
  cases file with
  | none =>
    exfalso
    have h0 : ((⟨[], true⟩ : IStream).readU64 none).1 = none := rfl
    dsimp only at h
    rw [h0] at h
    cases h
  | some bytes =>
    dsimp only at h
    split at h
    · rename_i a p ha hp
      split at h
      · cases h
      · split at h
        · cases h
        · split at h
          · cases h
          · obtain ⟨h8, hav, hs⟩ := hfull bytes a ha
            rw [hs] at hp
            obtain ⟨h16, hpv, -⟩ := hfull _ p hp
            rw [List.length_drop] at h16
            injection h with h
            subst h
            exact ⟨bytes, p, rfl, by omega, by rw [(hlen _ _ _).1, hav], hpv, (hlen _ _ _).2⟩
    · cases h

/-- **C101** (negated): a file that ends after some of its frames is loaded without an error, and all other frames are undefined. -/
theorem C101_truncated_counterexample (p n : Nat) (hp : 0 < p) (frames : List (List UInt32)) (h : ∀ f ∈ frames, f.length = p)
    (h1 : frames.length + n < 2 ^ 31) (h2 : p < 2 ^ 63) :
    loadJointParamsBinary (some (fileBytes (frames.length + n) p frames)) =
      .ok (frames.map (·.map some) ++ List.replicate n (List.replicate p none)) := by
  have := load_file (frames.length + n) p h1 h2 frames []
  rw [List.append_nil] at this
  rw [this, readFrames_append frames p h]
  congr 2
  cases n with
  | zero => rfl
  | succ n =>
    have h0 := readFloats_take (List.replicate p 0) [] 0
    rw [List.take_zero, List.length_replicate] at h0
    rw [readFrames, h0]
    dsimp only
    rw [show decide (0 < 4 * p) = true by simp; omega, readFrames_fail, List.replicate_succ]
    congr 1
    rw [List.eq_replicate_iff]
    refine ⟨by simp, fun x hx => ?_⟩
    simp at hx
    exact hx.2

/-- **C101** (negated): a file that does not exist, or that has fewer than sixteen bytes, is not an error: numbers that were never read are used. -/
theorem C101_short_counterexample (file : Option (List UInt8)) (h : ∀ bytes, file = some bytes → bytes.length < 16) :
    loadJointParamsBinary file = .ub := by
  cases file with
  | none => rfl
  | some bytes =>
    cases hl : loadJointParamsBinary (some bytes) with
    | ok frames =>
      obtain ⟨b, -, hb, h16, -⟩ := C101_shape _ _ hl
      have := h b hb
      omega
    | ub => rfl
    | throws =>
      exfalso
      have hb := h bytes rfl
      have hshort : ∀ l : List UInt8, l.length < 8 → ((⟨l, false⟩ : IStream).readU64 none).1 = none := by
        intro l hl
        unfold IStream.readU64 IStream.read
        simp only [Bool.false_eq_true, if_false, Option.map_eq_none_iff]
        refine defined_none ?_
        rw [List.mem_append]
        right
        rw [List.drop_replicate, List.mem_replicate]
        exact ⟨by omega, rfl⟩
      unfold loadJointParamsBinary at hl
      dsimp only at hl
      by_cases h8 : bytes.length < 8
      · rw [hshort bytes h8] at hl
        cases hl
      · have hs : ((⟨bytes, false⟩ : IStream).readU64 none).2 = ⟨bytes.drop 8, false⟩ := by
          unfold IStream.readU64 IStream.read
          simp
          omega
        rw [hs, hshort (bytes.drop 8) (by rw [List.length_drop]; omega)] at hl
        split at hl
        · rename_i h; cases h
        · cases hl

/-- Not vacuous: two frames of two parameters; and the same with the second frame missing. -/
example : loadJointParamsBinary (some (fileBytes 2 2 [[1, 2], [3, 4]])) = .ok [[some 1, some 2], [some 3, some 4]] ∧
    loadJointParamsBinary (some (fileBytes 2 2 [[1, 2]])) = .ok [[some 1, some 2], [none, none]] := by
  constructor <;> decide +kernel

end Momentum.JointParamsIo
