import Verif.Model.BinaryIo
import Mathlib.Data.List.Flatten
import Mathlib.Tactic.Ring
import Mathlib.Tactic.Linarith

/-!
# Lemmas for binary files
-/

namespace Momentum
namespace BinaryIo

@[simp] theorem leBytes_length (k n : Nat) : (leBytes k n).length = k := by
  induction k generalizing n with
  | zero => rfl
  | succ k ih => simp [leBytes, ih]

theorem leValue_leBytes (k n : Nat) (h : n < 256 ^ k) : leValue (leBytes k n) = n := by
  induction k generalizing n with
  | zero => simp at h; subst h; rfl
  | succ k ih =>
    have : n / 256 < 256 ^ k := by rw [Nat.div_lt_iff_lt_mul (by norm_num)]; rw [pow_succ] at h; exact h
    simp only [leBytes, leValue, ih _ this]
    have e : (UInt8.ofNat (n % 256)).toNat = n % 256 := by
      simp
    rw [e]
    omega

@[simp] theorem defined_some (a : List UInt8) : defined (a.map some) = some a := by
  unfold defined
  induction a with
  | nil => rfl
  | cons x a ih => rw [List.map_cons, List.mapM_cons, ih]; rfl

theorem defined_none {buf : List (Option UInt8)} (h : none ∈ buf) : defined buf = none := by
  unfold defined
  induction buf with
  | nil => simp at h
  | cons x a ih =>
    rw [List.mapM_cons]
    rcases List.mem_cons.1 h with e | h
    · subst e; rfl
    · rw [ih h]
      cases x <;> rfl

theorem read_append (a b : List UInt8) {buf : List (Option UInt8)} (h : buf.length = a.length) :
    (⟨a ++ b, false⟩ : IStream).read buf = (a.map some, ⟨b, false⟩) := by
  unfold IStream.read
  simp only [Bool.false_eq_true, if_false, h]
  rw [List.take_left, List.drop_left, List.drop_eq_nil_of_le (by rw [List.length_append]; omega), List.append_nil]
  simp

theorem readU64_append {n : Nat} (h : n < 2 ^ 64) (b : List UInt8) (init : Option UInt8) :
    (⟨leBytes 8 n ++ b, false⟩ : IStream).readU64 init = (some n, ⟨b, false⟩) := by
  unfold IStream.readU64
  rw [read_append _ _ (by simp)]
  simp only [defined_some, Option.map_some]
  rw [leValue_leBytes _ _ (by rw [show (256 : Nat) ^ 8 = 2 ^ 64 by norm_num]; exact h)]

theorem readName_append {s : List UInt8} (h : s.length < 2 ^ 64) (b : List UInt8) :
    (⟨nameBytes s ++ b, false⟩ : IStream).readName = (s, ⟨b, false⟩) := by
  unfold IStream.readName nameBytes
  rw [List.append_assoc, readU64_append h]
  simp only [Option.getD_some]
  rw [read_append _ _ (by simp)]
  simp [List.map_map, Function.comp_def]

theorem readNames_append (l : List (List UInt8)) (h : ∀ s ∈ l, s.length < 2 ^ 64) (b : List UInt8) :
    (⟨l.flatMap nameBytes ++ b, false⟩ : IStream).readNames l.length = (l, ⟨b, false⟩) := by
  induction l with
  | nil => rfl
  | cons s l ih =>
    simp only [List.flatMap_cons, List.length_cons, IStream.readNames]
    rw [List.append_assoc, readName_append (h s (by simp))]
    simp only
    rw [ih (fun t ht => h t (by simp [ht]))]

@[simp] theorem floatBytes_length (l : List UInt32) : (floatBytes l).length = 4 * l.length := by
  induction l with
  | nil => rfl
  | cons x l ih =>
    simp only [floatBytes, List.flatMap_cons, List.length_append, leBytes_length, List.length_cons] at ih ⊢
    rw [ih]; omega

theorem floatBytes_drop (l : List UInt32) (i : Nat) : (floatBytes l).drop (4 * i) = floatBytes (l.drop i) := by
  induction i generalizing l with
  | zero => rfl
  | succ i ih =>
    cases l with
    | nil => simp [floatBytes]
    | cons x l =>
      have : floatBytes (x :: l) = leBytes 4 x.toNat ++ floatBytes l := rfl
      rw [this, show 4 * (i + 1) = (leBytes 4 x.toNat).length + 4 * i by simp; omega, ← List.drop_drop, List.drop_left, ih]
      rfl

theorem floatValue (x : UInt32) : UInt32.ofNat (leValue (leBytes 4 x.toNat)) = x := by
  rw [leValue_leBytes _ _ (by have := x.toNat_lt; rw [show (256 : Nat) ^ 4 = 2 ^ 32 by norm_num]; exact this)]
  simp

/-- Reading floats from what is left of a truncated file. -/
theorem readFloats_take (l : List UInt32) (b : List UInt8) (n : Nat) :
    (⟨(floatBytes l ++ b).take n, false⟩ : IStream).readFloats l.length =
      ((List.range l.length).map fun i => if 4 * (i + 1) ≤ n then l[i]? else none,
        ⟨b.take (n - 4 * l.length), decide (n < 4 * l.length)⟩) := by
  unfold IStream.readFloats IStream.read
  simp only [Bool.false_eq_true, if_false, List.length_replicate]
  refine Prod.ext ?_ ?_
  · simp only
    apply List.map_congr_left
    intro i hi
    have hi := List.mem_range.1 hi
    unfold floatAt
    by_cases hn : 4 * (i + 1) ≤ n
    · rw [if_pos hn]
      have e : (List.drop (4 * i) (List.map some (List.take (4 * l.length) (List.take n (floatBytes l ++ b))) ++
          List.drop (List.take n (floatBytes l ++ b)).length (List.replicate (4 * l.length) (none : Option UInt8)))).take 4 =
          (leBytes 4 (l[i]).toNat).map some := by
        rw [List.drop_append_of_le_length (by simp; omega), List.take_append_of_le_length (by simp; omega), ← List.map_drop,
          ← List.map_take]
        congr 1
        rw [List.take_take, List.drop_take, List.take_take, List.drop_append_of_le_length (by simp; omega),
          floatBytes_drop, List.drop_eq_getElem_cons hi,
          show floatBytes (l[i] :: l.drop (i + 1)) = leBytes 4 l[i].toNat ++ floatBytes (l.drop (i + 1)) from rfl,
          List.append_assoc, show min 4 (min (4 * l.length) n - 4 * i) = (leBytes 4 l[i].toNat).length by simp; omega,
          List.take_left]
      rw [e, defined_some, Option.map_some, floatValue, List.getElem?_eq_getElem hi]
    · rw [if_neg hn, defined_none]
      · rfl
      · have hlen : (List.take n (floatBytes l ++ b)).length = n := by simp; omega
        rw [List.mem_iff_getElem?]
        refine ⟨4 * i + 3 - 4 * i, ?_⟩
        rw [List.getElem?_take_of_lt (by omega), List.getElem?_drop, show 4 * i + (4 * i + 3 - 4 * i) = 4 * i + 3 by omega,
          List.getElem?_append_right (by simp; omega), List.getElem?_drop, List.getElem?_replicate, if_pos]
        rw [hlen]
        simp
        omega
  · simp only
    congr 1
    · rw [List.drop_take, show 4 * l.length = (floatBytes l).length by simp, List.drop_left]
    · rw [decide_eq_decide]
      simp

theorem readFloats_append (l : List UInt32) (b : List UInt8) :
    (⟨floatBytes l ++ b, false⟩ : IStream).readFloats l.length = (l.map some, ⟨b, false⟩) := by
  have := readFloats_take l b (floatBytes l ++ b).length
  rw [List.take_length] at this
  rw [this]
  refine Prod.ext ?_ ?_
  · simp only
    apply List.ext_getElem?
    intro i
    by_cases hi : i < l.length
    · rw [List.getElem?_map, List.getElem?_range hi, List.getElem?_map, List.getElem?_eq_getElem hi]
      simp only [Option.map_some]
      rw [if_pos (by simp; omega), List.getElem?_eq_getElem hi]
    · rw [List.getElem?_eq_none (by simp; omega), List.getElem?_eq_none (by simp; omega)]
  · simp only [List.length_append, floatBytes_length]
    rw [show 4 * l.length + b.length - 4 * l.length = b.length by omega, List.take_length]
    simp

/-- Reading from a stream that has failed leaves new memory undefined. -/
theorem readFloats_fail (rest : List UInt8) (n : Nat) :
    (⟨rest, true⟩ : IStream).readFloats n = (List.replicate n none, ⟨rest, true⟩) := by
  unfold IStream.readFloats IStream.read
  simp only [if_true]
  refine Prod.ext ?_ rfl
  simp only
  rw [List.eq_replicate_iff]
  refine ⟨by simp, fun x hx => ?_⟩
  obtain ⟨i, hi, rfl⟩ := List.mem_map.1 hx
  have hi := List.mem_range.1 hi
  unfold floatAt
  rw [defined_none]
  · rfl
  · rw [List.drop_replicate, List.take_replicate, List.mem_replicate]
    exact ⟨by omega, rfl⟩

end BinaryIo
end Momentum
