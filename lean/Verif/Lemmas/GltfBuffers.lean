import Verif.Spec.GltfBuffers
import Mathlib.Tactic.Ring
import Mathlib.Tactic.Linarith

/-!
# Lemmas on glTF buffers
-/

namespace Momentum.Gltf

theorem readElements_ok {data : List UInt8} {start len stride k : Nat} : ∀ (left i : Nat),
    (∀ j, i ≤ j → j < i + left → j * stride < len ∧ start + j * stride + k ≤ data.length) →
    readElements data start len stride k left i = .ok ((List.range' i left).map fun j => (data.drop (start + j * stride)).take k)
  | 0, _, _ => rfl
  | left + 1, i, h => by
    obtain ⟨h1, h2⟩ := h i le_rfl (by omega)
    rw [readElements, if_neg (by omega), if_neg (by omega), readElements_ok left (i + 1) (fun j hj hj' => h j (by omega) (by omega))]
    rfl

theorem readElements_append {data more : List UInt8} {start len stride k : Nat} : ∀ (left i : Nat) (r : List (List UInt8)),
    readElements data start len stride k left i = .ok r → readElements (data ++ more) start len stride k left i = .ok r
  | 0, _, _, h => h
  | left + 1, i, r, h => by
    rw [readElements] at h ⊢
    split at h
    · simp at h
    · rename_i h1
      split at h
      · simp at h
      · rename_i h2
        rw [if_neg h1, if_neg (by rw [List.length_append]; omega)]
        cases hr : readElements data start len stride k left (i + 1) with
        | throws => rw [hr] at h; simp [Outcome.bind] at h
        | ub => rw [hr] at h; simp [Outcome.bind] at h
        | ok r' =>
          rw [hr] at h
          rw [readElements_append left (i + 1) r' hr]
          simp only [Outcome.bind, Outcome.ok.injEq] at h ⊢
          rw [← h, List.drop_append_of_le_length (by omega), List.take_append_of_le_length (by rw [List.length_drop]; omega)]

theorem readView_append {data more : List UInt8} {view : BufferView} {acc : Accessor} {k : Nat} {r : List (List UInt8)}
    (h : readView data view acc k = .ok r) : readView (data ++ more) view acc k = .ok r := by
  unfold readView at h ⊢
  dsimp only at h ⊢
  split at h
  · simp at h
  · rename_i h1
    rw [if_neg (by rw [List.length_append]; omega)]
    split at h
    · simp at h
    · rename_i h2
      rw [if_neg h2]
      exact readElements_append _ _ _ h

theorem at?_append {α : Type} {l more : List α} {id : Int} {a : α} (h : at? l id = some a) : at? (l ++ more) id = some a := by
  unfold at? at h ⊢
  split at h
  · rename_i hi
    rw [if_pos hi, List.getElem?_append_left (List.getElem?_eq_some_iff.mp h).1]
    exact h
  · simp at h

theorem at?_nat {α : Type} (l : List α) (n : Nat) : at? l (n : Int) = l[n]? := by
  unfold at?
  rw [if_pos (by omega), Int.toNat_natCast]

theorem flat_length {α : Type} {k s : Nat} {f : List α → List α} (elems : List (List α)) (hf : ∀ e ∈ elems, (f e).length = s) :
    (elems.flatMap f).length = elems.length * s := by
  induction elems with
  | nil => simp
  | cons e es ih =>
    rw [List.flatMap_cons, List.length_append, hf e (by simp), ih fun x hx => hf x (List.mem_cons_of_mem _ hx), List.length_cons]
    ring

theorem flat_chunk {k p : Nat} {z : UInt8} : ∀ (elems : List (List UInt8)) (_ : ∀ e ∈ elems, e.length = k) (i : Nat) (e : List UInt8),
    elems[i]? = some e → ∀ post : List UInt8, ((elems.flatMap (fun e => e ++ List.replicate p z) ++ post).drop (i * (k + p))).take k = e
  | [], _, i, e, h, _ => by simp at h
  | x :: xs, hk, 0, e, h, post => by
    simp only [List.getElem?_cons_zero, Option.some.injEq] at h
    subst h
    have := hk x (by simp)
    rw [Nat.zero_mul, List.drop_zero, List.flatMap_cons, List.append_assoc, List.append_assoc, ← this, List.take_left]
  | x :: xs, hk, i + 1, e, h, post => by
    rw [List.getElem?_cons_succ] at h
    have hx := hk x (by simp)
    have hl : (x ++ List.replicate p z).length = k + p := by simp [hx]
    rw [List.flatMap_cons, List.append_assoc, Nat.succ_mul, Nat.add_comm, ← List.drop_drop]
    rw [show (x ++ List.replicate p z ++ (xs.flatMap (fun e => e ++ List.replicate p z) ++ post)).drop (k + p) =
      xs.flatMap (fun e => e ++ List.replicate p z) ++ post by rw [← hl, List.drop_left]]
    exact flat_chunk xs (fun y hy => hk y (List.mem_cons_of_mem _ hy)) i e h post

theorem alignedSize_eq (n : Nat) (align : Bool) : alignedSize n align = if align then (n + 3) / 4 * 4 else n := by
  unfold alignedSize
  cases align
  · simp
  · by_cases h : n % 4 = 0
    · rw [if_neg (by simp [h])]
      simp only [if_true]
      omega
    · rw [if_pos ⟨rfl, h⟩]
      simp only [if_true]
      omega

theorem alignedSize_le (n : Nat) (align : Bool) : n ≤ alignedSize n align := by
  rw [alignedSize_eq]
  split <;> omega

theorem size_eq (T : Element) : getTypeSize T.type * getComponentSize T.componentType = (T.size : Int) ∧ 0 < T.size := by
  cases T <;> decide

theorem elementBytes_length {T : Element} {align : Bool} {data : List (List UInt8)} (h : ∀ e ∈ data, e.length = T.size) :
    (elementBytes T.size align data).length = data.length * alignedSize T.size align := by
  unfold elementBytes
  refine flat_length (k := 0) data fun e he => ?_
  have := alignedSize_le T.size align
  rw [List.length_append, List.length_replicate, h e he]
  omega

/-- The first buffer, empty if there is none. -/
def firstData (model : Document) : List UInt8 := (model.buffers.headD ⟨0, []⟩).data

theorem create_first (model : Document) (T : Element) (data : List (List UInt8)) (align normalized : Bool) :
    firstData (createAccessorBuffer model T data align normalized).1 = firstData model ++ elementBytes T.size align data := by
  unfold createAccessorBuffer firstData
  dsimp only
  cases model.buffers <;> rfl

/-- Elements that were stored are read back. -/
theorem read_back {model : Document} {T : Element} {data : List (List UInt8)} {align normalized : Bool} (h : ∀ e ∈ data, e.length = T.size)
    (small : (firstData model).length + data.length * alignedSize T.size align < 2 ^ 32) :
    copyAccessorBuffer T.size (createAccessorBuffer model T data align normalized).1 (model.accessors.length : Int) = .ok data := by
  obtain ⟨hs, hpos⟩ := size_eq T
  have hle := alignedSize_le T.size align
  have hcount : data.length < 2 ^ 32 := by nlinarith
  set old := firstData model with hold
  have hfirst : ((if model.buffers.isEmpty then [⟨0, []⟩] else model.buffers).headD ⟨0, []⟩).data = old := by
    rw [hold, firstData]
    cases model.buffers <;> rfl
  have hb := elementBytes_length (align := align) h
  unfold copyAccessorBuffer createAccessorBuffer
  dsimp only
  rw [at?_nat, List.getElem?_concat_length]
  dsimp only
  rw [if_neg (by simpa using hs), at?_nat, List.getElem?_concat_length]
  dsimp only
  rw [hfirst]
  show readView (old ++ elementBytes T.size align data) _ _ _ = _
  unfold readView
  dsimp only
  rw [Nat.mod_eq_of_lt (show old.length < 2 ^ 32 by omega), Nat.mod_eq_of_lt (show data.length * alignedSize T.size align < 2 ^ 32 by omega),
    Nat.mod_eq_of_lt hcount, if_neg (by rw [List.length_append]; omega), if_neg (by omega)]
  have hstride : (if (if align = true ∧ T.size % 4 ≠ 0 then alignedSize T.size align else 0) = 0 then T.size
      else if align = true ∧ T.size % 4 ≠ 0 then alignedSize T.size align else 0) = alignedSize T.size align := by
    by_cases hc : align = true ∧ T.size % 4 ≠ 0
    · rw [if_pos hc, if_neg (by omega)]
    · rw [if_neg hc, if_pos rfl, alignedSize, if_neg hc]
  rw [hstride, Nat.add_zero, Nat.sub_zero, readElements_ok]
  · congr 1
    apply List.ext_getElem?
    intro i
    rw [List.getElem?_map]
    by_cases hi : i < data.length
    · rw [List.getElem?_range' hi, List.getElem?_eq_getElem hi]
      simp only [Option.map_some, Option.some.injEq]
      rw [Nat.zero_add, Nat.one_mul, ← List.drop_drop, List.drop_left]
      have := flat_chunk (p := alignedSize T.size align - T.size) (z := 0) data h i _ (List.getElem?_eq_getElem hi) []
      rw [List.append_nil, show T.size + (alignedSize T.size align - T.size) = alignedSize T.size align by omega] at this
      exact this
    · rw [List.getElem?_eq_none (by simpa using by omega), List.getElem?_eq_none (by omega)]
      rfl
  · intro j _ hj
    rw [List.length_append, hb]
    have h1 : (j + 1) * alignedSize T.size align ≤ data.length * alignedSize T.size align := Nat.mul_le_mul_right _ (by omega)
    rw [Nat.succ_mul] at h1
    constructor <;> omega

/-- What was read before is read after another call. -/
theorem read_kept {model : Document} {T : Element} {data : List (List UInt8)} {align normalized : Bool} {k : Nat} {id : Int} {r : List (List UInt8)}
    (h : copyAccessorBuffer k model id = .ok r) : copyAccessorBuffer k (createAccessorBuffer model T data align normalized).1 id = .ok r := by
  unfold copyAccessorBuffer at h
  cases ha : at? model.accessors id with
  | none => rw [ha] at h; simp at h
  | some acc =>
    rw [ha] at h
    dsimp only at h
    have ha' : at? (createAccessorBuffer model T data align normalized).1.accessors id = some acc := at?_append ha
    unfold copyAccessorBuffer
    rw [ha']
    dsimp only
    split at h
    · rename_i hm
      rw [if_pos hm]
      exact h
    · rename_i hm
      rw [if_neg hm]
      cases hv : at? model.bufferViews acc.bufferView with
      | none => rw [hv] at h; simp at h
      | some view =>
        have hv' : at? (createAccessorBuffer model T data align normalized).1.bufferViews acc.bufferView = some view := at?_append hv
        rw [hv] at h
        rw [hv']
        dsimp only at h ⊢
        cases hb : at? model.buffers view.buffer with
        | none => rw [hb] at h; simp at h
        | some buf =>
          rw [hb] at h
          dsimp only at h
          unfold createAccessorBuffer
          dsimp only
          cases hbs : model.buffers with
          | nil => rw [hbs] at hb; simp [at?] at hb
          | cons b bs =>
            rw [hbs] at hb
            unfold at? at hb ⊢
            split at hb
            · rename_i hi
              rw [if_pos hi]
              cases hn : view.buffer.toNat with
              | zero =>
                rw [hn] at hb
                simp only [List.getElem?_cons_zero, Option.some.injEq] at hb
                subst hb
                exact readView_append h
              | succ n =>
                rw [hn, List.getElem?_cons_succ] at hb
                simp only [List.isEmpty_cons, Bool.false_eq_true, if_false, List.tail_cons, List.getElem?_cons_succ]
                rw [hb]
                exact h
            · simp at hb

end Momentum.Gltf
