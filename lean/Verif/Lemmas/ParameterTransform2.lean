import Verif.Lemmas.ParameterTransform

namespace Momentum
open ParameterTransform

variable {K : Type} [CommRing K]

/-- Row sum of a matrix-vector product. -/
def rowSum (es : List (Triplet K)) (i : Nat) (f : Nat → K) : K :=
  ((es.filter (·.row == i)).map fun e => e.val * f e.col).sum

theorem mulVec_getElem (A : SparseMat K) (p : List K) (i : Nat) (h : i < A.rows) :
    (A.mulVec p)[i]? = some (rowSum A.entries i fun j => p.getD j 0) := by
  unfold SparseMat.mulVec rowSum
  rw [List.getElem?_map, List.getElem?_range h]; rfl

theorem mulVec_length (A : SparseMat K) (p : List K) : (A.mulVec p).length = A.rows := by
  simp [SparseMat.mulVec]

theorem mulVec_congr (A B : SparseMat K) (p q : List K) (hr : A.rows = B.rows)
    (h : ∀ i, rowSum A.entries i (fun j => p.getD j 0) = rowSum B.entries i (fun j => q.getD j 0)) :
    A.mulVec p = B.mulVec q := by
  unfold SparseMat.mulVec
  rw [hr]
  exact List.map_congr_left fun i _ => h i

theorem rowSum_congr {es : List (Triplet K)} {i : Nat} {f g : Nat → K}
    (h : ∀ e ∈ es, f e.col = g e.col) : rowSum es i f = rowSum es i g := by
  unfold rowSum
  congr 1
  apply List.map_congr_left
  intro e he
  rw [h e (List.mem_filter.mp he).1]

theorem rowSum_cons (e : Triplet K) (es : List (Triplet K)) (i : Nat) (f : Nat → K) :
    rowSum (e :: es) i f = (if e.row = i then e.val * f e.col else 0) + rowSum es i f := by
  unfold rowSum
  by_cases h : e.row = i
  · rw [List.filter_cons_of_pos (by simpa using h), if_pos h]; simp
  · rw [List.filter_cons_of_neg (by simpa using h), if_neg h]; simp

theorem rowSum_add (es : List (Triplet K)) (i : Nat) (f g : Nat → K) :
    rowSum es i (fun j => f j + g j) = rowSum es i f + rowSum es i g := by
  induction es with
  | nil => simp [rowSum]
  | cons e es ih =>
    rw [rowSum_cons, rowSum_cons, rowSum_cons, ih]
    split <;> ring

theorem coeff_cons (r c : Nat) (e : Triplet K) (es : List (Triplet K)) (i j : Nat) :
    SparseMat.coeff ⟨r, c, e :: es⟩ i j
      = (if e.row = i ∧ e.col = j then e.val else 0) + SparseMat.coeff ⟨r, c, es⟩ i j := by
  unfold SparseMat.coeff
  by_cases h : e.row = i ∧ e.col = j
  · rw [List.filter_cons_of_pos (by simpa using h), if_pos h]; simp
  · rw [List.filter_cons_of_neg (by simpa using h), if_neg h]; simp

theorem rowSum_eq_coeff (r c n : Nat) (es : List (Triplet K)) (h : ∀ e ∈ es, e.col < n) (i : Nat)
    (f : Nat → K) :
    rowSum es i f = ∑ j ∈ Finset.range n, SparseMat.coeff ⟨r, c, es⟩ i j * f j := by
  induction es with
  | nil => simp [rowSum, SparseMat.coeff]
  | cons e es ih =>
    rw [rowSum_cons, ih fun e' he' => h e' (List.mem_cons_of_mem _ he')]
    simp only [coeff_cons, add_mul, Finset.sum_add_distrib]
    congr 1
    by_cases hr : e.row = i
    · simp only [hr, true_and, if_true, ite_mul, zero_mul]
      rw [Finset.sum_ite_eq]
      rw [if_pos (Finset.mem_range.mpr (h e List.mem_cons_self))]
    · simp [hr]

theorem zipWith_getElem {α β γ : Type} (f : α → β → γ) (a : List α) (b : List β) (i : Nat) {x : α} {y : β}
    (ha : a[i]? = some x) (hb : b[i]? = some y) : (List.zipWith f a b)[i]? = some (f x y) := by
  simp [List.getElem?_zipWith, ha, hb]

theorem addVec_length (a b : List K) : (addVec a b).length = min a.length b.length := by
  simp [addVec]

theorem subVec_length (a b : List K) : (subVec a b).length = min a.length b.length := by
  simp [subVec]

theorem getElem?_of_lt {α : Type} {l : List α} {i : Nat} (h : i < l.length) : ∃ x, l[i]? = some x :=
  ⟨l[i], List.getElem?_eq_getElem h⟩

theorem addVec_subVec_cancel (a b : List K) (h : a.length = b.length) : addVec b (subVec a b) = a := by
  induction a generalizing b with
  | nil => cases b <;> simp_all [addVec, subVec]
  | cons x a ih =>
    cases b with
    | nil => simp at h
    | cons y b =>
      have := ih b (by simpa using h)
      simp only [addVec, subVec] at this ⊢
      simp only [List.zipWith_cons_cons, List.cons.injEq]
      exact ⟨by ring, this⟩

theorem ext_getElem? {α : Type} {a b : List α} (h1 : a.length = b.length)
    (h2 : ∀ i < a.length, a[i]? = b[i]?) : a = b := by
  apply List.ext_getElem? 
  intro i
  by_cases h : i < a.length
  · exact h2 i h
  · rw [List.getElem?_eq_none (by omega), List.getElem?_eq_none (by omega)]

theorem mapIdx_getD (s : ParameterSet) (p : List K) (j : Nat) :
    (zeroOutside s p).getD j 0 = if s.mem j then p.getD j 0 else 0 := by
  unfold zeroOutside
  rw [List.getD_eq_getElem?_getD, List.getD_eq_getElem?_getD, List.getElem?_mapIdx]
  cases p[j]? <;> simp

theorem filterMap_eq_map_getD {α : Type} (v : List α) (d : α) (l : List Nat) (h : ∀ i ∈ l, i < v.length) :
    l.filterMap (fun i => v[i]?) = l.map fun i => v.getD i d := by
  induction l with
  | nil => rfl
  | cons a l ih =>
    have ha := h a List.mem_cons_self
    rw [List.filterMap_cons, List.getElem?_eq_getElem ha]
    simp only [List.map_cons]
    rw [ih fun i hi => h i (List.mem_cons_of_mem _ hi), List.getD_eq_getElem _ _ ha]

theorem restrictTo_eq_map {α : Type} (s : ParameterSet) (v : List α) (d : α) :
    restrictTo s v = (keptParams s v.length).map fun i => v.getD i d :=
  filterMap_eq_map_getD v d _ fun _ hi => (mem_keptParams.mp hi).1

theorem restrictTo_length {α : Type} (s : ParameterSet) (v : List α) :
    (restrictTo s v).length = (keptParams s v.length).length := by
  cases v with
  | nil => simp [restrictTo, keptParams]
  | cons a v => rw [restrictTo_eq_map s _ a]; simp

theorem restrictTo_getD (s : ParameterSet) (p : List K) {c : Nat} (hc : c < p.length) (hm : s.mem c) :
    (restrictTo s p).getD (rank s c) 0 = p.getD c 0 := by
  rw [restrictTo_eq_map s p 0, List.getD_eq_getElem?_getD, List.getElem?_map, kept_getElem_rank hc hm]
  rfl

theorem renEntry_rowSum (s : ParameterSet) (es : List (Triplet K)) (n : Nat) (hn : ∀ e ∈ es, e.col < n)
    (i : Nat) (f g : Nat → K) (h : ∀ c < n, s.mem c → g (rank s c) = f c) (h0 : ∀ c < n, s.mem c = false → f c = 0) :
    rowSum (es.filterMap (renEntry s)) i g = rowSum es i f := by
  induction es with
  | nil => rfl
  | cons e es ih =>
    have ih := ih fun e' he' => hn e' (List.mem_cons_of_mem _ he')
    have hc := hn e List.mem_cons_self
    rw [rowSum_cons]
    by_cases hm : s.mem e.col
    · have : renEntry s e = some ⟨e.row, rank s e.col, e.val⟩ := by simp [renEntry, ren, hm]
      rw [List.filterMap_cons, this]
      simp only
      rw [rowSum_cons, ih, h _ hc hm]
    · have : renEntry s e = none := by simp [renEntry, ren, hm]
      rw [List.filterMap_cons, this]
      simp only
      rw [ih, h0 _ hc (by simpa using hm)]; simp

end Momentum
