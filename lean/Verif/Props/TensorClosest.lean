import Verif.Model.TensorClosest
import Verif.Spec.KdTree
import Verif.Lemmas.KdTree

/-!
# C99: closest points of tensors
-/

namespace Momentum.TensorClosest
variable {K : Type} [Field K] [LinearOrder K] {n : Nat}

/-- The result for a source point is right: the index of a closest target point of its own element of the batch strictly within the distance, and that point; or -1,
which is not valid, and zeros, if there is none. -/
def RightFor (res : Results K n) (target : List (Fin n → K)) (p : Fin n → K) (maxSqrDist : K) (b k : Nat) : Prop :=
  (valid res b k = true ∧ ∃ (i : Nat) (q : Fin n → K), target[i]? = some q ∧ res b k = ((i : Int), q) ∧ kdSqDist q p < maxSqrDist ∧
    ∀ q' ∈ target, kdSqDist q p ≤ kdSqDist q' p) ∨
  (valid res b k = false ∧ res b k = (-1, fun _ => 0) ∧ ∀ q ∈ target, maxSqrDist ≤ kdSqDist q p)

theorem step_ok {search : List (Fin n → K) → (Fin n → K) → K → KdBest K} {m : K} (hs : ∀ t p, IsClosestPoint t (fun _ => True) p m (search t p m))
    {source target : List (List (Fin n → K))} (res : Results K n) {b k : Nat} {s t : List (Fin n → K)} {p : Fin n → K} (h1 : source[b]? = some s)
    (h2 : target[b]? = some t) (h3 : s[k]? = some p) :
    ∃ v, step search m source target res b k = .ok (write res b k v) ∧ ∀ r : Results K n, r b k = v → RightFor r t p m b k := by
  unfold step
  rw [h1, h2]
  dsimp only
  rw [h3]
  dsimp only
  rcases hs t p with ⟨h4, _, h6⟩ | ⟨i, q, h4, h5, _, h6, h7, h8⟩
  · rw [h4]
    refine ⟨_, rfl, fun r hr => Or.inr ⟨by simp [valid, hr], hr, ?_⟩⟩
    intro q hq
    obtain ⟨i, hi⟩ := List.getElem?_of_mem hq
    exact h6 i q hi trivial
  · rw [h4]
    dsimp only
    rw [h5]
    refine ⟨_, rfl, fun r hr => Or.inl ⟨by simp [valid, hr], i, q, h5, hr, h6 ▸ h7, ?_⟩⟩
    intro q' hq'
    obtain ⟨j, hj⟩ := List.getElem?_of_mem hq'
    exact h6 ▸ h8 j q' hj trivial

theorem steps_ok {search : List (Fin n → K) → (Fin n → K) → K → KdBest K} {m : K} (hs : ∀ t p, IsClosestPoint t (fun _ => True) p m (search t p m))
    {source target : List (List (Fin n → K))} : ∀ (js : List (Nat × Nat)) (res : Results K n),
    (∀ j ∈ js, ∃ s t p, source[j.1]? = some s ∧ target[j.1]? = some t ∧ s[j.2]? = some p) →
    ∃ r, steps search m source target js res = .ok r ∧
      ∀ (b k : Nat) (s t : List (Fin n → K)) (p : Fin n → K), source[b]? = some s → target[b]? = some t → s[k]? = some p →
        ((b, k) ∈ js ∨ RightFor res t p m b k) → RightFor r t p m b k
  | [], res, _ => ⟨res, rfl, fun b k s t p _ _ _ h => by simpa using h⟩
  | j :: js, res, hj => by
    obtain ⟨s, t, p, h1, h2, h3⟩ := hj j (by simp)
    obtain ⟨v, hv, hr⟩ := step_ok hs res h1 h2 h3
    obtain ⟨r, h4, h5⟩ := steps_ok hs js (write res j.1 j.2 v) fun x hx => hj x (List.mem_cons_of_mem _ hx)
    refine ⟨r, ?_, ?_⟩
    · rw [steps, hv]
      exact h4
    · intro b k s' t' p' g1 g2 g3 hor
      refine h5 b k s' t' p' g1 g2 g3 ?_
      by_cases hbk : (b, k) = j
      · right
        subst hbk
        rw [h1] at g1
        rw [h2] at g2
        obtain rfl := Option.some.inj g1
        obtain rfl := Option.some.inj g2
        rw [h3] at g3
        obtain rfl := Option.some.inj g3
        exact hr _ (by simp [write])
      · rcases hor with hm | hright
        · rcases List.mem_cons.mp hm with h6 | h6
          · exact absurd h6 hbk
          · exact Or.inl h6
        · right
          have hne : ¬ (b = j.1 ∧ k = j.2) := fun h => hbk (Prod.ext h.1 h.2)
          have he : write res j.1 j.2 v b k = res b k := by simp [write, hne]
          unfold RightFor valid at hright ⊢
          rw [he]
          exact hright

/-- **C99** (closest). For points of two or three dimensions, with a search as in C45: in whatever order the steps are taken, every source point is given a closest
target point of its own element of the batch within the distance, or is marked as having none if there is none. -/
theorem C99_closest_partial {search : List (Fin n → K) → (Fin n → K) → K → KdBest K} {fltMax maxDist : K} (hn : n = 2 ∨ n = 3)
    (hs : ∀ m t p, IsClosestPoint t (fun _ => True) p m (search t p m)) {source target : List (List (Fin n → K))} (hl : source.length = target.length)
    {order : List (Nat × Nat)} (ho : ∀ b k : Nat, (b, k) ∈ order ↔ ∃ s, source[b]? = some s ∧ k < s.length) :
    ∃ res, findClosestPoints search fltMax maxDist source target order = .ok res ∧
      ∀ (b k : Nat) (s t : List (Fin n → K)) (p : Fin n → K), source[b]? = some s → target[b]? = some t → s[k]? = some p →
        RightFor res t p (if maxDist = fltMax then fltMax else maxDist * maxDist) b k := by
  unfold findClosestPoints
  dsimp only
  rw [if_pos hn]
  have hj : ∀ j ∈ order, ∃ s t p, source[j.1]? = some s ∧ target[j.1]? = some t ∧ s[j.2]? = some p := by
    rintro ⟨b, k⟩ hj
    obtain ⟨s, g1, g2⟩ := (ho b k).mp hj
    have hb := (List.getElem?_eq_some_iff.mp g1).1
    exact ⟨s, target[b]'(hl ▸ hb), s[k], g1, List.getElem?_eq_getElem _, List.getElem?_eq_getElem g2⟩
  obtain ⟨r, h1, h2⟩ := steps_ok (hs (if maxDist = fltMax then fltMax else maxDist * maxDist)) order zeros hj
  refine ⟨r, h1, fun b k s t p g1 g2 g3 => h2 b k s t p g1 g2 g3 (Or.inl ?_)⟩
  exact (ho b k).mpr ⟨s, g1, (List.getElem?_eq_some_iff.mp g3).1⟩

/-- **C99** (negated in part): for points of any other number of dimensions every source point is said to have a valid closest point, with index 0 and all
coordinates zero, whatever the points and the distance are. -/
theorem C99_dimension_counterexample (search : List (Fin n → K) → (Fin n → K) → K → KdBest K) (fltMax maxDist : K) (hn : n ≠ 2 ∧ n ≠ 3)
    (source target : List (List (Fin n → K))) (order : List (Nat × Nat)) :
    ∃ res, findClosestPoints search fltMax maxDist source target order = .ok res ∧ ∀ b k, valid res b k = true ∧ res b k = (0, fun _ => 0) := by
  unfold findClosestPoints
  dsimp only
  rw [if_neg (by simp [hn])]
  exact ⟨zeros, rfl, fun b k => ⟨by simp [valid, zeros], rfl⟩⟩

/-- **C99** (negated in part): a negative distance is the same as a positive one. -/
theorem C99_negative (search : List (Fin n → K) → (Fin n → K) → K → KdBest K) (fltMax maxDist : K) (h1 : maxDist ≠ fltMax) (h2 : -maxDist ≠ fltMax)
    (source target : List (List (Fin n → K))) (order : List (Nat × Nat)) :
    findClosestPoints search fltMax (-maxDist) source target order = findClosestPoints search fltMax maxDist source target order := by
  unfold findClosestPoints
  simp [h1, h2]

/-- A search that tries all points. -/
def scan (t : List (Fin n → K)) (p : Fin n → K) (m : K) : KdBest K :=
  (t.zipIdx.foldl (fun (best : KdBest K) e => if kdSqDist e.1 p < best.2 then (some e.2, kdSqDist e.1 p) else best) (none, m))

theorem scan_closest (t : List (Fin n → K)) (p : Fin n → K) (m : K) : IsClosestPoint t (fun _ => True) p m (scan t p m) := by
  have key : ∀ (l done : List (Fin n → K)) (best : KdBest K), IsClosestPoint done (fun _ => True) p m best →
      IsClosestPoint (done ++ l) (fun _ => True) p m ((l.zipIdx done.length).foldl (fun (best : KdBest K) e =>
        if kdSqDist e.1 p < best.2 then (some e.2, kdSqDist e.1 p) else best) best) := by
    intro l
    induction l with
    | nil => intro done best h; simpa using h
    | cons x l ih =>
      intro done best h
      rw [List.zipIdx_cons, List.foldl_cons]
      have hstep : IsClosestPoint (done ++ [x]) (fun _ => True) p m (if kdSqDist x p < best.2 then (some done.length, kdSqDist x p) else best) := by
        have hget : ∀ (i : Nat) (q : Fin n → K), (done ++ [x])[i]? = some q → done[i]? = some q ∨ q = x := by
          intro i q hi
          rw [List.getElem?_append] at hi
          split at hi
          · exact Or.inl hi
          · have := List.mem_of_getElem? hi
            exact Or.inr (by simpa using this)
        split
        · rename_i hlt
          have hbm : best.2 ≤ m := by
            rcases h with ⟨_, h, _⟩ | ⟨_, _, _, _, _, _, h, _⟩
            · exact h.le
            · exact h.le
          refine Or.inr ⟨done.length, x, rfl, by simp, trivial, rfl, hlt.trans_le hbm, ?_⟩
          intro j q hj _
          rcases hget j q hj with h5 | h5
          · refine hlt.le.trans ?_
            rcases h with ⟨_, h, h'⟩ | ⟨_, _, _, _, _, _, _, h'⟩
            · rw [h]
              exact h' j q h5 trivial
            · exact h' j q h5 trivial
          · rw [h5]
        · rename_i hlt
          rw [not_lt] at hlt
          rcases h with ⟨h1, h2, h3⟩ | ⟨i, q, h1, h2, _, h4, h5, h6⟩
          · refine Or.inl ⟨h1, h2, fun j q hj _ => ?_⟩
            rcases hget j q hj with h7 | h7
            · exact h3 j q h7 trivial
            · rw [h7, ← h2]
              exact hlt
          · refine Or.inr ⟨i, q, h1, ?_, trivial, h4, h5, fun j q' hj _ => ?_⟩
            · rw [List.getElem?_append_left (List.getElem?_eq_some_iff.mp h2).1]
              exact h2
            · rcases hget j q' hj with h7 | h7
              · exact h6 j q' h7 trivial
              · rw [h7]
                exact hlt
      have := ih (done ++ [x]) _ hstep
      simpa using this
  have h := key t [] (none, m) (Or.inl ⟨rfl, rfl, by simp⟩)
  simpa [scan] using h

/-- Two batches of points in the plane, with steps out of order: closest points within distance two. -/
example : (match findClosestPoints (scan (K := ℚ) (n := 2)) 1000 2 [[![0, 0], ![5, 5]], [![1, 1], ![0, 0]]] [[![1, 0], ![5, 4]], [![9, 9], ![0, 1]]]
      [(1, 1), (0, 0), (1, 0), (0, 1)] with
    | .ok r => [(r 0 0).1, (r 0 1).1, (r 1 0).1, (r 1 1).1]
    | _ => []) = [0, 1, 1, 1] ∧
    (match findClosestPoints (scan (K := ℚ) (n := 2)) 1000 (1 / 2) [[![0, 0]]] [[![1, 0]]] [(0, 0)] with
    | .ok r => [(r 0 0).1]
    | _ => []) = [-1] := by decide +kernel

example (order : List (Nat × Nat)) (ho : order = [(1, 1), (0, 0), (1, 0), (0, 1)]) (b k : Nat) : (b, k) ∈ order ↔
    ∃ s, ([[![0, 0], ![5, 5]], [![1, 1], ![0, 0]]] : List (List (Fin 2 → ℚ)))[b]? = some s ∧ k < s.length := by
  subst ho
  match b with
  | 0 => simp; omega
  | 1 => simp; omega
  | b + 2 => simp

end Momentum.TensorClosest
