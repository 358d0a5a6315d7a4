import Mathlib.Data.List.Basic
import Mathlib.Data.List.GetD
import Mathlib.Data.List.Zip

/-! Helper lemmas about lists and `mapM`/`foldlM` in `Option`. -/

namespace Momentum

theorem mapM_cons_some {α β : Type} {f : α → Option β} {a : α} {l : List α} {r : List β} :
    (a :: l).mapM f = some r ↔ ∃ b r', f a = some b ∧ l.mapM f = some r' ∧ r = b :: r' := by
  rw [List.mapM_cons]
  cases h1 : f a <;> simp
  cases h2 : l.mapM f <;> simp
  constructor <;> intro h <;> simp [h]

theorem mapM_some_iff {α β : Type} {f : α → Option β} {l : List α} {r : List β} :
    l.mapM f = some r ↔ l.map f = r.map some := by
  induction l generalizing r with
  | nil => cases r <;> simp
  | cons a l ih =>
    rw [mapM_cons_some]
    constructor
    · rintro ⟨b, r', h1, h2, rfl⟩
      simp [h1, ih.mp h2]
    · intro h
      cases r with
      | nil => simp at h
      | cons b r' =>
        simp only [List.map_cons, List.cons.injEq] at h
        exact ⟨b, r', h.1, ih.mpr h.2, rfl⟩

theorem mapM_length {α β : Type} {f : α → Option β} {l : List α} {r : List β}
    (h : l.mapM f = some r) : r.length = l.length := by
  have := congrArg List.length (mapM_some_iff.mp h)
  simpa using this.symm

/-- If a successful `mapM` agrees with a pure function on its successes, it is `map`. -/
theorem mapM_eq_map {α β : Type} {f : α → Option β} {g : α → β} {l : List α} {r : List β}
    (h : l.mapM f = some r) (hg : ∀ a ∈ l, ∀ b, f a = some b → b = g a) : r = l.map g := by
  induction l generalizing r with
  | nil => cases r <;> simp_all
  | cons a l ih =>
    obtain ⟨b, r', h1, h2, rfl⟩ := mapM_cons_some.mp h
    rw [List.map_cons, hg a List.mem_cons_self b h1,
      ih h2 fun a' ha' => hg a' (List.mem_cons_of_mem _ ha')]

theorem mapM_of_forall {α β : Type} {f : α → Option β} {g : α → β} {l : List α}
    (hg : ∀ a ∈ l, f a = some (g a)) : l.mapM f = some (l.map g) := by
  rw [mapM_some_iff, List.map_map]
  apply List.map_congr_left
  intro a ha
  simp [hg a ha]

theorem mapM_mem {α β : Type} {f : α → Option β} {l : List α} {r : List β}
    (h : l.mapM f = some r) {a : α} (ha : a ∈ l) : ∃ b ∈ r, f a = some b := by
  induction l generalizing r with
  | nil => simp at ha
  | cons c l ih =>
    obtain ⟨b, r', h1, h2, rfl⟩ := mapM_cons_some.mp h
    rcases List.mem_cons.mp ha with rfl | ha
    · exact ⟨b, List.mem_cons_self, h1⟩
    · obtain ⟨b', hb', h'⟩ := ih h2 ha
      exact ⟨b', List.mem_cons_of_mem _ hb', h'⟩

theorem filterMap_id_map {α β : Type} (l : List α) (g : α → Option β) :
    (l.map g).filterMap id = l.filterMap g := by
  induction l with
  | nil => rfl
  | cons a l ih =>
    cases h : g a <;> simp [h, ih]

end Momentum
