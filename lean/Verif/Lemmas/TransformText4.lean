import Verif.Lemmas.TransformText3

/-! Helper lemmas for C85: the meaning of definitions as equations, and runs that do not end. -/

namespace Momentum.TransformText

open LimitsText (getLines withoutComment jointParameterNames)

section
variable {K : Type} [CommRing K] {sk : Skeleton K} {read : List Char → Option K}

theorem term_run_other (v : List Char → K) {row r : Nat} (h : r ≠ row) (x : Nat → K) (t : Term K) : t.run v row x r = x r := by
  cases t <;> simp [Term.run, h]

theorem terms_run_other (v : List Char → K) {row r : Nat} (h : r ≠ row) (ts : List (Term K)) (x : Nat → K) :
    ts.foldl (Term.run v row) x r = x r := by
  induction ts generalizing x with
  | nil => rfl
  | cons t ts ih => rw [List.foldl_cons, ih, term_run_other v h]

/-- A summand without its constant. -/
def Term.linear (v : List Char → K) (y : Nat → K) : Term K → K
  | .const _ => 0
  | .param w n => w * v n
  | .ref w j a => w * y (7 * j + a)

theorem term_run_own (v : List Char → K) (row : Nat) (x : Nat → K) (t : Term K) : t.run v row x row = x row + t.linear v x := by
  cases t <;> simp [Term.run, Term.linear]

theorem terms_run_own (v : List Char → K) (row : Nat) {ts : List (Term K)} (h : ∀ w j a, Term.ref w j a ∈ ts → 7 * j + a ≠ row)
    (x : Nat → K) : ts.foldl (Term.run v row) x row = x row + (ts.map (Term.linear v x)).sum := by
  induction ts generalizing x with
  | nil => simp
  | cons t ts ih =>
    rw [List.foldl_cons, ih fun w j a hm => h w j a (List.mem_cons_of_mem _ hm), term_run_own, List.map_cons, List.sum_cons]
    have : ts.map (Term.linear v (t.run v row x)) = ts.map (Term.linear v x) := by
      refine List.map_congr_left fun u hu => ?_
      cases u with
      | const c => rfl
      | param w n => rfl
      | ref w j a =>
        simp only [Term.linear]
        rw [term_run_other v (h w j a (List.mem_cons_of_mem _ hu))]
    rw [this]
    ring

theorem defs_run_other (v : List Char → K) {r : Nat} {defs : List (Definition K)} (h : ∀ d ∈ defs, d.target ≠ r) (x : Nat → K) :
    defs.foldl (Definition.run v) x r = x r := by
  induction defs generalizing x with
  | nil => rfl
  | cons d ds ih =>
    rw [List.foldl_cons, ih fun e he => h e (List.mem_cons_of_mem _ he)]
    exact terms_run_other v (fun e => h d (by simp) e.symm) _ _

theorem terms_constant_other {row r : Nat} (h : r ≠ row) (ts : List (Term K)) (o : Nat → K) :
    ts.foldl (Term.constant row) o r = o r := by
  induction ts generalizing o with
  | nil => rfl
  | cons t ts ih =>
    rw [List.foldl_cons, ih]
    cases t <;> simp [Term.constant, h]

theorem terms_constant_none {row : Nat} {ts : List (Term K)} (h : ts.filterMap Term.const? = []) (o : Nat → K) :
    ts.foldl (Term.constant row) o = o := by
  induction ts generalizing o with
  | nil => rfl
  | cons t ts ih =>
    cases t with
    | const c => simp [Term.const?] at h
    | param w n =>
      rw [List.foldl_cons]
      exact ih (by simpa [Term.const?] using h) _
    | ref w j a =>
      rw [List.foldl_cons]
      exact ih (by simpa [Term.const?] using h) _

theorem terms_constant_one {row : Nat} {ts : List (Term K)} (h : (ts.filterMap Term.const?).length ≤ 1) (o : Nat → K) (ho : o row = 0) :
    ts.foldl (Term.constant row) o row = (ts.filterMap Term.const?).sum := by
  induction ts generalizing o with
  | nil => simpa using ho
  | cons t ts ih =>
    cases t with
    | const c =>
      have h1 : ts.filterMap Term.const? = [] := by
        change (c :: ts.filterMap Term.const?).length ≤ 1 at h
        rw [List.length_cons] at h
        exact List.eq_nil_of_length_eq_zero (by omega)
      rw [List.foldl_cons, terms_constant_none h1]
      simp [Term.const?, Term.constant, h1]
    | param w n =>
      rw [List.foldl_cons]
      exact ih h _ ho
    | ref w j a =>
      rw [List.foldl_cons]
      exact ih h _ ho

theorem defs_constant_other {r : Nat} {defs : List (Definition K)}
    (h : ∀ d ∈ defs, d.target = r → d.terms.filterMap Term.const? = []) (o : Nat → K) :
    defs.foldl Definition.constants o r = o r := by
  induction defs generalizing o with
  | nil => rfl
  | cons d ds ih =>
    rw [List.foldl_cons, ih fun e he => h e (List.mem_cons_of_mem _ he)]
    by_cases e : d.target = r
    · simp only [Definition.constants]
      rw [terms_constant_none (h d (by simp) e)]
    · exact terms_constant_other (fun x => e x.symm) _ _

theorem sum_value (v : List Char → K) (y : Nat → K) (ts : List (Term K)) :
    (ts.map (Term.value v y)).sum = (ts.map (Term.linear v y)).sum + (ts.filterMap Term.const?).sum := by
  induction ts with
  | nil => simp
  | cons t ts ih =>
    cases t <;> simp only [List.map_cons, List.sum_cons, ih, Term.value, Term.linear, Term.const?, List.filterMap_cons] <;> ring

/-- Equational definitions hold as equations. -/
theorem equation_holds (v : List Char → K) {defs : List (Definition K)} (h : Equational defs) {d : Definition K} (hd : d ∈ defs) :
    linearPart v defs d.target + constantPart defs d.target =
      (d.terms.map (Term.value v fun r => linearPart v defs r + constantPart defs r)).sum := by
  obtain ⟨pre, post, rfl⟩ := List.append_of_mem hd
  obtain ⟨h1, h2, h3⟩ := h pre d post rfl
  have hpre : ∀ e ∈ pre, e.target ≠ d.target := by
    intro e he
    obtain ⟨p1, p2, rfl⟩ := List.append_of_mem he
    obtain ⟨g1, _, _⟩ := h p1 e (p2 ++ d :: post) (by simp)
    exact fun x => g1 d (by simp) x.symm
  have hx0 : pre.foldl (Definition.run v) (fun _ => 0) d.target = 0 := defs_run_other v hpre _
  have ho0 : pre.foldl Definition.constants (fun _ => (0 : K)) d.target = 0 :=
    defs_constant_other (fun e he hx => absurd hx (hpre e he)) _
  have hl : linearPart v (pre ++ d :: post) d.target =
      (d.terms.map (Term.linear v (pre.foldl (Definition.run v) fun _ => 0))).sum := by
    rw [linearPart, List.foldl_append, List.foldl_cons, defs_run_other v h1, Definition.run,
      terms_run_own v _ (fun w j a hm e => (h3 w j a hm).1 d (by simp) e.symm), hx0, zero_add]
  have hc : constantPart (pre ++ d :: post) d.target = (d.terms.filterMap Term.const?).sum := by
    rw [constantPart, List.foldl_append, List.foldl_cons,
      defs_constant_other (fun e he hx => absurd hx (h1 e he)), Definition.constants, terms_constant_one h2 _ ho0]
  rw [sum_value, hl, hc]
  congr 2
  refine List.map_congr_left fun t ht => ?_
  cases t with
  | const c => rfl
  | param w n => rfl
  | ref w j a =>
    obtain ⟨g1, g2⟩ := h3 w j a ht
    have e1 : linearPart v (pre ++ d :: post) (7 * j + a) = pre.foldl (Definition.run v) (fun _ => 0) (7 * j + a) := by
      rw [linearPart, List.foldl_append, defs_run_other v g1]
    have e2 : constantPart (pre ++ d :: post) (7 * j + a) = 0 := by
      rw [constantPart, defs_constant_other]
      intro e he hx
      rcases List.mem_append.mp he with he | he
      · exact g2 e he hx
      · exact absurd hx (g1 e he)
    simp only [Term.linear, e1, e2, add_zero]

/-- Joint parameters without definition are zero. -/
theorem undefined_zero (v : List Char → K) {defs : List (Definition K)} {r : Nat} (h : ∀ d ∈ defs, d.target ≠ r) :
    linearPart v defs r + constantPart defs r = 0 := by
  rw [linearPart, constantPart, defs_run_other v h, defs_constant_other (fun e he hx => absurd hx (h e he)), add_zero]

theorem Equational.noSelf {defs : List (Definition K)} (h : Equational defs) : NoSelfReference defs := by
  intro d hd w j a hm e
  obtain ⟨pre, post, rfl⟩ := List.append_of_mem hd
  exact ((h pre d post rfl).2.2 w j a hm).1 d (by simp) e.symm

theorem addName_nodup {names : List (List Char)} (h : names.Nodup) (ns : List (List Char)) : (ns.foldl addName names).Nodup := by
  induction ns generalizing names with
  | nil => exact h
  | cons n ns ih =>
    refine ih ?_
    unfold addName
    split
    · exact h
    · next hn => exact List.nodup_append.mpr ⟨h, by simp, by
        intro a ha b hb
        rw [List.mem_singleton.mp hb]
        intro e
        exact hn (e ▸ ha)⟩

theorem mem_addName {names ns : List (List Char)} {n : List Char} : n ∈ ns.foldl addName names ↔ n ∈ names ∨ n ∈ ns := by
  induction ns generalizing names with
  | nil => simp
  | cons m ns ih =>
    rw [List.foldl_cons, ih]
    unfold addName
    split
    · next hm =>
      rw [List.mem_cons]
      constructor
      · rintro (h | h)
        · exact Or.inl h
        · exact Or.inr (Or.inr h)
      · rintro (h | rfl | h)
        · exact Or.inl h
        · exact Or.inl hm
        · exact Or.inr h
    · rw [List.mem_append, List.mem_singleton, List.mem_cons, or_assoc]

theorem activeAfter_getElem? (defs : List (Definition K)) (b : List Bool) (r : Nat) (hr : r < b.length) :
    (activeAfter b defs)[r]? = some (b[r] || decide (∃ d ∈ defs, d.target = r)) := by
  induction defs generalizing b with
  | nil => simp [activeAfter]
  | cons d ds ih =>
    have := ih (b.set d.target true) (by simpa using hr)
    rw [show activeAfter b (d :: ds) = activeAfter (b.set d.target true) ds from rfl, this, List.getElem_set]
    by_cases e : d.target = r
    · simp [e]
    · simp [e]

end
end Momentum.TransformText
