import Verif.Model.GltfRoots
import Verif.Spec.GltfRoots
import Mathlib.Data.List.Infix

/-!
# Lemmas on the roots of skins
-/

namespace Momentum.Gltf

/-- A node, its parent, and so on to the top. -/
def Path (parents : List (Option Nat)) : List Nat → Prop
  | [] => True
  | n :: l => parents[n]? = some l.head? ∧ Path parents l

theorem andThen_ok {α β : Type} {x : Option (Outcome α)} {f : α → Option (Outcome β)} {b : β} (h : andThen x f = some (.ok b)) :
    ∃ a, x = some (.ok a) ∧ f a = some (.ok b) := by
  cases x with
  | none => simp [andThen] at h
  | some o =>
    cases o with
    | ok a => exact ⟨a, rfl, h⟩
    | throws => simp [andThen] at h
    | ub => simp [andThen] at h

theorem climb_path {parents : List (Option Nat)} : ∀ (fuel : Nat) (n : Option Nat) (l : List Nat), climb parents fuel n = some (.ok l) →
    Path parents l ∧ l.head? = n
  | fuel, none, l, h => by
    cases fuel <;> simp only [climb, Option.some.injEq, Outcome.ok.injEq] at h <;> subst h <;> exact ⟨trivial, rfl⟩
  | 0, some n, l, h => by simp [climb] at h
  | fuel + 1, some n, l, h => by
    rw [climb] at h
    cases hp : parents[n]? with
    | none => rw [hp] at h; simp at h
    | some p =>
      rw [hp] at h
      obtain ⟨l', h1, h2⟩ := andThen_ok h
      simp only [Option.some.injEq, Outcome.ok.injEq] at h2
      subst h2
      obtain ⟨h3, h4⟩ := climb_path fuel p l' h1
      exact ⟨⟨by rw [hp, h4], h3⟩, rfl⟩

theorem path_unique {parents : List (Option Nat)} : ∀ (l l' : List Nat), Path parents l → Path parents l' → l.head? = l'.head? → l = l'
  | [], [], _, _, _ => rfl
  | [], _ :: _, _, _, h => by simp at h
  | _ :: _, [], _, _, h => by simp at h
  | n :: l, m :: l', h1, h2, h => by
    simp only [List.head?_cons, Option.some.injEq] at h
    subst h
    have := h1.1.symm.trans h2.1
    rw [path_unique l l' h1.2 h2.2 (Option.some.inj this)]

theorem path_suffix {parents : List (Option Nat)} {d : Nat} : ∀ (l : List Nat), Path parents l → d ∈ l → ∃ t, (d :: t) <:+ l ∧ Path parents (d :: t)
  | [], _, h => by simp at h
  | n :: l, hp, h => by
    rcases List.mem_cons.mp h with rfl | h
    · exact ⟨l, List.suffix_refl _, hp⟩
    · obtain ⟨t, h1, h2⟩ := path_suffix l hp.2 h
      exact ⟨t, h1.trans (List.suffix_cons _ _), h2⟩

theorem path_of_suffix {parents : List (Option Nat)} : ∀ (l t : List Nat), Path parents l → t <:+ l → Path parents t
  | [], t, _, h => by rw [List.suffix_nil.mp h]; trivial
  | n :: l, t, hp, h => by
    rcases List.suffix_cons_iff.mp h with rfl | h
    · exact hp
    · exact path_of_suffix l t hp.2 h

theorem Above.trans {parents : List (Option Nat)} {a b c : Nat} (h : Above parents a b) (h' : Above parents b c) : Above parents a c := by
  induction h' with
  | self => exact h
  | step _ hc ih => exact Above.step ih hc

theorem path_above {parents : List (Option Nat)} : ∀ (l : List Nat) (n : Nat), Path parents (n :: l) → ∀ x ∈ n :: l, Above parents x n
  | [], n, _, x, hx => by
    rw [List.mem_singleton] at hx
    subst hx
    exact Above.self
  | m :: l, n, hp, x, hx => by
    rcases List.mem_cons.mp hx with rfl | hx
    · exact Above.self
    · exact Above.step (path_above l m hp.2 x hx) hp.1

theorem above_path {parents : List (Option Nat)} {x n : Nat} (h : Above parents x n) : ∀ l, Path parents (n :: l) → x ∈ n :: l := by
  induction h with
  | self => intro l _; simp
  | step _ hc ih =>
    intro l hp
    have h1 := Option.some.inj (hc.symm.trans hp.1)
    cases l with
    | nil => simp at h1
    | cons m l =>
      simp only [List.head?_cons, Option.some.injEq] at h1
      subst h1
      exact List.mem_cons_of_mem _ (ih l hp.2)

theorem climb_mem {parents : List (Option Nat)} {fuel n : Nat} {l : List Nat} (h : climb parents fuel (some n) = some (.ok l)) (x : Nat) :
    x ∈ l ↔ Above parents x n := by
  obtain ⟨h1, h2⟩ := climb_path fuel (some n) l h
  cases l with
  | nil => simp at h2
  | cons m l =>
    simp only [List.head?_cons, Option.some.injEq] at h2
    subst h2
    exact ⟨path_above l m h1 x, fun ha => above_path ha l h1⟩

theorem lastCommon_eq : ∀ (R1 R2 : List Nat) (found : Option Nat), ∃ Q, Q <+: R1 ∧ Q <+: R2 ∧ (∀ P, P <+: R1 → P <+: R2 → P <+: Q) ∧
    lastCommon R1 R2 found = (Q.getLast?).or found
  | [], R2, found => ⟨[], by simp, by simp, fun P h _ => h, by simp [lastCommon]⟩
  | a :: as, [], found => ⟨[], by simp, by simp, fun P _ h => h, by simp [lastCommon]⟩
  | a :: as, b :: bs, found => by
    rw [lastCommon]
    split
    · rename_i h
      subst h
      obtain ⟨Q, h1, h2, h3, h4⟩ := lastCommon_eq as bs (some a)
      refine ⟨a :: Q, by simpa using h1, by simpa using h2, ?_, ?_⟩
      · intro P p1 p2
        cases P with
        | nil => simp
        | cons p P =>
          rw [List.cons_prefix_cons] at p1 p2 ⊢
          exact ⟨p1.1, h3 P p1.2 p2.2⟩
      · rw [h4]
        cases hq : Q.getLast? with
        | none =>
          rw [List.getLast?_eq_none_iff] at hq
          simp [hq]
        | some c => rw [List.getLast?_cons, hq]; simp
    · rename_i h
      refine ⟨[], by simp, by simp, ?_, by simp⟩
      intro P p1 p2
      cases P with
      | nil => simp
      | cons p P =>
        rw [List.cons_prefix_cons] at p1 p2
        exact absurd (p1.1.symm.trans p2.1) h

/-- The closest common ancestor. -/
theorem common_ok {parents : List (Option Nat)} {fuel a b : Nat} {c : Option Nat} (h : findClosestCommonAncestor parents fuel a b = some (.ok c)) :
    match c with
    | none => ∀ d, Above parents d a → ¬ Above parents d b
    | some c => Above parents c a ∧ Above parents c b ∧ ∀ d, Above parents d a → Above parents d b → Above parents d c := by
  unfold findClosestCommonAncestor at h
  obtain ⟨l1, h1, h⟩ := andThen_ok h
  obtain ⟨l2, h2, h⟩ := andThen_ok h
  simp only [Option.some.injEq, Outcome.ok.injEq] at h
  obtain ⟨Q, q1, q2, q3, q4⟩ := lastCommon_eq l1.reverse l2.reverse none
  rw [q4, Option.or_none] at h
  have p1 := (climb_path _ _ _ h1).1
  have p2 := (climb_path _ _ _ h2).1
  have hmem : ∀ d, Above parents d a → Above parents d b → d ∈ Q := by
    intro d da db
    obtain ⟨t, t1, t2⟩ := path_suffix l1 p1 ((climb_mem h1 d).mpr da)
    obtain ⟨t', t1', t2'⟩ := path_suffix l2 p2 ((climb_mem h2 d).mpr db)
    rw [path_unique _ _ t2' t2 rfl] at t1'
    have := q3 (d :: t).reverse (List.reverse_prefix.mpr t1) (List.reverse_prefix.mpr t1')
    exact this.subset (by simp)
  cases c with
  | none =>
    rw [List.getLast?_eq_none_iff] at h
    intro d da db
    have := hmem d da db
    rw [h] at this
    simp at this
  | some c =>
    have hc : c ∈ Q := List.mem_of_getLast? h
    refine ⟨(climb_mem h1 c).mp (by simpa using q1.subset hc), (climb_mem h2 c).mp (by simpa using q2.subset hc), ?_⟩
    intro d da db
    have hs : Q.reverse <:+ l1 := by
      rw [← List.reverse_prefix, List.reverse_reverse]
      exact q1
    have hp := path_of_suffix _ _ p1 hs
    have hhead : Q.reverse.head? = some c := by rw [List.head?_reverse]; exact h
    cases hq : Q.reverse with
    | nil => rw [hq] at hhead; simp at hhead
    | cons m t =>
      rw [hq] at hhead hp
      simp only [List.head?_cons, Option.some.injEq] at hhead
      subst hhead
      refine path_above t m hp d ?_
      rw [← hq, List.mem_reverse]
      exact hmem d da db

theorem mergeJoint_ok {parents : List (Option Nat)} {fuel joint : Nat} : ∀ (roots out : List Nat), mergeJoint parents fuel joint roots = some (.ok out) →
    (∀ r ∈ roots, ∃ r' ∈ out, Above parents r' r) ∧ (∃ r' ∈ out, Above parents r' joint) ∧
    (∀ r' ∈ out, Above parents r' joint ∨ r' ∈ roots) ∧
    (roots.Pairwise (Apart parents) → out.Pairwise (Apart parents))
  | [], out, h => by
    simp only [mergeJoint, Option.some.injEq, Outcome.ok.injEq] at h
    subst h
    exact ⟨by simp, ⟨joint, by simp, Above.self⟩, by simp [Above.self], by simp⟩
  | r :: rs, out, h => by
    rw [mergeJoint] at h
    obtain ⟨c, h1, h2⟩ := andThen_ok h
    have hc := common_ok h1
    cases c with
    | some c =>
      simp only [Option.some.injEq, Outcome.ok.injEq] at h2
      subst h2
      obtain ⟨c1, c2, c3⟩ := hc
      refine ⟨?_, ⟨c, by simp, c1⟩, ?_, ?_⟩
      · intro x hx
        rcases List.mem_cons.mp hx with rfl | hx
        · exact ⟨c, by simp, c2⟩
        · exact ⟨x, List.mem_cons_of_mem _ hx, Above.self⟩
      · intro x hx
        rcases List.mem_cons.mp hx with rfl | hx
        · exact Or.inl c1
        · exact Or.inr (List.mem_cons_of_mem _ hx)
      · intro hp
        rw [List.pairwise_cons] at hp ⊢
        exact ⟨fun x hx d dc dx => hp.1 x hx d (dc.trans c2) dx, hp.2⟩
    | none =>
      dsimp only at h2
      obtain ⟨rs', h3, h4⟩ := andThen_ok h2
      simp only [Option.some.injEq, Outcome.ok.injEq] at h4
      subst h4
      obtain ⟨i1, ⟨y, hy, hyj⟩, i3, i4⟩ := mergeJoint_ok rs rs' h3
      refine ⟨?_, ⟨y, List.mem_cons_of_mem _ hy, hyj⟩, ?_, ?_⟩
      · intro x hx
        rcases List.mem_cons.mp hx with rfl | hx
        · exact ⟨x, by simp, Above.self⟩
        · obtain ⟨r', h5, h6⟩ := i1 x hx
          exact ⟨r', List.mem_cons_of_mem _ h5, h6⟩
      · intro x hx
        rcases List.mem_cons.mp hx with rfl | hx
        · exact Or.inr (by simp)
        · rcases i3 x hx with h5 | h5
          · exact Or.inl h5
          · exact Or.inr (List.mem_cons_of_mem _ h5)
      · intro hp
        rw [List.pairwise_cons] at hp ⊢
        refine ⟨?_, i4 hp.2⟩
        intro x hx d dr dx
        rcases i3 x hx with h5 | h5
        · exact hc d (dx.trans h5) dr
        · exact hp.1 x h5 d dr dx

theorem mergeJoints_ok {parents : List (Option Nat)} {fuel : Nat} {skin : List Nat} : ∀ (joints roots out : List Nat),
    mergeJoints parents fuel skin joints roots = some (.ok out) →
    (∀ r ∈ roots, ∃ r' ∈ out, Above parents r' r) ∧
    (∀ j ∈ joints, (∃ r' ∈ out, Above parents r' j) ∨ ∃ p ∈ skin, parents[j]? = some (some p)) ∧
    (∀ r' ∈ out, (∃ j ∈ joints, Above parents r' j) ∨ r' ∈ roots) ∧
    (roots.Pairwise (Apart parents) → out.Pairwise (Apart parents))
  | [], roots, out, h => by
    simp only [mergeJoints, Option.some.injEq, Outcome.ok.injEq] at h
    subst h
    exact ⟨fun r hr => ⟨r, hr, Above.self⟩, by simp, fun r hr => Or.inr hr, fun h => h⟩
  | j :: js, roots, out, h => by
    have merged : andThen (mergeJoint parents fuel j roots) (fun roots => mergeJoints parents fuel skin js roots) = some (.ok out) →
        (∀ r ∈ roots, ∃ r' ∈ out, Above parents r' r) ∧
        (∀ x ∈ j :: js, (∃ r' ∈ out, Above parents r' x) ∨ ∃ p ∈ skin, parents[x]? = some (some p)) ∧
        (∀ r' ∈ out, (∃ x ∈ j :: js, Above parents r' x) ∨ r' ∈ roots) ∧
        (roots.Pairwise (Apart parents) → out.Pairwise (Apart parents)) := by
      intro h
      obtain ⟨mid, h1, h2⟩ := andThen_ok h
      obtain ⟨a1, ⟨y, hy, hyj⟩, a3, a4⟩ := mergeJoint_ok roots mid h1
      obtain ⟨b1, b2, b3, b4⟩ := mergeJoints_ok js mid out h2
      refine ⟨?_, ?_, ?_, fun hp => b4 (a4 hp)⟩
      · intro r hr
        obtain ⟨x, hx, hxr⟩ := a1 r hr
        obtain ⟨z, hz, hzx⟩ := b1 x hx
        exact ⟨z, hz, hzx.trans hxr⟩
      · intro x hx
        rcases List.mem_cons.mp hx with rfl | hx
        · obtain ⟨z, hz, hzy⟩ := b1 y hy
          exact Or.inl ⟨z, hz, hzy.trans hyj⟩
        · exact b2 x hx
      · intro r' hr'
        rcases b3 r' hr' with ⟨x, hx, hxr⟩ | hm
        · exact Or.inl ⟨x, List.mem_cons_of_mem _ hx, hxr⟩
        · rcases a3 r' hm with h5 | h5
          · exact Or.inl ⟨j, by simp, h5⟩
          · exact Or.inr h5
    rw [mergeJoints] at h
    cases hp : parents[j]? with
    | none => rw [hp] at h; simp at h
    | some p =>
      cases p with
      | none =>
        rw [hp] at h
        exact merged h
      | some p =>
        rw [hp] at h
        dsimp only at h
        split at h
        · rename_i hin
          obtain ⟨b1, b2, b3, b4⟩ := mergeJoints_ok js roots out h
          refine ⟨b1, ?_, ?_, b4⟩
          · intro x hx
            rcases List.mem_cons.mp hx with rfl | hx
            · exact Or.inr ⟨p, hin, hp⟩
            · exact b2 x hx
          · intro r' hr'
            rcases b3 r' hr' with ⟨x, hx, hxr⟩ | hm
            · exact Or.inl ⟨x, List.mem_cons_of_mem _ hx, hxr⟩
            · exact Or.inr hm
        · exact merged h

/-- With parents of lower rank the climb ends. -/
theorem climb_ends {parents : List (Option Nat)} (rank : Nat → Nat) (hr : ∀ (n p : Nat), parents[n]? = some (some p) → rank p < rank n) :
    ∀ (fuel n : Nat), rank n < fuel → climb parents fuel (some n) ≠ none
  | 0, _, h => by omega
  | fuel + 1, n, h => by
    rw [climb]
    cases hp : parents[n]? with
    | none => simp
    | some p =>
      dsimp only
      cases p with
      | none => cases fuel <;> simp [climb, andThen]
      | some p =>
        have := climb_ends rank hr fuel p (by have := hr n p hp; omega)
        cases hc : climb parents fuel (some p) with
        | none => exact absurd hc this
        | some o => cases o <;> simp [andThen]

/-- Closest: whatever is above all the joints below a root is above the root. -/
def Tight (parents : List (Option Nat)) (skin : List Nat) (r : Nat) : Prop :=
  ∀ d, (∀ j ∈ skin, Above parents r j → Above parents d j) → Above parents d r

theorem mergeJoint_tight {parents : List (Option Nat)} {fuel joint : Nat} {skin : List Nat} (hj : joint ∈ skin) : ∀ (roots out : List Nat),
    mergeJoint parents fuel joint roots = some (.ok out) → (∀ r ∈ roots, Tight parents skin r) → ∀ r ∈ out, Tight parents skin r
  | [], out, h, _ => by
    simp only [mergeJoint, Option.some.injEq, Outcome.ok.injEq] at h
    subst h
    intro r hr
    rw [List.mem_singleton] at hr
    subst hr
    exact fun d hd => hd _ hj Above.self
  | r :: rs, out, h, ht => by
    rw [mergeJoint] at h
    obtain ⟨c, h1, h2⟩ := andThen_ok h
    have hc := common_ok h1
    cases c with
    | some c =>
      simp only [Option.some.injEq, Outcome.ok.injEq] at h2
      subst h2
      obtain ⟨c1, c2, c3⟩ := hc
      intro x hx
      rcases List.mem_cons.mp hx with rfl | hx
      · intro d hd
        exact c3 d (hd joint hj c1) (ht r (by simp) d fun j hjs hrj => hd j hjs (c2.trans hrj))
      · exact ht x (List.mem_cons_of_mem _ hx)
    | none =>
      dsimp only at h2
      obtain ⟨rs', h3, h4⟩ := andThen_ok h2
      simp only [Option.some.injEq, Outcome.ok.injEq] at h4
      subst h4
      have ih := mergeJoint_tight hj rs rs' h3 fun x hx => ht x (List.mem_cons_of_mem _ hx)
      intro x hx
      rcases List.mem_cons.mp hx with rfl | hx
      · exact ht x (by simp)
      · exact ih x hx

theorem mergeJoints_tight {parents : List (Option Nat)} {fuel : Nat} {skin : List Nat} : ∀ (joints roots out : List Nat), (∀ j ∈ joints, j ∈ skin) →
    mergeJoints parents fuel skin joints roots = some (.ok out) → (∀ r ∈ roots, Tight parents skin r) → ∀ r ∈ out, Tight parents skin r
  | [], roots, out, _, h, ht => by
    simp only [mergeJoints, Option.some.injEq, Outcome.ok.injEq] at h
    subst h
    exact ht
  | j :: js, roots, out, hs, h, ht => by
    have hs' : ∀ x ∈ js, x ∈ skin := fun x hx => hs x (List.mem_cons_of_mem _ hx)
    have merged : andThen (mergeJoint parents fuel j roots) (fun roots => mergeJoints parents fuel skin js roots) = some (.ok out) →
        ∀ r ∈ out, Tight parents skin r := by
      intro h
      obtain ⟨mid, h1, h2⟩ := andThen_ok h
      exact mergeJoints_tight js mid out hs' h2 (mergeJoint_tight (hs j (by simp)) roots mid h1 ht)
    rw [mergeJoints] at h
    cases hp : parents[j]? with
    | none => rw [hp] at h; simp at h
    | some p =>
      cases p with
      | none => rw [hp] at h; exact merged h
      | some p =>
        rw [hp] at h
        dsimp only at h
        split at h
        · exact mergeJoints_tight js roots out hs' h ht
        · exact merged h

theorem setParents_ok {n : Nat} : ∀ (cs : List Int) (m m' : List (Option Nat)), setParents n cs m = .ok m' →
    m'.length = m.length ∧ (∀ c p : Nat, m'[c]? = some (some p) → m[c]? = some (some p) ∨ (p = n ∧ (c : Int) ∈ cs)) ∧
    (∀ c p : Nat, m[c]? = some (some p) → ∃ q, m'[c]? = some (some q)) ∧ ∀ c : Nat, (c : Int) ∈ cs → ∃ q, m'[c]? = some (some q)
  | [], m, m', h => by
    simp only [setParents, Outcome.ok.injEq] at h
    subst h
    exact ⟨rfl, fun c p hc => Or.inl hc, fun c p hc => ⟨p, hc⟩, by simp⟩
  | x :: cs, m, m', h => by
    rw [setParents] at h
    split at h
    · rename_i hx
      obtain ⟨i1, i2, i3, i4⟩ := setParents_ok cs _ m' h
      have hxn : ((x.toNat : Nat) : Int) = x := Int.toNat_of_nonneg hx.1
      have hself : ((m.set x.toNat (some n))[x.toNat]?) = some (some n) := by rw [List.getElem?_set_self hx.2]
      refine ⟨by rw [i1, List.length_set], ?_, ?_, ?_⟩
      · intro c p hc
        rcases i2 c p hc with h1 | ⟨h1, h2⟩
        · by_cases hcx : x.toNat = c
          · subst hcx
            rw [hself] at h1
            simp only [Option.some.injEq] at h1
            exact Or.inr ⟨h1.symm, by rw [hxn]; simp⟩
          · rw [List.getElem?_set_ne hcx] at h1
            exact Or.inl h1
        · exact Or.inr ⟨h1, List.mem_cons_of_mem _ h2⟩
      · intro c p hc
        by_cases hcx : x.toNat = c
        · subst hcx
          exact i3 _ n hself
        · exact i3 c p (by rw [List.getElem?_set_ne hcx]; exact hc)
      · intro c hc
        rcases List.mem_cons.mp hc with h1 | h1
        · have : x.toNat = c := by omega
          subst this
          exact i3 _ n hself
        · exact i4 c h1
    · simp at h

theorem levelParents_ok {nodes : List Node} : ∀ (stack : List Int) (m m' : List (Option Nat)) (next : List Int), levelParents nodes stack m = .ok (m', next) →
    m'.length = m.length ∧
    (∀ c p : Nat, m'[c]? = some (some p) → m[c]? = some (some p) ∨ ((p : Int) ∈ stack ∧ Lists nodes p c)) ∧
    (∀ c p : Nat, m[c]? = some (some p) → ∃ q, m'[c]? = some (some q)) ∧
    (∀ p c : Nat, (p : Int) ∈ stack → Lists nodes p c → (∃ q, m'[c]? = some (some q)) ∧ (c : Int) ∈ next) ∧
    (∀ c : Nat, (c : Int) ∈ next → ∃ p : Nat, (p : Int) ∈ stack ∧ Lists nodes p c) ∧ ∀ x ∈ next, 0 ≤ x
  | [], m, m', next, h => by
    simp only [levelParents, Outcome.ok.injEq, Prod.mk.injEq] at h
    obtain ⟨rfl, rfl⟩ := h
    exact ⟨rfl, fun c p hc => Or.inl hc, fun c p hc => ⟨p, hc⟩, by simp, by simp, by simp⟩
  | n :: ns, m, m', next, h => by
    rw [levelParents] at h
    split at h
    · simp at h
    rename_i hn
    have hnn : ((n.toNat : Nat) : Int) = n := Int.toNat_of_nonneg (by omega)
    cases hnode : nodes[n.toNat]? with
    | none => rw [hnode] at h; simp at h
    | some node =>
      rw [hnode] at h
      dsimp only at h
      cases h1 : setParents n.toNat node.children m with
      | throws => rw [h1] at h; simp [Outcome.bind] at h
      | ub => rw [h1] at h; simp [Outcome.bind] at h
      | ok m1 =>
        rw [h1] at h
        simp only [Outcome.bind] at h
        cases h2 : levelParents nodes ns m1 with
        | throws => rw [h2] at h; simp at h
        | ub => rw [h2] at h; simp at h
        | ok r =>
          obtain ⟨m2, next2⟩ := r
          rw [h2] at h
          simp only [Outcome.ok.injEq, Prod.mk.injEq] at h
          obtain ⟨rfl, rfl⟩ := h
          obtain ⟨a1, a2, a3, a4⟩ := setParents_ok _ _ _ h1
          obtain ⟨b1, b2, b3, b4, b5, b6⟩ := levelParents_ok ns m1 m2 next2 h2
          refine ⟨b1.trans a1, ?_, ?_, ?_, ?_, ?_⟩
          · intro c p hc
            rcases b2 c p hc with h5 | ⟨h5, h6⟩
            · rcases a2 c p h5 with h7 | ⟨rfl, h8⟩
              · exact Or.inl h7
              · exact Or.inr ⟨by rw [hnn]; simp, node, hnode, h8⟩
            · exact Or.inr ⟨List.mem_cons_of_mem _ h5, h6⟩
          · intro c p hc
            obtain ⟨q, hq⟩ := a3 c p hc
            exact b3 c q hq
          · intro p c hp hl
            rcases List.mem_cons.mp hp with h5 | h5
            · have : p = n.toNat := by omega
              subst this
              obtain ⟨node', h6, h7⟩ := hl
              rw [hnode] at h6
              obtain rfl := Option.some.inj h6
              obtain ⟨q, hq⟩ := a4 c h7
              exact ⟨b3 c q hq, List.mem_append_left _ h7⟩
            · obtain ⟨h6, h7⟩ := b4 p c h5 hl
              exact ⟨h6, List.mem_append_right _ h7⟩
          · intro c hc
            rcases List.mem_append.mp hc with h5 | h5
            · exact ⟨n.toNat, by rw [hnn]; simp, node, hnode, h5⟩
            · obtain ⟨p, h6, h7⟩ := b5 c h5
              exact ⟨p, List.mem_cons_of_mem _ h6, h7⟩
          · intro x hx
            rcases List.mem_append.mp hx with h5 | h5
            · exact setParents_nonneg _ _ _ h1 x h5
            · exact b6 x h5
where
  setParents_nonneg {n : Nat} : ∀ (cs : List Int) (m m' : List (Option Nat)), setParents n cs m = .ok m' → ∀ x ∈ cs, 0 ≤ x
  | [], _, _, _ => by simp
  | y :: cs, m, m', h => by
    rw [setParents] at h
    split at h
    · rename_i hy
      intro x hx
      rcases List.mem_cons.mp hx with rfl | hx
      · exact hy.1
      · exact setParents_nonneg cs _ m' h x hx
    · simp at h

theorem below_head {nodes : List Node} {r p : Nat} (h : Below nodes r p) : r = p ∨ ∃ r', Lists nodes r r' ∧ Below nodes r' p := by
  induction h with
  | self => exact Or.inl rfl
  | step h1 h2 ih =>
    rcases ih with rfl | ⟨r', h3, h4⟩
    · exact Or.inr ⟨_, h2, Below.self⟩
    · exact Or.inr ⟨r', h3, h4.step h2⟩

theorem below_cons {nodes : List Node} {r r' p : Nat} (h : Lists nodes r r') (h' : Below nodes r' p) : Below nodes r p := by
  induction h' with
  | self => exact Below.step Below.self h
  | step _ h2 ih => exact Below.step ih h2

theorem buildParents_ok {nodes : List Node} : ∀ (fuel : Nat) (stack : List Int) (m m' : List (Option Nat)),
    buildParents nodes fuel stack m = some (.ok m') →
    m'.length = m.length ∧
    (∀ c p : Nat, m'[c]? = some (some p) → m[c]? = some (some p) ∨ ((∃ r : Nat, (r : Int) ∈ stack ∧ Below nodes r p) ∧ Lists nodes p c)) ∧
    (∀ c p : Nat, m[c]? = some (some p) → ∃ q, m'[c]? = some (some q)) ∧
    (∀ r p c : Nat, (r : Int) ∈ stack → Below nodes r p → Lists nodes p c → ∃ q, m'[c]? = some (some q))
  | fuel, [], m, m', h => by
    cases fuel <;> simp only [buildParents, Option.some.injEq, Outcome.ok.injEq] at h <;> subst h <;>
      exact ⟨rfl, fun c p hc => Or.inl hc, fun c p hc => ⟨p, hc⟩, by simp⟩
  | 0, n :: ns, m, m', h => by simp [buildParents] at h
  | fuel + 1, n :: ns, m, m', h => by
    rw [buildParents] at h
    cases h1 : levelParents nodes (n :: ns) m with
    | throws => rw [h1] at h; simp at h
    | ub => rw [h1] at h; simp at h
    | ok r =>
      obtain ⟨m1, next⟩ := r
      rw [h1] at h
      dsimp only at h
      obtain ⟨a1, a2, a3, a4, a5, _⟩ := levelParents_ok _ _ _ _ h1
      obtain ⟨b1, b2, b3, b4⟩ := buildParents_ok fuel next m1 m' h
      refine ⟨b1.trans a1, ?_, ?_, ?_⟩
      · intro c p hc
        rcases b2 c p hc with h5 | ⟨⟨r, h5, h6⟩, h7⟩
        · rcases a2 c p h5 with h8 | ⟨h8, h9⟩
          · exact Or.inl h8
          · exact Or.inr ⟨⟨p, h8, Below.self⟩, h9⟩
        · obtain ⟨p', h8, h9⟩ := a5 r h5
          exact Or.inr ⟨⟨p', h8, below_cons h9 h6⟩, h7⟩
      · intro c p hc
        obtain ⟨q, hq⟩ := a3 c p hc
        exact b3 c q hq
      · intro r p c hr hb hl
        rcases below_head hb with rfl | ⟨r', h5, h6⟩
        · obtain ⟨⟨q, hq⟩, _⟩ := a4 r c hr hl
          exact b3 c q hq
        · exact b4 r' p c (a4 r r' hr h5).2 h6 hl

/-- Without cycles the walk over the nodes ends. -/
theorem buildParents_ends {nodes : List Node} {rank : Nat → Nat} {bound : Nat} (hr : (∀ p c : Nat, Lists nodes p c → rank p < rank c) ∧ ∀ n, rank n ≤ bound) : ∀ (fuel : Nat) (stack : List Int)
    (m : List (Option Nat)), (∀ x ∈ stack, 0 ≤ x ∧ bound < rank x.toNat + fuel) → buildParents nodes fuel stack m ≠ none
  | fuel, [], m, _ => by cases fuel <;> simp [buildParents]
  | 0, n :: ns, m, h => by
    have := (h n (by simp)).2
    have := hr.2 n.toNat
    omega
  | fuel + 1, n :: ns, m, h => by
    rw [buildParents]
    cases h1 : levelParents nodes (n :: ns) m with
    | throws => simp
    | ub => simp
    | ok r =>
      obtain ⟨m1, next⟩ := r
      obtain ⟨_, _, _, _, a5, a6⟩ := levelParents_ok _ _ _ _ h1
      refine buildParents_ends hr fuel next m1 ?_
      intro x hx
      have hx0 := a6 x hx
      have hxn : ((x.toNat : Nat) : Int) = x := Int.toNat_of_nonneg hx0
      obtain ⟨p, h2, h3⟩ := a5 x.toNat (by rw [hxn]; exact hx)
      have h4 := (h _ h2).2
      have h5 := hr.1 p x.toNat h3
      rw [Int.toNat_natCast] at h4
      exact ⟨hx0, by omega⟩

end Momentum.Gltf
