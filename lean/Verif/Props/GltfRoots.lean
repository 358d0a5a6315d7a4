import Verif.Lemmas.GltfRoots

/-!
# C95: the skeletons of the skins of a glTF file
-/

namespace Momentum.Gltf

/-- The parents of the nodes of a scene. -/
abbrev parentMap (nodes : List Node) (scene : List Nat) (fuel : Nat) : Option (Outcome (List (Option Nat))) :=
  buildParents nodes fuel (scene.map Int.ofNat) (List.replicate nodes.length none)

/-- **C95** (parents). Once the walk over the scene has ended, a node has a parent exactly if a node of the scene lists it as a child, and it is such
a node. -/
theorem C95_parents {nodes : List Node} {scene : List Nat} {fuel : Nat} {parents : List (Option Nat)}
    (h : parentMap nodes scene fuel = some (.ok parents)) :
    parents.length = nodes.length ∧ (∀ c p : Nat, parents[c]? = some (some p) → InScene nodes scene p ∧ Lists nodes p c) ∧
    ∀ p c : Nat, InScene nodes scene p → Lists nodes p c → ∃ q, parents[c]? = some (some q) := by
  obtain ⟨h1, h2, _, h4⟩ := buildParents_ok _ _ _ _ h
  refine ⟨by simpa using h1, ?_, ?_⟩
  · intro c p hc
    rcases h2 c p hc with h5 | ⟨⟨r, h5, h6⟩, h7⟩
    · rw [List.getElem?_replicate] at h5
      split at h5 <;> simp at h5
    · refine ⟨⟨r, ?_, h6⟩, h7⟩
      obtain ⟨x, hx, hxr⟩ := List.mem_map.mp h5
      have : x = r := Int.ofNat.inj hxr
      exact this ▸ hx
  · rintro p c ⟨r, hr, hb⟩ hl
    exact h4 r p c (List.mem_map.mpr ⟨r, hr, rfl⟩) hb hl

theorem inScene_parent {nodes : List Node} {scene : List Nat} {rank : Nat → Nat} {bound b c : Nat} (hs : StrictTrees nodes scene rank bound)
    (hc : InScene nodes scene c) (hl : Lists nodes b c) : InScene nodes scene b := by
  obtain ⟨r, hr, hb⟩ := hc
  cases hb with
  | self => exact absurd hl (hs.top _ hr b)
  | step h1 h2 => exact ⟨r, hr, hs.oneParent _ _ _ h2 hl ▸ h1⟩

theorem below_inScene {nodes : List Node} {scene : List Nat} {rank : Nat → Nat} {bound d j : Nat} (hs : StrictTrees nodes scene rank bound)
    (h : Below nodes d j) (hj : InScene nodes scene j) : InScene nodes scene d := by
  induction h with
  | self => exact hj
  | step _ h2 ih => exact ih (inScene_parent hs hj h2)

theorem above_below {nodes : List Node} {scene : List Nat} {fuel : Nat} {parents : List (Option Nat)}
    (hb : parentMap nodes scene fuel = some (.ok parents)) {d j : Nat} (h : Above parents d j) : Below nodes d j := by
  induction h with
  | self => exact Below.self
  | step _ h2 ih => exact ih.step ((C95_parents hb).2.1 _ _ h2).2

theorem below_above {nodes : List Node} {scene : List Nat} {rank : Nat → Nat} {bound fuel : Nat} {parents : List (Option Nat)}
    (hs : StrictTrees nodes scene rank bound) (hb : parentMap nodes scene fuel = some (.ok parents)) {d j : Nat} (h : Below nodes d j)
    (hj : InScene nodes scene j) : Above parents d j := by
  induction h with
  | self => exact Above.self
  | step _ h2 ih =>
    have hp := inScene_parent hs hj h2
    obtain ⟨q, hq⟩ := (C95_parents hb).2.2 _ _ hp h2
    have := hs.oneParent _ _ _ ((C95_parents hb).2.1 _ _ hq).2 h2
    subst this
    exact (ih hp).step hq

/-- **C95** (the roots of a skin). Every joint of a skin is below one of its roots, every root has a joint of the skin below it, no two roots are in the
same tree, and a root is below any other node that the joints below the root have in common. -/
theorem C95_skin {nodes : List Node} {scene : List Nat} {rank : Nat → Nat} {bound fuel : Nat} {parents : List (Option Nat)} {skin roots : List Nat}
    (hs : StrictTrees nodes scene rank bound) (hj : ∀ j ∈ skin, InScene nodes scene j) (hb : parentMap nodes scene fuel = some (.ok parents))
    (h : skinRoots parents fuel skin = some (.ok roots)) :
    (∀ j ∈ skin, ∃ r ∈ roots, Below nodes r j) ∧ (∀ r ∈ roots, ∃ j ∈ skin, Below nodes r j) ∧
    roots.Pairwise (fun r r' => ∀ d, Below nodes d r → ¬ Below nodes d r') ∧
    ∀ r ∈ roots, ∀ d, (∀ j ∈ skin, Below nodes r j → Below nodes d j) → Below nodes d r := by
  obtain ⟨_, h2, h3, h4⟩ := mergeJoints_ok skin [] roots h
  have h5 := mergeJoints_tight skin [] roots (fun _ h => h) h (by simp)
  have hroot : ∀ r ∈ roots, ∃ j ∈ skin, Below nodes r j := by
    intro r hr
    rcases h3 r hr with ⟨j, hj, ha⟩ | h6
    · exact ⟨j, hj, above_below hb ha⟩
    · simp at h6
  have hrs : ∀ r ∈ roots, InScene nodes scene r := by
    intro r hr
    obtain ⟨j, hjs, ha⟩ := hroot r hr
    exact below_inScene hs ha (hj j hjs)
  refine ⟨?_, hroot, ?_, ?_⟩
  · have key : ∀ (n j : Nat), rank j = n → j ∈ skin → ∃ r ∈ roots, Below nodes r j := by
      intro n
      induction n using Nat.strong_induction_on with
      | _ n ih =>
        intro j hn hjs
        rcases h2 j hjs with ⟨r, hr, ha⟩ | ⟨p, hp, hpj⟩
        · exact ⟨r, hr, above_below hb ha⟩
        · have hl := ((C95_parents hb).2.1 _ _ hpj).2
          obtain ⟨r, hr, ha⟩ := ih (rank p) (hn ▸ hs.grows p j hl) p rfl hp
          exact ⟨r, hr, ha.step hl⟩
    exact fun j hjs => key _ j rfl hjs
  · refine (h4 List.Pairwise.nil).imp_of_mem ?_
    intro r r' hr hr' hap d hd hd'
    exact hap d (below_above hs hb hd (hrs r hr)) (below_above hs hb hd' (hrs r' hr'))
  · intro r hr d hd
    exact above_below hb (h5 r hr d fun j hjs ha => below_above hs hb (hd j hjs (above_below hb ha)) (hj j hjs))

theorem allSkinRoots_ok {parents : List (Option Nat)} {fuel : Nat} : ∀ (skins all : List (List Nat)), allSkinRoots parents fuel skins = some (.ok all) →
    all.length = skins.length ∧ ∀ (i : Nat) (skin : List Nat), skins[i]? = some skin →
      ∃ roots, all[i]? = some roots ∧ skinRoots parents fuel skin = some (.ok roots)
  | [], all, h => by
    simp only [allSkinRoots, Option.some.injEq, Outcome.ok.injEq] at h
    subst h
    exact ⟨rfl, by simp⟩
  | s :: skins, all, h => by
    rw [allSkinRoots] at h
    obtain ⟨roots, h1, h⟩ := andThen_ok h
    obtain ⟨all', h2, h⟩ := andThen_ok h
    simp only [Option.some.injEq, Outcome.ok.injEq] at h
    subst h
    obtain ⟨i1, i2⟩ := allSkinRoots_ok skins all' h2
    refine ⟨by simp [i1], ?_⟩
    intro i skin hi
    cases i with
    | zero =>
      simp only [List.getElem?_cons_zero, Option.some.injEq] at hi
      subst hi
      exact ⟨roots, rfl, h1⟩
    | succ i => exact i2 i skin (by simpa using hi)

theorem keepSkins_ok {checks : Bool} {parents : List (Option Nat)} {fuel : Nat} {all : List (List Nat)} : ∀ (l : List (List Nat × Nat))
    (out : List (List Nat)), keepSkins checks parents fuel all l = some (.ok out) →
    (∀ e ∈ l, e.1 ≠ []) ∧ (∀ e ∈ l, e.1.length > 1 → e.1 ∈ out) ∧
    (∀ e ∈ l, ∀ r, e.1 = [r] → ∃ anc, climb parents fuel (some r) = some (.ok anc) ∧ (isIndependent all e.2 anc = true → [r] ∈ out)) ∧
    ∀ o ∈ out, ∃ e ∈ l, e.1 = o ∧ ∀ r, o = [r] → ∃ anc, climb parents fuel (some r) = some (.ok anc) ∧ isIndependent all e.2 anc = true
  | [], out, h => by
    simp only [keepSkins, Option.some.injEq, Outcome.ok.injEq] at h
    subst h
    simp
  | ([], i) :: rest, out, h => by
    rw [keepSkins] at h
    cases checks <;> simp [failed] at h
  | ([r], i) :: rest, out, h => by
    rw [keepSkins] at h
    obtain ⟨anc, h1, h⟩ := andThen_ok h
    split at h
    · cases checks <;> simp [failed] at h
    obtain ⟨out', h2, h⟩ := andThen_ok h
    simp only [Option.some.injEq, Outcome.ok.injEq] at h
    obtain ⟨i1, i2, i3, i4⟩ := keepSkins_ok rest out' h2
    have hsub : ∀ o ∈ out', o ∈ out := by
      intro o ho
      rw [← h]
      split
      · exact List.mem_cons_of_mem _ ho
      · exact ho
    refine ⟨?_, ?_, ?_, ?_⟩
    · intro e he
      rcases List.mem_cons.mp he with rfl | he
      · simp
      · exact i1 e he
    · intro e he hl
      rcases List.mem_cons.mp he with rfl | he
      · simp at hl
      · exact hsub _ (i2 e he hl)
    · intro e he r' hr'
      rcases List.mem_cons.mp he with rfl | he
      · simp only [List.cons.injEq, and_true] at hr'
        subst hr'
        refine ⟨anc, h1, fun hi => ?_⟩
        rw [← h, if_pos hi]
        simp
      · obtain ⟨a, ha, hb⟩ := i3 e he r' hr'
        exact ⟨a, ha, fun hi => hsub _ (hb hi)⟩
    · intro o ho
      rw [← h] at ho
      have hrest : o ∈ out' → _ := fun ho => i4 o ho
      split at ho
      · rename_i hi
        rcases List.mem_cons.mp ho with rfl | ho
        · refine ⟨([r], i), by simp, rfl, ?_⟩
          intro r' hr'
          simp only [List.cons.injEq, and_true] at hr'
          subst hr'
          exact ⟨anc, h1, hi⟩
        · obtain ⟨e, he, hh⟩ := hrest ho
          exact ⟨e, List.mem_cons_of_mem _ he, hh⟩
      · obtain ⟨e, he, hh⟩ := hrest ho
        exact ⟨e, List.mem_cons_of_mem _ he, hh⟩
  | (r :: r' :: rs, i) :: rest, out, h => by
    rw [keepSkins] at h
    obtain ⟨out', h2, h⟩ := andThen_ok h
    simp only [Option.some.injEq, Outcome.ok.injEq] at h
    subst h
    obtain ⟨i1, i2, i3, i4⟩ := keepSkins_ok rest out' h2
    refine ⟨?_, ?_, ?_, ?_⟩
    · intro e he
      rcases List.mem_cons.mp he with rfl | he
      · simp
      · exact i1 e he
    · intro e he hl
      rcases List.mem_cons.mp he with rfl | he
      · simp
      · exact List.mem_cons_of_mem _ (i2 e he hl)
    · intro e he q hq
      rcases List.mem_cons.mp he with rfl | he
      · simp at hq
      · obtain ⟨a, ha, hb⟩ := i3 e he q hq
        exact ⟨a, ha, fun hi => List.mem_cons_of_mem _ (hb hi)⟩
    · intro o ho
      rcases List.mem_cons.mp ho with rfl | ho
      · exact ⟨_, List.mem_cons_self, rfl, by simp⟩
      · obtain ⟨e, he, hh⟩ := i4 o ho
        exact ⟨e, List.mem_cons_of_mem _ he, hh⟩

theorem gather_ok {checks : Bool} {nodes : List Node} {scene : List Nat} {skins : List (List Nat)} {fuel : Nat} {out : List (List Nat)}
    (hne : skins ≠ []) (h : gatherSkeletonRoots checks true nodes scene skins fuel = some (.ok out)) :
    ∃ parents all, parentMap nodes scene fuel = some (.ok parents) ∧ allSkinRoots parents fuel skins = some (.ok all) ∧
      keepSkins checks parents fuel all all.zipIdx = some (.ok out) := by
  unfold gatherSkeletonRoots at h
  rw [if_neg (by simp [hne])] at h
  obtain ⟨parents, h1, h⟩ := andThen_ok h
  obtain ⟨all, h2, h⟩ := andThen_ok h
  exact ⟨parents, all, h1, h2, h⟩

theorem below_rank {nodes : List Node} {rank : Nat → Nat} (hg : ∀ p c : Nat, Lists nodes p c → rank p < rank c) {a b : Nat} (h : Below nodes a b) :
    a = b ∨ rank a < rank b := by
  induction h with
  | self => exact Or.inl rfl
  | step _ h2 ih =>
    have := hg _ _ h2
    rcases ih with rfl | ih
    · exact Or.inr this
    · exact Or.inr (by omega)

theorem Below.trans {nodes : List Node} {a b c : Nat} (h : Below nodes a b) (h' : Below nodes b c) : Below nodes a c := by
  induction h' with
  | self => exact h
  | step _ h2 ih => exact ih.step h2

/-- A lone root is the closest node above the joints. -/
theorem lone_closest {nodes : List Node} {scene : List Nat} {rank : Nat → Nat} {bound fuel : Nat} {parents : List (Option Nat)} {skin : List Nat} {r : Nat}
    (hs : StrictTrees nodes scene rank bound) (hj : ∀ j ∈ skin, InScene nodes scene j) (hb : parentMap nodes scene fuel = some (.ok parents))
    (h : skinRoots parents fuel skin = some (.ok [r])) : Closest nodes skin r := by
  obtain ⟨h1, _, _, h4⟩ := C95_skin hs hj hb h
  refine ⟨?_, fun d hd => h4 r (by simp) d fun j hjs _ => hd j hjs⟩
  intro j hjs
  obtain ⟨r', hr', hbl⟩ := h1 j hjs
  rw [List.mem_singleton] at hr'
  exact hr' ▸ hbl

/-- **C95** (what is gathered). In strict trees where no two skins have the same closest node above their joints, every joint of every skin is below a root
of one of the skeletons, every root is above a joint of some skin, and no skeleton with one root is part of another.  What is missing: skins that do share that node, see `C95_shared_counterexample`. -/
theorem C95_gather_partial {checks : Bool} {nodes : List Node} {scene : List Nat} {rank : Nat → Nat} {bound fuel : Nat} {skins out : List (List Nat)}
    (hs : StrictTrees nodes scene rank bound) (hj : ∀ skin ∈ skins, ∀ j ∈ skin, InScene nodes scene j) (hne : skins ≠ [])
    (hd : ∀ (i k : Nat) (a b : List Nat) (r : Nat), skins[i]? = some a → skins[k]? = some b → Closest nodes a r → Closest nodes b r → i = k)
    (h : gatherSkeletonRoots checks true nodes scene skins fuel = some (.ok out)) :
    (∀ skin ∈ skins, ∀ j ∈ skin, ∃ roots ∈ out, ∃ r ∈ roots, Below nodes r j) ∧
    (∀ roots ∈ out, roots ≠ [] ∧ ∀ r ∈ roots, ∃ skin ∈ skins, ∃ j ∈ skin, Below nodes r j) ∧
    ∀ r r', [r] ∈ out → [r'] ∈ out → Below nodes r r' → r = r' := by
  obtain ⟨parents, all, hb, ha, hk⟩ := gather_ok hne h
  obtain ⟨k1, k2, k3, k4⟩ := keepSkins_ok _ _ hk
  obtain ⟨a1, a2⟩ := allSkinRoots_ok _ _ ha
  have hskin : ∀ (i : Nat) (roots : List Nat), all[i]? = some roots → ∃ skin, skins[i]? = some skin ∧ skinRoots parents fuel skin = some (.ok roots) := by
    intro i roots hi
    have hlt : i < skins.length := by
      rw [← a1]
      exact (List.getElem?_eq_some_iff.mp hi).1
    obtain ⟨roots', h5, h6⟩ := a2 i skins[i] (List.getElem?_eq_getElem hlt)
    rw [hi] at h5
    obtain rfl := Option.some.inj h5
    exact ⟨skins[i], List.getElem?_eq_getElem hlt, h6⟩
  have hzip : ∀ (i : Nat) (roots : List Nat), all[i]? = some roots → (roots, i) ∈ all.zipIdx := by
    intro i roots hi
    exact List.mem_zipIdx_iff_getElem?.mpr hi
  have key : ∀ (n i r : Nat), rank r = n → all[i]? = some [r] → ∃ roots ∈ out, ∃ r' ∈ roots, Below nodes r' r := by
    intro n
    induction n using Nat.strong_induction_on with
    | _ n ih =>
      intro i r hn hi
      obtain ⟨anc, hanc, hkeep⟩ := k3 _ (hzip i _ hi) r rfl
      by_cases hind : isIndependent all i anc = true
      · exact ⟨[r], hkeep hind, r, by simp, Below.self⟩
      · unfold isIndependent at hind
        simp only [List.all_eq_true, not_forall] at hind
        obtain ⟨⟨s, k⟩, hm, hcond⟩ := hind
        have hsk := List.mem_zipIdx_iff_getElem?.mp hm
        dsimp only at hsk hcond
        simp only [Bool.or_eq_true, beq_iff_eq, decide_eq_true_eq, Bool.not_eq_true', not_or, Bool.not_eq_false] at hcond
        obtain ⟨⟨hki, hlen⟩, hany⟩ := hcond
        cases s with
        | nil => simp at hany
        | cons r' t =>
          have ht : t = [] := by
            cases t with
            | nil => rfl
            | cons _ _ => simp at hlen
          subst ht
          have hmem : r' ∈ anc := by simpa using hany
          have hab := above_below hb ((climb_mem hanc r').mp hmem)
          rcases below_rank hs.grows hab with rfl | hlt
          · obtain ⟨s1, h5, h6⟩ := hskin i _ hi
            obtain ⟨s2, h7, h8⟩ := hskin k _ hsk
            have c1 := lone_closest hs (hj s1 (List.mem_of_getElem? h5)) hb h6
            have c2 := lone_closest hs (hj s2 (List.mem_of_getElem? h7)) hb h8
            exact absurd (hd k i s2 s1 r' h7 h5 c2 c1) hki
          · obtain ⟨roots, h5, r'', h6, h7⟩ := ih (rank r') (hn ▸ hlt) k r' rfl hsk
            exact ⟨roots, h5, r'', h6, h7.trans hab⟩
  refine ⟨?_, ?_, ?_⟩
  · intro skin hskins j hjs
    obtain ⟨i, hi⟩ := List.getElem?_of_mem hskins
    obtain ⟨roots, h5, h6⟩ := a2 i skin hi
    obtain ⟨r, hr, hbl⟩ := (C95_skin hs (hj skin hskins) hb h6).1 j hjs
    match roots, h5, hr with
    | [r0], h5, hr =>
      rw [List.mem_singleton] at hr
      subst hr
      obtain ⟨ro, h7, r', h8, h9⟩ := key _ i r rfl h5
      exact ⟨ro, h7, r', h8, h9.trans hbl⟩
    | r0 :: r1 :: rs, h5, hr => exact ⟨_, k2 _ (hzip i _ h5) (by simp), r, hr, hbl⟩
  · intro roots hro
    obtain ⟨⟨e, i⟩, he, heq, _⟩ := k4 roots hro
    dsimp only at heq
    subst heq
    refine ⟨k1 _ he, ?_⟩
    intro r hr
    obtain ⟨skin, h5, h6⟩ := hskin i e (List.mem_zipIdx_iff_getElem?.mp he)
    have hm := List.mem_of_getElem? h5
    obtain ⟨j, hjs, hbl⟩ := (C95_skin hs (hj skin hm) hb h6).2.1 r hr
    exact ⟨skin, hm, j, hjs, hbl⟩
  · intro r r' hr hr' hbl
    obtain ⟨⟨e, i⟩, he, heq, _⟩ := k4 [r] hr
    obtain ⟨⟨e', i'⟩, he', heq', hind⟩ := k4 [r'] hr'
    dsimp only at heq heq'
    subst heq heq'
    have hi := List.mem_zipIdx_iff_getElem?.mp he
    have hi' := List.mem_zipIdx_iff_getElem?.mp he'
    dsimp only at hi hi'
    by_cases hii : i = i'
    · subst hii
      rw [hi] at hi'
      simpa using hi'
    · exfalso
      obtain ⟨anc, hanc, hi1⟩ := hind r' rfl
      unfold isIndependent at hi1
      rw [List.all_eq_true] at hi1
      have h5 := hi1 _ he
      obtain ⟨skin, h6, h7⟩ := hskin i' _ hi'
      have hm := List.mem_of_getElem? h6
      obtain ⟨j, hjs, hj'⟩ := (C95_skin hs (hj skin hm) hb h7).2.1 r' (by simp)
      have hsc := below_inScene hs hj' (hj skin hm j hjs)
      have hra : r ∈ anc := (climb_mem hanc r).mpr (below_above hs hb hbl hsc)
      simp [hii, hra] at h5

/-- **C95** (what is loaded). Under the same conditions, with checks, the roots that are loaded have every joint of every skin below them; without a skin or
mesh they are the nodes of the scene. -/
theorem C95_loaded_partial {nodes : List Node} {scene : List Nat} {rank : Nat → Nat} {bound fuel : Nat} {skins : List (List Nat)} {roots : List Nat}
    (hs : StrictTrees nodes scene rank bound) (hj : ∀ skin ∈ skins, ∀ j ∈ skin, InScene nodes scene j)
    (hd : ∀ (i k : Nat) (a b : List Nat) (r : Nat), skins[i]? = some a → skins[k]? = some b → Closest nodes a r → Closest nodes b r → i = k) :
    (hierarchyRoots true true nodes scene skins fuel = some (.ok roots) → ∀ skin ∈ skins, ∀ j ∈ skin, ∃ r ∈ roots, Below nodes r j) ∧
    ∀ checks hasMesh, hasMesh = false ∨ skins = [] → hierarchyRoots checks hasMesh nodes scene skins fuel = some (.ok scene) := by
  refine ⟨?_, ?_⟩
  · intro h skin hm j hjs
    unfold hierarchyRoots at h
    obtain ⟨out, hg, h⟩ := andThen_ok h
    match out, hg, h with
    | [], _, h => simp [failed] at h
    | _ :: _ :: _, _, h => simp at h
    | [roots'], hg, h =>
      simp only [Option.some.injEq, Outcome.ok.injEq] at h
      subst h
      obtain ⟨ro, h1, h2⟩ := (C95_gather_partial hs hj (List.ne_nil_of_mem hm) hd hg).1 skin hm j hjs
      rw [List.mem_singleton] at h1
      exact h1 ▸ h2
  · intro checks hasMesh h
    unfold hierarchyRoots gatherSkeletonRoots
    rw [if_pos h]
    rfl

/-- **C95** (negated in part): a file with several skins that all have the same closest node above their joints is never loaded: each of the skins is
taken to be part of another, and no skeleton is left. -/
theorem C95_shared_counterexample {checks : Bool} {nodes : List Node} {scene : List Nat} {rank : Nat → Nat} {bound fuel : Nat} {skins : List (List Nat)}
    {r : Nat} (hs : StrictTrees nodes scene rank bound) (hj : ∀ skin ∈ skins, ∀ j ∈ skin, InScene nodes scene j) (h2 : 2 ≤ skins.length)
    (hr : ∀ skin ∈ skins, Closest nodes skin r) (roots : List Nat) :
    hierarchyRoots checks true nodes scene skins fuel ≠ some (.ok roots) := by
  intro h
  unfold hierarchyRoots at h
  obtain ⟨out, hg, h⟩ := andThen_ok h
  have hskne : skins ≠ [] := by rintro rfl; simp at h2
  obtain ⟨parents, all, hb, ha, hk⟩ := gather_ok hskne hg
  obtain ⟨k1, k2, k3, k4⟩ := keepSkins_ok _ _ hk
  obtain ⟨a1, a2⟩ := allSkinRoots_ok _ _ ha
  have hall : ∀ (i : Nat) (e : List Nat), all[i]? = some e → e = [r] := by
    intro i e hi
    have hlt : i < skins.length := by
      rw [← a1]
      exact (List.getElem?_eq_some_iff.mp hi).1
    obtain ⟨roots', h5, h6⟩ := a2 i skins[i] (List.getElem?_eq_getElem hlt)
    rw [hi] at h5
    obtain rfl := Option.some.inj h5
    have hm : skins[i] ∈ skins := List.getElem_mem hlt
    obtain ⟨s1, s2, s3, s4⟩ := C95_skin hs (hj _ hm) hb h6
    have hc := hr _ hm
    have hone : ∀ x ∈ e, x = r := by
      intro x hx
      obtain ⟨j, hjs, hxj⟩ := s2 x hx
      have h7 : Below nodes r x := s4 x hx r fun j hjs _ => hc.1 j hjs
      -- no other root is in the tree, so all joints are below this one
      have h8 : Below nodes x r := by
        refine hc.2 x fun j' hj' => ?_
        obtain ⟨y, hy, hyj⟩ := s1 j' hj'
        have h9 : Below nodes r y := s4 y hy r fun j hjs _ => hc.1 j hjs
        by_cases hxy : y = x
        · exact hxy ▸ hyj
        · exfalso
          have hsym : ∀ a b : Nat, (∀ d, Below nodes d a → ¬ Below nodes d b) → ∀ d, Below nodes d b → ¬ Below nodes d a :=
            fun _ _ hab d h1 h2 => hab d h2 h1
          haveI : Std.Symm (fun r r' => ∀ d, Below nodes d r → ¬ Below nodes d r') := ⟨hsym⟩
          exact s3.forall hy hx hxy r h9 h7
      rcases below_rank hs.grows h7 with h9 | h9
      · exact h9.symm
      · rcases below_rank hs.grows h8 with h10 | h10
        · exact h10
        · omega
    have hn := k1 _ (List.mem_zipIdx_iff_getElem?.mpr hi : (e, i) ∈ all.zipIdx)
    match e, hone, s3, hn with
    | [x], hone, _, _ => rw [hone x (by simp)]
    | x :: y :: t, hone, s3, _ =>
      exfalso
      have h7 := (List.pairwise_cons.mp s3).1 y (by simp)
      rw [hone x (by simp), hone y (by simp)] at h7
      exact h7 r Below.self Below.self
  have hout : out = [] := by
    refine List.eq_nil_iff_forall_not_mem.mpr fun o ho => ?_
    obtain ⟨⟨e, i⟩, he, heq, hi⟩ := k4 o ho
    dsimp only at heq
    subst heq
    have hei := hall i e (List.mem_zipIdx_iff_getElem?.mp he)
    obtain ⟨anc, hanc, hind⟩ := hi r hei
    unfold isIndependent at hind
    rw [List.all_eq_true] at hind
    obtain ⟨k, hk, hki⟩ : ∃ k, k < all.length ∧ k ≠ i := by
      by_cases h0 : i = 0
      · exact ⟨1, by omega, by omega⟩
      · exact ⟨0, by omega, by omega⟩
    have hkm : ([r], k) ∈ all.zipIdx := by
      have := hall k all[k] (List.getElem?_eq_getElem hk)
      rw [← this]
      exact List.mem_zipIdx_iff_getElem?.mpr (List.getElem?_eq_getElem hk)
    have := hind _ hkm
    have hr' : r ∈ anc := (climb_mem hanc r).mpr Above.self
    simp [hki, hr'] at this
  rw [hout] at h
  cases checks <;> simp [failed] at h

theorem andThen_ne {α β : Type} {x : Option (Outcome α)} {f : α → Option (Outcome β)} (h1 : x ≠ none) (h2 : ∀ a, x = some (.ok a) → f a ≠ none) :
    andThen x f ≠ none := by
  cases x with
  | none => exact absurd rfl h1
  | some o =>
    cases o with
    | ok a => exact h2 a rfl
    | throws => simp [andThen]
    | ub => simp [andThen]

/-- **C95** (end). In strict trees with the scene in them, gathering the roots ends: more steps than the height of the trees are never needed. -/
theorem C95_ends {checks hasMesh : Bool} {nodes : List Node} {scene : List Nat} {rank : Nat → Nat} {bound fuel : Nat} {skins : List (List Nat)}
    (hs : StrictTrees nodes scene rank bound) (hf : bound < fuel) : gatherSkeletonRoots checks hasMesh nodes scene skins fuel ≠ none := by
  unfold gatherSkeletonRoots
  split
  · simp
  refine andThen_ne (buildParents_ends ⟨hs.grows, hs.bounded⟩ _ _ _ ?_) ?_
  · intro x hx
    obtain ⟨n, _, rfl⟩ := List.mem_map.mp hx
    exact ⟨Int.natCast_nonneg n, by omega⟩
  intro parents hb
  have hc : ∀ n, climb parents fuel (some n) ≠ none := by
    intro n
    refine climb_ends rank (fun n p hp => hs.grows p n ((C95_parents hb).2.1 n p hp).2) fuel n ?_
    have := hs.bounded n
    omega
  have hm : ∀ (joint : Nat) (roots : List Nat), mergeJoint parents fuel joint roots ≠ none := by
    intro joint roots
    induction roots with
    | nil => simp [mergeJoint]
    | cons r rs ih =>
      rw [mergeJoint]
      refine andThen_ne (andThen_ne (hc _) fun _ _ => andThen_ne (hc _) fun _ _ => by simp) ?_
      intro c _
      cases c with
      | none => exact andThen_ne ih fun _ _ => by simp
      | some c => simp
  have hms : ∀ (skin joints roots : List Nat), mergeJoints parents fuel skin joints roots ≠ none := by
    intro skin joints
    induction joints with
    | nil => simp [mergeJoints]
    | cons j js ih =>
      intro roots
      rw [mergeJoints]
      split
      · simp
      · split
        · exact ih roots
        · exact andThen_ne (hm _ _) fun _ _ => ih _
      · exact andThen_ne (hm _ _) fun _ _ => ih _
  refine andThen_ne ?_ ?_
  · induction skins with
    | nil => simp [allSkinRoots]
    | cons s skins ih =>
      rw [allSkinRoots]
      refine andThen_ne (hms _ _ _) fun _ _ => andThen_ne ?_ fun _ _ => by simp
      cases skins with
      | nil => simp [allSkinRoots]
      | cons s' skins =>
        refine ih ?_
        rename_i hcond
        simp only [not_or] at hcond
        simp [hcond.1]
  · intro all _
    have hk : ∀ l, keepSkins checks parents fuel all l ≠ none := by
      intro l
      induction l with
      | nil => simp [keepSkins]
      | cons e l ih =>
        obtain ⟨roots, i⟩ := e
        match roots with
        | [] => simp [keepSkins, failed]
        | [r] =>
          rw [keepSkins]
          refine andThen_ne (hc _) fun _ _ => ?_
          split
          · simp [failed]
          · exact andThen_ne ih fun _ _ => by simp
        | r :: r' :: rs =>
          rw [keepSkins]
          exact andThen_ne ih fun _ _ => by simp
    exact hk _

/-- **C95** (negated in part): in a file with a node that is its own child the walk never ends. -/
theorem C95_cycle_counterexample (checks : Bool) (node : Node) (skins : List (List Nat)) (hc : node.children = [0]) (hne : skins ≠ []) (fuel : Nat) :
    gatherSkeletonRoots checks true [node] [0] skins fuel = none := by
  have key : ∀ (fuel : Nat) (m : List (Option Nat)), m.length = 1 → buildParents [node] fuel [0] m = none := by
    intro fuel
    induction fuel with
    | zero => intro m _; rfl
    | succ fuel ih =>
      intro m hm
      have h1 : levelParents [node] [0] m = .ok (m.set 0 (some 0), [0]) := by
        simp [levelParents, hc, setParents, hm, Outcome.bind]
      rw [buildParents, h1]
      exact ih _ (by simpa using hm)
  unfold gatherSkeletonRoots
  rw [if_neg (by simp [hne])]
  have : buildParents [node] fuel (List.map Int.ofNat [0]) (List.replicate [node].length none) = none := key fuel _ rfl
  rw [this]
  rfl

/-- A root with two children, the first with a child. -/
def exampleNodes : List Node := [⟨[1, 2], true, false, ""⟩, ⟨[3], true, false, ""⟩, ⟨[], true, false, ""⟩, ⟨[], true, false, ""⟩]

theorem exampleNodes_lists {p c : Nat} (h : Lists exampleNodes p c) : (p = 0 ∧ c = 1) ∨ (p = 0 ∧ c = 2) ∨ (p = 1 ∧ c = 3) := by
  obtain ⟨node, h1, h2⟩ := h
  match p with
  | 0 =>
    simp only [exampleNodes, List.getElem?_cons_zero, Option.some.injEq] at h1
    subst h1
    simp only [List.mem_cons, List.not_mem_nil, or_false] at h2
    omega
  | 1 =>
    simp only [exampleNodes, List.getElem?_cons_succ, List.getElem?_cons_zero, Option.some.injEq] at h1
    subst h1
    simp only [List.mem_cons, List.not_mem_nil, or_false] at h2
    omega
  | 2 =>
    simp only [exampleNodes, List.getElem?_cons_succ, List.getElem?_cons_zero, Option.some.injEq] at h1
    subst h1
    simp at h2
  | 3 =>
    simp only [exampleNodes, List.getElem?_cons_succ, List.getElem?_cons_zero, Option.some.injEq] at h1
    subst h1
    simp at h2
  | n + 4 => simp [exampleNodes] at h1

theorem exampleNodes_strict : StrictTrees exampleNodes [0] (fun n => if n ≤ 3 then n else 3) 3 where
  oneParent p p' c h h' := by
    rcases exampleNodes_lists h with h | h | h <;> rcases exampleNodes_lists h' with h' | h' | h' <;> omega
  top r hr p h := by
    rw [List.mem_singleton] at hr
    rcases exampleNodes_lists h with h | h | h <;> omega
  grows p c h := by
    rcases exampleNodes_lists h with ⟨rfl, rfl⟩ | ⟨rfl, rfl⟩ | ⟨rfl, rfl⟩ <;> decide
  bounded n := by
    split <;> omega

theorem exampleNodes_below : Below exampleNodes 0 1 ∧ Below exampleNodes 0 2 ∧ Below exampleNodes 1 3 ∧ Below exampleNodes 0 3 := by
  have h01 : Lists exampleNodes 0 1 := ⟨_, rfl, by decide⟩
  have h02 : Lists exampleNodes 0 2 := ⟨_, rfl, by decide⟩
  have h13 : Lists exampleNodes 1 3 := ⟨_, rfl, by decide⟩
  exact ⟨.step .self h01, .step .self h02, .step .self h13, .step (.step .self h01) h13⟩

/-- A skin of three joints, two of them children of a node that is no joint, and one of the third joint alone: one skeleton, from that node. -/
example : gatherSkeletonRoots true true exampleNodes [0] [[1, 3, 2], [3]] 4 = some (.ok [[0]]) := by decide +kernel

example : (∀ skin ∈ [[1, 3, 2], [3]], ∀ j ∈ skin, InScene exampleNodes [0] j) ∧
    ∀ (i k : Nat) (a b : List Nat) (r : Nat), [[1, 3, 2], [3]][i]? = some a → [[1, 3, 2], [3]][k]? = some b → Closest exampleNodes a r →
      Closest exampleNodes b r → i = k := by
  obtain ⟨b1, b2, _, b3⟩ := exampleNodes_below
  refine ⟨?_, ?_⟩
  · intro skin hs j hj
    refine ⟨0, by simp, ?_⟩
    simp only [List.mem_cons, List.not_mem_nil, or_false] at hs
    rcases hs with rfl | rfl <;> simp only [List.mem_cons, List.not_mem_nil, or_false] at hj
    · rcases hj with rfl | rfl | rfl <;> assumption
    · subst hj; exact b3
  · have hno : ∀ r, Closest exampleNodes [1, 3, 2] r → ¬ Closest exampleNodes [3] r := by
      intro r h1 h2
      have h3 : Below exampleNodes 3 r := h2.2 3 (by intro j hj; rw [List.mem_singleton] at hj; subst hj; exact .self)
      have h4 := h3.trans (h1.1 1 (by simp))
      rcases below_rank exampleNodes_strict.grows h4 with h | h
      · omega
      · exact absurd h (by decide)
    intro i k a b r hi hk ha hb
    match i, k with
    | 0, 0 => rfl
    | 1, 1 => rfl
    | 0, 1 =>
      simp only [List.getElem?_cons_zero, List.getElem?_cons_succ, Option.some.injEq] at hi hk
      subst hi hk
      exact absurd hb (hno r ha)
    | 1, 0 =>
      simp only [List.getElem?_cons_zero, List.getElem?_cons_succ, Option.some.injEq] at hi hk
      subst hi hk
      exact absurd ha (hno r hb)
    | i + 2, _ => simp at hi
    | _, k + 2 => simp at hk

/-- Two skins of the same joints: an error, or memory outside of a list without checks. -/
example : hierarchyRoots true true exampleNodes [0] [[1, 3], [1, 3]] 4 = some .throws ∧
    hierarchyRoots false true exampleNodes [0] [[1, 3], [1, 3]] 4 = some .ub ∧
    hierarchyRoots true true exampleNodes [0] [[1, 3]] 4 = some (.ok [1]) := by decide +kernel

example : Closest exampleNodes [1, 3] 1 := by
  obtain ⟨_, _, b2, _⟩ := exampleNodes_below
  refine ⟨?_, fun d hd => hd 1 (by simp)⟩
  intro j hj
  simp only [List.mem_cons, List.not_mem_nil, or_false] at hj
  rcases hj with rfl | rfl
  · exact .self
  · exact b2

/-- Without checks only the first of several skeletons is loaded. -/
example : hierarchyRoots true true exampleNodes [0] [[1, 3], [2]] 4 = some .throws ∧ hierarchyRoots false true exampleNodes [0] [[1, 3], [2]] 4 = some (.ok [1]) ∧
    hierarchyRoots true true exampleNodes [0] [[1, 3, 2], [3]] 4 = some (.ok [0]) ∧ hierarchyRoots true false exampleNodes [0] [[1, 3]] 4 = some (.ok [0]) := by
  decide +kernel

/-- Skins in two trees have several roots. -/
example : (parentMap exampleNodes [0] 4 = some (.ok [none, some 0, some 0, some 1])) ∧
    skinRoots [none, some 0, some 0, some 1, none] 4 [3, 2, 4] = some (.ok [0, 4]) := by decide +kernel

end Momentum.Gltf
