import Verif.Lemmas.GltfHierarchy

/-!
# C93: the hierarchy of a glTF file
-/

namespace Momentum.Gltf

theorem loadRoots_ok {nodes : List Node} {ext : Bool} {fuel : Nat} : ∀ (rs : List Int) (st st' : Hierarchy), st.joints = [] →
    (∀ root, WellFormed nodes ext root st) → loadRoots nodes ext fuel rs st = some (.ok st') →
    (st'.joints = [] ∧ st'.capsules = [] ∧ st'.locators = []) ∨
    ∃ root : Nat, (root : Int) ∈ rs ∧ WellFormed nodes ext root st' ∧
      ∃ s, s.joints = [] ∧ loadNode nodes ext fuel root none s = some (.ok st')
  | [], st, st', h0, hw, h => by
    simp only [loadRoots, Option.some.injEq, Outcome.ok.injEq] at h
    subst h
    refine Or.inl ⟨h0, ?_, ?_⟩
    · refine List.eq_nil_iff_forall_not_mem.mpr fun o ho => ?_
      obtain ⟨_, h1, h2⟩ := (hw 0).capsules o ho
      cases hp : o.parent with
      | none => exact h1 hp
      | some q =>
        rw [hp] at h2
        obtain ⟨a, ha, _⟩ := h2
        simp [h0] at ha
    · refine List.eq_nil_iff_forall_not_mem.mpr fun o ho => ?_
      obtain ⟨_, h1, h2⟩ := (hw 0).locators o ho
      cases hp : o.parent with
      | none => exact h1 hp
      | some q =>
        rw [hp] at h2
        obtain ⟨a, ha, _⟩ := h2
        simp [h0] at ha
  | r :: rs, st, st', h0, hw, h => by
    rw [loadRoots] at h
    cases hr : loadNode nodes ext fuel r none st with
    | none => rw [hr] at h; simp [andThen] at h
    | some o =>
      cases o with
      | throws => rw [hr] at h; simp [andThen] at h
      | ub => rw [hr] at h; simp [andThen] at h
      | ok s =>
        rw [hr] at h
        simp only [andThen] at h
        obtain ⟨n, rfl⟩ := loadNode_nat hr
        obtain ⟨g, _⟩ := loadNode_good fuel n none st s (hw n) Top.root hr
        by_cases hs : s.joints = []
        · rw [if_neg (by simpa using hs)] at h
          have hall : ∀ root, WellFormed nodes ext root s := by
            intro root
            have hp : ∀ (n : Nat) (p : Option Nat), p ≠ none → ¬ ParentRight nodes ext n s.joints n p := by
              intro n p hp hc
              cases p with
              | none => exact hp rfl
              | some q =>
                obtain ⟨a, ha, _⟩ := hc
                simp [hs] at ha
            have hc : ∀ o ∈ s.capsules, False := by
              intro o ho
              obtain ⟨_, h1, h2⟩ := g.capsules o ho
              cases hp : o.parent with
              | none => exact h1 hp
              | some q =>
                rw [hp] at h2
                obtain ⟨a, ha, _⟩ := h2
                simp [hs] at ha
            have hl : ∀ o ∈ s.locators, False := by
              intro o ho
              obtain ⟨_, h1, h2⟩ := g.locators o ho
              cases hp : o.parent with
              | none => exact h1 hp
              | some q =>
                rw [hp] at h2
                obtain ⟨a, ha, _⟩ := h2
                simp [hs] at ha
            exact ⟨fun k o ho => by simp [hs] at ho, fun o ho => (hc o ho).elim, fun o ho => (hl o ho).elim, g.size, g.map⟩
          rcases loadRoots_ok rs s st' hs hall h with h | ⟨root, h1, h2⟩
          · exact Or.inl h
          · exact Or.inr ⟨root, List.mem_cons_of_mem _ h1, h2⟩
        · rw [if_pos hs] at h
          simp only [Option.some.injEq, Outcome.ok.injEq] at h
          subst h
          exact Or.inr ⟨n, by simp, g, st, h0, hr⟩

theorem start_wellFormed (nodes : List Node) (ext : Bool) (root : Nat) : WellFormed nodes ext root ⟨[], [], [], List.replicate nodes.length none⟩ := by
  refine ⟨fun k o h => by simp at h, fun o h => by simp at h, fun o h => by simp at h, by simp, fun n k node h _ => ?_⟩
  rw [List.getElem?_replicate] at h
  split at h <;> simp at h

/-- C93. From any file, whatever its nodes, if loading ends and reports no error, then nothing is loaded or all is loaded from one root: each joint
comes after its parent, which is its nearest joint above, each capsule and locator has a joint, the nearest above, the map leads from nodes to their
objects, and every joint below the root is there. -/
theorem C93_hierarchy (nodes : List Node) (useExtension : Bool) (depth : Nat) (roots : List Int) (st : Hierarchy)
    (h : loadHierarchy nodes useExtension depth roots = some (.ok st)) :
    (st.joints = [] ∧ st.capsules = [] ∧ st.locators = []) ∨
    ∃ root : Nat, (root : Int) ∈ roots ∧ WellFormed nodes useExtension root st ∧
      ∀ (x : Nat) (node : Node), Reach nodes root x → nodes[x]? = some node → node.inHierarchy = true → IsJoint useExtension node →
        ∃ o ∈ st.joints, o.node = x := by
  rcases loadRoots_ok roots _ st rfl (fun root => start_wellFormed nodes useExtension root) h with h | ⟨root, h1, h2, s, _, h4⟩
  · exact Or.inl h
  · refine Or.inr ⟨root, h1, h2, fun x node hx hn hh hj => ?_⟩
    have := loadNode_complete depth root none s st h4 x node hx hn hh hj
    exact List.mem_map.mp this

/-- Not vacuous: a root without extension above two joints, the second with a capsule below a plain node and a locator. -/
example : loadHierarchy [⟨[1, 2], true, false, ""⟩, ⟨[], true, false, "skeleton_joint"⟩, ⟨[3, 5], true, false, "skeleton_joint"⟩, ⟨[4], true, true, ""⟩,
      ⟨[], true, false, "collision_capsule"⟩, ⟨[], true, false, "locator"⟩, ⟨[], true, false, "skeleton_joint"⟩] true 9 [0, 6] =
    some (.ok ⟨[⟨1, none⟩, ⟨2, none⟩], [⟨4, some 1⟩], [⟨5, some 1⟩], [none, some 0, some 1, none, some 0, some 0, none]⟩) := by decide +kernel

/-- C93. In a file without cycles the recursion ends, and in a tree no joint is loaded twice. -/
theorem C93_tree (nodes : List Node) (useExtension : Bool) (rank : Nat → Nat) (bound : Nat) (acyclic : ∀ a b, Child nodes a b → rank a < rank b)
    (bounded : ∀ a, rank a ≤ bound) (roots : List Int) :
    (∀ depth, bound + 1 < depth → loadHierarchy nodes useExtension depth roots ≠ none) ∧
    ((∀ a a' b, Child nodes a b → Child nodes a' b → a = a') → (∀ node ∈ nodes, node.children.Nodup) → ∀ depth st,
      loadHierarchy nodes useExtension depth roots = some (.ok st) → (st.joints.map (·.node)).Nodup) := by
  constructor
  · intro depth hd
    unfold loadHierarchy
    generalize (⟨[], [], [], List.replicate nodes.length none⟩ : Hierarchy) = st
    induction roots generalizing st with
    | nil => simp [loadRoots]
    | cons r rs ih =>
      rw [loadRoots]
      have := loadNode_ends (ext := useExtension) rank bound acyclic bounded depth r none st (by omega)
      cases hr : loadNode nodes useExtension depth r none st with
      | none => exact absurd hr this
      | some o =>
        cases o with
        | throws => simp [andThen]
        | ub => simp [andThen]
        | ok s =>
          simp only [andThen]
          split
          · simp
          · exact ih s
  · intro huniq hnd depth st h
    rcases loadRoots_ok roots _ st rfl (fun root => start_wellFormed nodes useExtension root) h with h | ⟨root, _, _, s, h3, h4⟩
    · simp [h.1]
    · obtain ⟨L, l1, l2, _⟩ := loadNode_nodup rank acyclic huniq hnd depth root none s st h4
      have : jointNodes s = [] := by simp [jointNodes, h3]
      rw [this, List.nil_append] at l1
      rw [jointNodes] at l1
      rw [l1]
      exact l2

/-- C93 fails for files with a cycle: the recursion never ends, however deep the stack. -/
theorem C93_cycle_counterexample : ∀ depth, loadHierarchy [⟨[0], true, false, ""⟩] false depth [0] = none := by
  intro depth
  have key : ∀ (fuel : Nat) (p : Option Nat) (s : Hierarchy), loadNode [⟨[0], true, false, ""⟩] false fuel 0 p s = none := by
    intro fuel
    induction fuel with
    | zero => intro p s; rfl
    | succ fuel ih =>
      intro p s
      have hc : ¬ ((0 : Int) < 0 ∨ (0 : Int) > ([⟨[0], true, false, ""⟩] : List Node).length) := by decide
      rw [loadNode, if_neg hc]
      show (match place false ⟨[0], true, false, ""⟩ 0 p s with
        | .throws => some .throws
        | .ub => some .ub
        | .ok r => loadList (fun c s => loadNode [⟨[0], true, false, ""⟩] false fuel c r.2 s) [0] r.1) = none
      have hp : place false ⟨[0], true, false, ""⟩ 0 p s =
          .ok ({ s with joints := s.joints ++ [⟨0, p⟩], map := s.map.set 0 (some s.joints.length) }, some s.joints.length) := rfl
      rw [hp]
      simp only [loadList, ih, andThen]
  rw [loadHierarchy, loadRoots, key]
  rfl

/-- C93 fails for files with an index equal to the number of nodes, which passes the check; larger and negative ones are refused. -/
theorem C93_index (nodes : List Node) (useExtension : Bool) (depth : Nat) (id : Int) (parent : Option Nat) (st : Hierarchy) :
    (id < 0 ∨ nodes.length < id → loadNode nodes useExtension (depth + 1) id parent st = some .throws) ∧
    (id = nodes.length → loadNode nodes useExtension (depth + 1) id parent st = some .ub) := by
  constructor
  · intro h
    rw [loadNode, if_pos h]
  · intro h
    subst h
    have hc : ¬ ((nodes.length : Int) < 0 ∨ (nodes.length : Int) > nodes.length) := by omega
    rw [loadNode, if_neg hc, Int.toNat_natCast, List.getElem?_eq_none le_rfl]

/-- C93. A skeleton in which each joint comes after its parent, saved into a new document and loaded: each loaded joint is one of the skeleton's, none
twice, with the same parent; if only the first joint has no parent, all are loaded; if they are listed depth first, the loaded skeleton is the same. -/
theorem C93_skeleton (extension useExtension : Bool) (hext : extension = true ∨ useExtension = false) (parents : List (Option Nat))
    (hne : parents ≠ []) (valid : ∀ (j p : Nat), parents[j]? = some (some p) → p < j) :
    ∃ built, addSkeleton extension parents ⟨[], [], []⟩ = .ok built ∧ ∀ depth, parents.length + 1 < depth →
      ∃ st, loadHierarchy built.nodes useExtension depth built.roots = some (.ok st) ∧ (st.joints.map (·.node)).Nodup ∧
      (∀ (k : Nat) (o : Loaded), st.joints[k]? = some o → o.node < parents.length ∧ ((o.parent = none ∧ o.node = 0) ∨
        ∃ q above, o.parent = some q ∧ q < k ∧ st.joints[q]? = some above ∧ parents[o.node]? = some (some above.node))) ∧
      ((∀ j : Nat, 0 < j → parents[j]? ≠ some none) → st.joints.length = parents.length) ∧
      (DepthFirst parents → st.joints = parents.mapIdx fun k p => ⟨k, p⟩) := by
  refine ⟨_, addSkeleton_eq extension [] parents valid, fun depth hd => ?_⟩
  dsimp only
  rw [List.nil_append, if_neg hne]
  simp only [List.length_nil, Nat.cast_zero]
  set nodes := (List.range parents.length).map (jointNode extension 0 parents) with hnodes
  have hlen : nodes.length = parents.length := by rw [hnodes, List.length_map, List.length_range]
  have hpos : 0 < parents.length := List.length_pos_iff.mpr hne
  have hget : ∀ (a : Nat) (node : Node), nodes[a]? = some node ↔ a < parents.length ∧ node = jointNode extension 0 parents a := by
    intro a node
    rw [hnodes, List.getElem?_map]
    by_cases ha : a < parents.length
    · rw [List.getElem?_range ha]
      simp only [Option.map_some, Option.some.injEq]
      exact ⟨fun h => ⟨ha, h.symm⟩, fun h => h.2.symm⟩
    · rw [List.getElem?_eq_none (by simpa using ha)]
      simp [ha]
  have hjoint : ∀ i, IsJoint useExtension (jointNode extension 0 parents i) := by
    intro i
    unfold IsJoint jointNode
    cases extension
    · rcases hext with h | h
      · simp at h
      · exact ⟨by simp, by simp, Or.inr ⟨h, rfl⟩⟩
    · exact ⟨by simp, by simp, Or.inl rfl⟩
  have hchildren : ∀ (i : Nat) (c : Int), c ∈ (jointNode extension 0 parents i).children ↔ ∃ j : Nat, parents[j]? = some (some i) ∧ c = (j : Int) := by
    intro i c
    unfold jointNode
    simp only [List.mem_map, List.mem_filter, List.mem_range, decide_eq_true_eq, Nat.zero_add]
    constructor
    · rintro ⟨j, ⟨_, h⟩, rfl⟩
      exact ⟨j, h, rfl⟩
    · rintro ⟨j, h, rfl⟩
      exact ⟨j, ⟨(List.getElem?_eq_some_iff.mp h).1, h⟩, rfl⟩
  have hchild : ∀ a b, Child nodes a b ↔ parents[b]? = some (some a) := by
    intro a b
    constructor
    · rintro ⟨node, h1, _, h3⟩
      rw [((hget a node).mp h1).2, hchildren] at h3
      obtain ⟨j, h4, h5⟩ := h3
      have : b = j := by exact_mod_cast h5
      exact this ▸ h4
    · intro h
      have h1 := valid b a h
      have h2 := (List.getElem?_eq_some_iff.mp h).1
      exact ⟨_, (hget a _).mpr ⟨by omega, rfl⟩, rfl, (hchildren a b).mpr ⟨b, h, rfl⟩⟩
  have hrank : ∀ a b, Child nodes a b → min a parents.length < min b parents.length := by
    intro a b h
    rw [hchild] at h
    have h1 := valid b a h
    have h2 := (List.getElem?_eq_some_iff.mp h).1
    omega
  have huniq : ∀ a a' b, Child nodes a b → Child nodes a' b → a = a' := by
    intro a a' b h1 h2
    rw [hchild] at h1 h2
    rw [h1] at h2
    simpa using h2
  have hmem : ∀ node ∈ nodes, ∃ i, node = jointNode extension 0 parents i := by
    intro node hn
    obtain ⟨i, _, rfl⟩ := List.mem_map.mp hn
    exact ⟨i, rfl⟩
  have hnd : ∀ node ∈ nodes, node.children.Nodup := by
    intro node hn
    obtain ⟨i, rfl⟩ := hmem node hn
    refine List.Nodup.map ?_ (List.nodup_range.filter _)
    intro x y hxy
    simpa using hxy
  have hends := loadNode_ends (nodes := nodes) (ext := useExtension) (fun a => min a parents.length) parents.length hrank (fun a => by omega) depth
    ((0 : Nat) : Int) none ⟨[], [], [], List.replicate nodes.length none⟩ (by omega)
  obtain ⟨o, ho⟩ := Option.ne_none_iff_exists'.mp hends
  obtain ⟨st, rfl⟩ := loadNode_fine (nodes := nodes) (ext := useExtension) (by
      intro node hn c hc
      obtain ⟨i, rfl⟩ := hmem node hn
      obtain ⟨j, h1, rfl⟩ := (hchildren i c).mp hc
      have := (List.getElem?_eq_some_iff.mp h1).1
      omega) (by
      intro node hn
      obtain ⟨i, rfl⟩ := hmem node hn
      exact hjoint i) depth ((0 : Nat) : Int) none _ o (by omega) (by omega) ho
  obtain ⟨good, _⟩ := loadNode_good depth 0 none _ st (start_wellFormed nodes useExtension 0) Top.root ho
  obtain ⟨L, l1, l2, _⟩ := loadNode_nodup _ hrank huniq hnd depth 0 none _ st ho
  have hL : st.joints.map (·.node) = L := by
    have : jointNodes (⟨[], [], [], List.replicate nodes.length none⟩ : Hierarchy) = [] := rfl
    rw [this, List.nil_append] at l1
    exact l1
  have hin : ∀ o ∈ st.joints, o.node < parents.length := by
    intro o ho
    obtain ⟨k, hk⟩ := List.getElem?_of_mem ho
    obtain ⟨⟨node, h1, _⟩, _⟩ := good.joints k o hk
    exact ((hget _ _).mp h1).1
  have hright : ∀ (k : Nat) (o : Loaded), st.joints[k]? = some o → ((o.parent = none ∧ o.node = 0) ∨
      ∃ q above, o.parent = some q ∧ q < k ∧ st.joints[q]? = some above ∧ parents[o.node]? = some (some above.node)) := by
    intro k o ho
    obtain ⟨_, h2, h3⟩ := good.joints k o ho
    cases hp : o.parent with
    | none =>
      rw [hp] at h3
      refine Or.inl ⟨rfl, ?_⟩
      generalize o.node = x at h3
      cases h3 with
      | root => rfl
      | step _ h4 h5 _ =>
        rw [((hget _ _).mp h4).2] at h5
        exact absurd (hjoint _) h5
    | some q =>
      rw [hp] at h3
      obtain ⟨above, h4, h5⟩ := h3
      refine Or.inr ⟨q, above, rfl, h2 q hp, h4, ?_⟩
      generalize o.node = x at h5 ⊢
      cases h5 with
      | direct h6 => exact (hchild _ _).mp h6
      | step _ h7 h8 _ =>
        rw [((hget _ _).mp h7).2] at h8
        exact absurd (hjoint _) h8
  have hperm : (∀ j : Nat, 0 < j → parents[j]? ≠ some none) → (st.joints.map (·.node)).Perm (List.range parents.length) := by
    intro hall
    have hreach : ∀ j, j < parents.length → Reach nodes 0 j := by
      intro j
      induction j using Nat.strong_induction_on with
      | _ j ih =>
        intro hj
        rcases Nat.eq_zero_or_pos j with rfl | hj0
        · exact Reach.self
        · cases hp : parents[j]? with
          | none =>
            rw [List.getElem?_eq_none_iff] at hp
            omega
          | some p =>
            cases p with
            | none => exact absurd hp (hall j hj0)
            | some p =>
              have := valid j p hp
              exact Reach.step (ih p this (by omega)) ((hchild p j).mpr hp)
    rw [List.perm_ext_iff_of_nodup (by rw [hL]; exact l2) List.nodup_range]
    intro x
    rw [List.mem_range]
    constructor
    · intro hx
      obtain ⟨o, ho, rfl⟩ := List.mem_map.mp hx
      exact hin o ho
    · intro hx
      exact loadNode_complete depth 0 none _ st ho x _ (hreach x hx) ((hget x _).mpr ⟨hx, rfl⟩) rfl (hjoint x)
  refine ⟨st, ?_, by rw [hL]; exact l2, fun k o ho => ⟨hin o (List.mem_of_getElem? ho), hright k o ho⟩,
    fun hall => by simpa using (hperm hall).length_eq, ?_⟩
  · rw [loadHierarchy, loadRoots, show ((0 : Int)) = ((0 : Nat) : Int) from rfl, ho]
    simp only [andThen, loadRoots]
    split <;> rfl
  · intro df
    have hall : ∀ j : Nat, 0 < j → parents[j]? ≠ some none := by
      intro j hj hn
      obtain ⟨i, rfl⟩ : ∃ i, j = i + 1 := ⟨j - 1, by omega⟩
      obtain ⟨p, hp, _⟩ := df i (List.getElem?_eq_some_iff.mp hn).1
      rw [hp] at hn
      simp at hn
    have hab : ∀ a b, Reach nodes a b → Above parents a b := by
      intro a b hr
      induction hr with
      | self => exact Above.self
      | step _ hc ih => exact Above.step ih ((hchild _ _).mp hc)
    obtain ⟨L', k1, k2, _⟩ := loadNode_sorted (nodes := nodes) (ext := useExtension) (fun a b h => valid b a ((hchild a b).mp h))
      (fun a c1 c2 x h1 h2 hc hx => depthFirst_sep valid df ((hchild _ _).mp h1) ((hchild _ _).mp h2) hc x (hab _ _ hx)) (by
        intro node hn
        obtain ⟨i, rfl⟩ := hmem node hn
        unfold jointNode
        rw [List.pairwise_map]
        refine (List.pairwise_lt_range.filter _).imp fun {x y} h => ?_
        omega) depth 0 none _ st ho
    have hL' : st.joints.map (·.node) = L' := by
      have : jointNodes (⟨[], [], [], List.replicate nodes.length none⟩ : Hierarchy) = [] := rfl
      rw [this, List.nil_append] at k1
      exact k1
    have heq : st.joints.map (·.node) = List.range parents.length :=
      List.Perm.eq_of_pairwise (le := (· < ·)) (fun a b _ _ h1 h2 => absurd h1 (by omega)) (by rw [hL']; exact k2) List.pairwise_lt_range (hperm hall)
    have hnode : ∀ (k : Nat) (o : Loaded), st.joints[k]? = some o → o.node = k := by
      intro k o hk
      have h1 : (st.joints.map (·.node))[k]? = some o.node := by rw [List.getElem?_map, hk]; rfl
      rw [heq] at h1
      have h2 := (List.getElem?_eq_some_iff.mp h1).1
      rw [List.length_range] at h2
      rw [List.getElem?_range h2] at h1
      exact (Option.some.inj h1).symm
    have hlen' : st.joints.length = parents.length := by simpa using congrArg List.length heq
    apply List.ext_getElem?
    intro k
    rw [List.getElem?_mapIdx]
    cases hk : st.joints[k]? with
    | none =>
      rw [List.getElem?_eq_none_iff] at hk
      rw [List.getElem?_eq_none (by omega)]
      rfl
    | some o =>
      have h1 := hnode k o hk
      have h2 := (List.getElem?_eq_some_iff.mp hk).1
      rcases hright k o hk with ⟨h3, h4⟩ | ⟨q, above, h3, _, h5, h6⟩
      · have hk0 : k = 0 := by omega
        subst hk0
        cases hp : parents[0]? with
        | none =>
          rw [List.getElem?_eq_none_iff] at hp
          omega
        | some p =>
          cases p with
          | some p => exact absurd (valid 0 p hp) (by omega)
          | none =>
            simp only [Option.map_some, Option.some.injEq]
            obtain ⟨n, p⟩ := o
            simp only at h1 h3
            rw [h1, h3]
      · rw [h1, hnode q above h5] at h6
        rw [h6]
        simp only [Option.map_some, Option.some.injEq]
        obtain ⟨n, p⟩ := o
        simp only at h1 h3
        rw [h1, h3]

/-- Not vacuous: a skeleton listed depth first. -/
example : DepthFirst [none, some 0, some 1, some 0] := by
  intro j hj
  have h1 : Above [none, some 0, some 1, some 0] 0 1 := Above.step Above.self rfl
  have h2 : Above [none, some 0, some 1, some 0] 0 2 := Above.step h1 rfl
  match j, hj with
  | 0, _ => exact ⟨0, rfl, Above.self⟩
  | 1, _ => exact ⟨1, rfl, Above.self⟩
  | 2, _ => exact ⟨0, rfl, h2⟩

/-- Not vacuous: a skeleton of four joints. -/
example : (addSkeleton true [none, some 0, some 1, some 0] ⟨[], [], []⟩).bind (fun built =>
      (loadHierarchy built.nodes true 6 built.roots).getD .ub) =
    .ok ⟨[⟨0, none⟩, ⟨1, some 0⟩, ⟨2, some 1⟩, ⟨3, some 0⟩], [], [], [some 0, some 1, some 2, some 3]⟩ := by decide +kernel

/-- C93 fails for the order of joints: those of a skeleton that is not listed depth first have other indices after loading. -/
theorem C93_order_counterexample : (addSkeleton true [none, some 0, some 0, some 1] ⟨[], [], []⟩).bind (fun built =>
      (loadHierarchy built.nodes true 6 built.roots).getD .ub) =
    .ok ⟨[⟨0, none⟩, ⟨1, some 0⟩, ⟨3, some 1⟩, ⟨2, some 0⟩], [], [], [some 0, some 1, some 3, some 2]⟩ := by decide +kernel

/-- C93 fails for skeletons with several roots: only the first joint is put into the scene, and the others are lost with all below them. -/
theorem C93_roots_counterexample : (addSkeleton true [none, none, some 1] ⟨[], [], []⟩).bind (fun built =>
      (loadHierarchy built.nodes true 6 built.roots).getD .ub) = .ok ⟨[⟨0, none⟩], [], [], [some 0, none, none]⟩ := by decide +kernel

end Momentum.Gltf
