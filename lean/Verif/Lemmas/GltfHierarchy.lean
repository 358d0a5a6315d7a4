import Verif.Spec.GltfHierarchy
import Mathlib.Data.List.Basic
import Mathlib.Data.List.Nodup

/-!
# Lemmas on hierarchies of glTF files
-/

namespace Momentum.Gltf

theorem loadList_inv {f : Int → Hierarchy → Option (Outcome Hierarchy)} (I : Hierarchy → Prop) : ∀ (cs : List Int) (st st' : Hierarchy),
    (∀ c ∈ cs, ∀ s s', I s → f c s = some (.ok s') → I s') → I st → loadList f cs st = some (.ok st') → I st'
  | [], st, st', _, h0, h => by
    simp only [loadList, Option.some.injEq, Outcome.ok.injEq] at h
    exact h ▸ h0
  | c :: cs, st, st', hf, h0, h => by
    rw [loadList] at h
    cases hc : f c st with
    | none => rw [hc] at h; simp [andThen] at h
    | some o =>
      cases o with
      | throws => rw [hc] at h; simp [andThen] at h
      | ub => rw [hc] at h; simp [andThen] at h
      | ok s =>
        rw [hc] at h
        exact loadList_inv I cs s st' (fun x hx => hf x (List.mem_cons_of_mem _ hx)) (hf c (by simp) st s h0 hc) h

theorem loadNode_ok {nodes : List Node} {ext : Bool} {fuel : Nat} {id : Int} {parent : Option Nat} {st st' : Hierarchy}
    (h : loadNode nodes ext (fuel + 1) id parent st = some (.ok st')) : ∃ (n : Nat) (node : Node), id = (n : Int) ∧ nodes[n]? = some node ∧
      ((node.inHierarchy = false ∧ st' = st) ∨ (node.inHierarchy = true ∧ ∃ r, place ext node n parent st = .ok r ∧
        loadList (fun c s => loadNode nodes ext fuel c r.2 s) node.children r.1 = some (.ok st'))) := by
  rw [loadNode] at h
  split at h
  · simp at h
  · rename_i hr
    have hid : id = (id.toNat : Int) := by omega
    cases hn : nodes[id.toNat]? with
    | none => rw [hn] at h; simp at h
    | some node =>
      rw [hn] at h
      dsimp only at h
      refine ⟨id.toNat, node, hid, hn, ?_⟩
      split at h
      · rename_i hh
        simp only [Option.some.injEq, Outcome.ok.injEq] at h
        exact Or.inl ⟨hh, h.symm⟩
      · rename_i hh
        right
        refine ⟨by simpa using hh, ?_⟩
        cases hp : place ext node id.toNat parent st with
        | throws => rw [hp] at h; simp at h
        | ub => rw [hp] at h; simp at h
        | ok r => rw [hp] at h; exact ⟨r, rfl, h⟩

/-- What `place` does. -/
theorem place_cases {ext : Bool} {node : Node} {n : Nat} {parent : Option Nat} {st : Hierarchy} {r : Hierarchy × Option Nat}
    (h : place ext node n parent st = .ok r) :
    (IsJoint ext node ∧ r.2 = some st.joints.length ∧ r.1.joints = st.joints ++ [⟨n, parent⟩] ∧ r.1.capsules = st.capsules ∧
      r.1.locators = st.locators ∧ r.1.map = st.map.set n (some st.joints.length)) ∨
    (¬ IsJoint ext node ∧ r.2 = parent ∧ r.1.joints = st.joints ∧
      ((node.type = "collision_capsule" ∧ parent ≠ none ∧ r.1.capsules = st.capsules ++ [⟨n, parent⟩] ∧ r.1.locators = st.locators ∧
          r.1.map = st.map.set n (some st.capsules.length)) ∨
        (node.type = "locator" ∧ parent ≠ none ∧ r.1.capsules = st.capsules ∧ r.1.locators = st.locators ++ [⟨n, parent⟩] ∧
          r.1.map = st.map.set n (some st.locators.length)) ∨
        (node.type ≠ "collision_capsule" ∧ node.type ≠ "locator" ∧ r.1.capsules = st.capsules ∧ r.1.locators = st.locators ∧
          r.1.map = st.map))) := by
  unfold place at h
  split at h
  · rename_i h1
    split at h
    · simp at h
    · rename_i h2
      simp only [Outcome.ok.injEq] at h
      subst h
      exact Or.inr ⟨fun hj => hj.1 h1, rfl, rfl, Or.inl ⟨h1, h2, rfl, rfl, rfl⟩⟩
  · rename_i h1
    split at h
    · rename_i h2
      split at h
      · simp at h
      · rename_i h3
        simp only [Outcome.ok.injEq] at h
        subst h
        exact Or.inr ⟨fun hj => hj.2.1 h2, rfl, rfl, Or.inr (Or.inl ⟨h2, h3, rfl, rfl, rfl⟩)⟩
    · rename_i h2
      split at h
      · rename_i h3
        simp only [Outcome.ok.injEq] at h
        subst h
        refine Or.inl ⟨⟨h1, h2, ?_⟩, rfl, rfl, rfl, rfl, rfl⟩
        simp only [Bool.or_eq_true, Bool.and_eq_true, Bool.not_eq_true', decide_eq_true_eq] at h3
        exact h3.symm
      · rename_i h3
        simp only [Outcome.ok.injEq] at h
        subst h
        refine Or.inr ⟨fun hj => h3 ?_, rfl, rfl, Or.inr (Or.inr ⟨h1, h2, rfl, rfl, rfl⟩)⟩
        simp only [Bool.or_eq_true, Bool.and_eq_true, Bool.not_eq_true', decide_eq_true_eq]
        exact hj.2.2.symm

theorem ParentRight.mono {nodes : List Node} {ext : Bool} {root n : Nat} {js more : List Loaded} {p : Option Nat}
    (h : ParentRight nodes ext root js n p) : ParentRight nodes ext root (js ++ more) n p := by
  cases p with
  | none => exact h
  | some q =>
    obtain ⟨a, h1, h2⟩ := h
    exact ⟨a, by rw [List.getElem?_append_left (List.getElem?_eq_some_iff.mp h1).1]; exact h1, h2⟩

theorem getElem?_concat_cases {α : Type} {l : List α} {a b : α} {k : Nat} (h : (l ++ [a])[k]? = some b) : l[k]? = some b ∨ (k = l.length ∧ b = a) := by
  by_cases hk : k < l.length
  · rw [List.getElem?_append_left hk] at h
    exact Or.inl h
  · rw [List.getElem?_append_right (by omega)] at h
    have := (List.getElem?_eq_some_iff.mp h).1
    simp only [List.length_singleton] at this
    have hk0 : k = l.length := by omega
    subst hk0
    simp at h
    exact Or.inr ⟨rfl, h.symm⟩

theorem WellFormed.place {nodes : List Node} {ext : Bool} {root n : Nat} {node : Node} {parent : Option Nat} {st : Hierarchy} {r : Hierarchy × Option Nat}
    (g : WellFormed nodes ext root st) (hn : nodes[n]? = some node) (hh : node.inHierarchy = true) (hp : ParentRight nodes ext root st.joints n parent)
    (h : place ext node n parent st = .ok r) : WellFormed nodes ext root r.1 ∧ (∃ L, r.1.joints = st.joints ++ L) ∧
      ∀ b, Child nodes n b → ParentRight nodes ext root r.1.joints b r.2 := by
  have hset : ∀ (m k v : Nat) (nd : Node), (st.map.set n (some v))[m]? = some (some k) → nodes[m]? = some nd →
      (m = n ∧ k = v ∧ nd = node) ∨ st.map[m]? = some (some k) := by
    intro m k v nd hm hnd
    rw [List.getElem?_set] at hm
    split at hm
    · rename_i hmn
      subst hmn
      split at hm
      · simp only [Option.some.injEq] at hm
        rw [hn] at hnd
        exact Or.inl ⟨rfl, hm.symm, (Option.some.inj hnd).symm⟩
      · simp at hm
    · exact Or.inr hm
  rcases place_cases h with ⟨hj, h2, h3, h4, h5, h6⟩ | ⟨hj, h2, h3, hc⟩
  · refine ⟨⟨?_, ?_, ?_, ?_, ?_⟩, ⟨_, h3⟩, ?_⟩
    · intro k o ho
      rw [h3] at ho ⊢
      rcases getElem?_concat_cases ho with ho | ⟨rfl, rfl⟩
      · obtain ⟨a, b, c⟩ := g.joints k o ho
        exact ⟨a, b, c.mono⟩
      · refine ⟨⟨node, hn, hh, hj⟩, fun q hq => ?_, hp.mono⟩
        dsimp only at hq
        subst hq
        obtain ⟨a, ha, _⟩ := hp
        exact (List.getElem?_eq_some_iff.mp ha).1
    · intro o ho
      rw [h4] at ho
      obtain ⟨a, b, c⟩ := g.capsules o ho
      rw [h3]
      exact ⟨a, b, c.mono⟩
    · intro o ho
      rw [h5] at ho
      obtain ⟨a, b, c⟩ := g.locators o ho
      rw [h3]
      exact ⟨a, b, c.mono⟩
    · rw [h6, List.length_set]
      exact g.size
    · intro m k nd hm hnd
      rw [h6] at hm
      rcases hset m k _ nd hm hnd with ⟨rfl, rfl, rfl⟩ | hm
      · exact ⟨⟨m, parent⟩, rfl, Or.inl ⟨hj, by rw [h3, List.getElem?_concat_length]⟩⟩
      · obtain ⟨o, ho, hk⟩ := g.map m k nd hm hnd
        refine ⟨o, ho, ?_⟩
        rw [h3, h4, h5]
        rcases hk with ⟨a, b⟩ | hk
        · exact Or.inl ⟨a, by rw [List.getElem?_append_left (List.getElem?_eq_some_iff.mp b).1]; exact b⟩
        · exact Or.inr hk
    · intro b hb
      rw [h2, h3]
      exact ⟨⟨n, parent⟩, List.getElem?_concat_length, Via.direct hb⟩
  · have hpc : ∀ b, Child nodes n b → ParentRight nodes ext root r.1.joints b r.2 := by
      intro b hb
      rw [h2, h3]
      cases parent with
      | none => exact Top.step hp hn hj hb
      | some q =>
        obtain ⟨a, ha, hv⟩ := hp
        exact ⟨a, ha, Via.step hv hn hj hb⟩
    refine ⟨?_, ⟨[], by rw [h3, List.append_nil]⟩, hpc⟩
    rcases hc with ⟨t, p, h4, h5, h6⟩ | ⟨t, p, h4, h5, h6⟩ | ⟨t, p, h4, h5, h6⟩
    · refine ⟨by rw [h3]; exact g.joints, ?_, by rw [h5, h3]; exact g.locators, by rw [h6, List.length_set]; exact g.size, ?_⟩
      · intro o ho
        rw [h4, List.mem_append, List.mem_singleton] at ho
        rw [h3]
        rcases ho with ho | rfl
        · exact g.capsules o ho
        · exact ⟨⟨node, hn, hh, t⟩, p, hp⟩
      · intro m k nd hm hnd
        rw [h6] at hm
        rcases hset m k _ nd hm hnd with ⟨rfl, rfl, rfl⟩ | hm
        · exact ⟨⟨m, parent⟩, rfl, Or.inr (Or.inl ⟨t, by rw [h4, List.getElem?_concat_length]⟩)⟩
        · obtain ⟨o, ho, hk⟩ := g.map m k nd hm hnd
          refine ⟨o, ho, ?_⟩
          rw [h3, h4, h5]
          rcases hk with hk | ⟨a, b⟩ | hk
          · exact Or.inl hk
          · exact Or.inr (Or.inl ⟨a, by rw [List.getElem?_append_left (List.getElem?_eq_some_iff.mp b).1]; exact b⟩)
          · exact Or.inr (Or.inr hk)
    · refine ⟨by rw [h3]; exact g.joints, by rw [h4, h3]; exact g.capsules, ?_, by rw [h6, List.length_set]; exact g.size, ?_⟩
      · intro o ho
        rw [h5, List.mem_append, List.mem_singleton] at ho
        rw [h3]
        rcases ho with ho | rfl
        · exact g.locators o ho
        · exact ⟨⟨node, hn, hh, t⟩, p, hp⟩
      · intro m k nd hm hnd
        rw [h6] at hm
        rcases hset m k _ nd hm hnd with ⟨rfl, rfl, rfl⟩ | hm
        · exact ⟨⟨m, parent⟩, rfl, Or.inr (Or.inr ⟨t, by rw [h5, List.getElem?_concat_length]⟩)⟩
        · obtain ⟨o, ho, hk⟩ := g.map m k nd hm hnd
          refine ⟨o, ho, ?_⟩
          rw [h3, h4, h5]
          rcases hk with hk | hk | ⟨a, b⟩
          · exact Or.inl hk
          · exact Or.inr (Or.inl hk)
          · exact Or.inr (Or.inr ⟨a, by rw [List.getElem?_append_left (List.getElem?_eq_some_iff.mp b).1]; exact b⟩)
    · exact ⟨by rw [h3]; exact g.joints, by rw [h4, h3]; exact g.capsules, by rw [h5, h3]; exact g.locators, by rw [h6]; exact g.size,
        by rw [h6, h3, h4, h5]; exact g.map⟩

theorem loadNode_good {nodes : List Node} {ext : Bool} {root : Nat} : ∀ (fuel : Nat) (n : Nat) (parent : Option Nat) (st st' : Hierarchy),
    WellFormed nodes ext root st → ParentRight nodes ext root st.joints n parent → loadNode nodes ext fuel n parent st = some (.ok st') →
    WellFormed nodes ext root st' ∧ ∃ L, st'.joints = st.joints ++ L
  | 0, _, _, _, _, _, _, h => by simp [loadNode] at h
  | fuel + 1, n, parent, st, st', g, hp, h => by
    obtain ⟨m, node, hm, hn, hc⟩ := loadNode_ok h
    have : n = m := by exact_mod_cast hm
    subst this
    rcases hc with ⟨_, rfl⟩ | ⟨hh, r, hr, hl⟩
    · exact ⟨g, [], by simp⟩
    · obtain ⟨g1, ⟨L1, hL1⟩, hch⟩ := g.place hn hh hp hr
      have := loadList_inv (fun s => WellFormed nodes ext root s ∧ ∃ L, s.joints = r.1.joints ++ L) node.children r.1 st' (by
        rintro c hc s s' ⟨gs, L, hL⟩ hs
        obtain ⟨cn, _, hcn, _, _⟩ : ∃ (cn : Nat) (nd : Node), c = (cn : Int) ∧ nodes[cn]? = some nd ∧ True := by
          cases fuel with
          | zero => simp [loadNode] at hs
          | succ fuel =>
            obtain ⟨a, b, c1, c2, _⟩ := loadNode_ok hs
            exact ⟨a, b, c1, c2, trivial⟩
        subst hcn
        obtain ⟨gs', L', hL'⟩ := loadNode_good fuel cn r.2 s s' gs (by
          rw [hL]
          exact (hch cn ⟨node, hn, hh, hc⟩).mono) hs
        exact ⟨gs', L ++ L', by rw [hL', hL, List.append_assoc]⟩) ⟨g1, [], by simp⟩ hl
      obtain ⟨g', L, hL⟩ := this
      exact ⟨g', L1 ++ L, by rw [hL, hL1, List.append_assoc]⟩

theorem loadNode_nat {nodes : List Node} {ext : Bool} {fuel : Nat} {c : Int} {p : Option Nat} {s s' : Hierarchy}
    (h : loadNode nodes ext fuel c p s = some (.ok s')) : ∃ n : Nat, c = (n : Int) := by
  cases fuel with
  | zero => simp [loadNode] at h
  | succ fuel =>
    obtain ⟨a, _, c1, _⟩ := loadNode_ok h
    exact ⟨a, c1⟩

/-- The nodes of the joints. -/
def jointNodes (st : Hierarchy) : List Nat := st.joints.map (·.node)

theorem place_nodes {ext : Bool} {node : Node} {n : Nat} {parent : Option Nat} {st : Hierarchy} {r : Hierarchy × Option Nat}
    (h : place ext node n parent st = .ok r) : (IsJoint ext node ∧ jointNodes r.1 = jointNodes st ++ [n]) ∨ (¬ IsJoint ext node ∧ jointNodes r.1 = jointNodes st) := by
  rcases place_cases h with ⟨hj, _, h3, _⟩ | ⟨hj, _, h3, _⟩
  · exact Or.inl ⟨hj, by simp [jointNodes, h3]⟩
  · exact Or.inr ⟨hj, by simp [jointNodes, h3]⟩

theorem loadList_each {f : Int → Hierarchy → Option (Outcome Hierarchy)}
    (mono : ∀ c s s', f c s = some (.ok s') → ∀ x, x ∈ jointNodes s → x ∈ jointNodes s') : ∀ (cs : List Int) (st st' : Hierarchy),
    loadList f cs st = some (.ok st') → (∀ x, x ∈ jointNodes st → x ∈ jointNodes st') ∧
    ∀ c ∈ cs, ∃ s s', f c s = some (.ok s') ∧ ∀ x, x ∈ jointNodes s' → x ∈ jointNodes st'
  | [], st, st', h => by
    simp only [loadList, Option.some.injEq, Outcome.ok.injEq] at h
    subst h
    exact ⟨fun _ hx => hx, fun c hc => by simp at hc⟩
  | c :: cs, st, st', h => by
    rw [loadList] at h
    cases hc : f c st with
    | none => rw [hc] at h; simp [andThen] at h
    | some o =>
      cases o with
      | throws => rw [hc] at h; simp [andThen] at h
      | ub => rw [hc] at h; simp [andThen] at h
      | ok s =>
        rw [hc] at h
        obtain ⟨h1, h2⟩ := loadList_each mono cs s st' h
        refine ⟨fun x hx => h1 x (mono _ _ _ hc x hx), ?_⟩
        intro d hd
        rcases List.mem_cons.mp hd with rfl | hd
        · exact ⟨st, s, hc, h1⟩
        · exact h2 d hd

theorem loadNode_mono {nodes : List Node} {ext : Bool} : ∀ (fuel : Nat) (c : Int) (p : Option Nat) (s s' : Hierarchy),
    loadNode nodes ext fuel c p s = some (.ok s') → ∀ x, x ∈ jointNodes s → x ∈ jointNodes s'
  | 0, _, _, _, _, h => by simp [loadNode] at h
  | fuel + 1, c, p, s, s', h => by
    obtain ⟨n, node, _, _, hc⟩ := loadNode_ok h
    rcases hc with ⟨_, rfl⟩ | ⟨_, r, hr, hl⟩
    · exact fun _ hx => hx
    · intro x hx
      refine (loadList_each (fun c s s' hs => loadNode_mono fuel c r.2 s s' hs) _ _ _ hl).1 x ?_
      rcases place_nodes hr with ⟨_, h1⟩ | ⟨_, h1⟩ <;> rw [h1] <;> simp [hx]

/-- Paths from the other end. -/
theorem Reach.head {nodes : List Node} {a b c : Nat} (h : Child nodes a b) (r : Reach nodes b c) : Reach nodes a c := by
  induction r with
  | self => exact Reach.step Reach.self h
  | step _ hc ih => exact Reach.step ih hc

theorem Reach.cases_head {nodes : List Node} {a c : Nat} (r : Reach nodes a c) : a = c ∨ ∃ b, Child nodes a b ∧ Reach nodes b c := by
  induction r with
  | self => exact Or.inl rfl
  | step _ hc ih =>
    rcases ih with rfl | ⟨b, h1, h2⟩
    · exact Or.inr ⟨_, hc, Reach.self⟩
    · exact Or.inr ⟨b, h1, Reach.step h2 hc⟩

/-- Every joint that can be reached is loaded. -/
theorem loadNode_complete {nodes : List Node} {ext : Bool} : ∀ (fuel : Nat) (n : Nat) (p : Option Nat) (s s' : Hierarchy),
    loadNode nodes ext fuel n p s = some (.ok s') → ∀ (x : Nat) (node : Node), Reach nodes n x → nodes[x]? = some node → node.inHierarchy = true →
    IsJoint ext node → x ∈ jointNodes s'
  | 0, _, _, _, _, h => by simp [loadNode] at h
  | fuel + 1, n, p, s, s', h => by
    intro x xn hx hxn hxh hxj
    obtain ⟨m, node, hm, hn, hc⟩ := loadNode_ok h
    have : n = m := by exact_mod_cast hm
    subst this
    rcases hc with ⟨hh, rfl⟩ | ⟨hh, r, hr, hl⟩
    · rcases hx.cases_head with rfl | ⟨b, ⟨nd, h1, h2, _⟩, _⟩
      · rw [hxn] at hn
        rw [Option.some.inj hn, hh] at hxh
        simp at hxh
      · rw [h1] at hn
        rw [Option.some.inj hn, hh] at h2
        simp at h2
    · have hl' := loadList_each (fun c s s' hs => loadNode_mono fuel c r.2 s s' hs) _ _ _ hl
      rcases hx.cases_head with rfl | ⟨b, ⟨nd, h1, h2, h3⟩, hb⟩
      · rw [hxn] at hn
        rcases place_nodes hr with ⟨_, h1⟩ | ⟨h1, _⟩
        · exact hl'.1 _ (by rw [h1]; simp)
        · rw [← Option.some.inj hn] at h1
          exact absurd hxj h1
      · rw [h1] at hn
        rw [Option.some.inj hn] at h3
        obtain ⟨t, t', ht, hsub⟩ := hl'.2 (b : Int) h3
        exact hsub x (loadNode_complete fuel b r.2 t t' ht x xn hb hxn hxh hxj)

/-- In a tree no node is loaded twice. -/
theorem loadNode_nodup {nodes : List Node} {ext : Bool} (rank : Nat → Nat) (hrank : ∀ a b, Child nodes a b → rank a < rank b)
    (huniq : ∀ a a' b, Child nodes a b → Child nodes a' b → a = a') (hnd : ∀ node ∈ nodes, node.children.Nodup) :
    ∀ (fuel : Nat) (n : Nat) (p : Option Nat) (s s' : Hierarchy), loadNode nodes ext fuel n p s = some (.ok s') →
    ∃ L : List Nat, jointNodes s' = jointNodes s ++ L ∧ L.Nodup ∧ ∀ x ∈ L, Reach nodes n x
  | 0, _, _, _, _, h => by simp [loadNode] at h
  | fuel + 1, n, p, s, s', h => by
    have hle : ∀ a b, Reach nodes a b → rank a ≤ rank b := by
      intro a b r
      induction r with
      | self => exact le_rfl
      | step _ hc ih => exact ih.trans (hrank _ _ hc).le
    have hmeet : ∀ x c1 c2, Reach nodes c1 x → Reach nodes c2 x → Reach nodes c1 c2 ∨ Reach nodes c2 c1 := by
      intro x c1 c2 h1 h2
      induction h1 with
      | self => exact Or.inr h2
      | step r1 hc ih =>
        cases h2 with
        | self => exact Or.inl (Reach.step r1 hc)
        | step r2 hc' =>
          rw [huniq _ _ _ hc' hc] at r2
          exact ih r2
    have hlast : ∀ a c1 c2, Child nodes a c1 → Child nodes a c2 → Reach nodes c1 c2 → c1 = c2 := by
      intro a c1 c2 h1 h2 r
      cases r with
      | self => rfl
      | step r' hc =>
        rw [huniq _ _ _ hc h2] at r'
        have := hle _ _ r'
        have := hrank _ _ h1
        omega
    obtain ⟨m, node, hm, hn, hc⟩ := loadNode_ok h
    have : n = m := by exact_mod_cast hm
    subst this
    rcases hc with ⟨_, rfl⟩ | ⟨hh, r, hr, hl⟩
    · exact ⟨[], by simp, by simp, by simp⟩
    · have key : ∀ (cs : List Int) (t t' : Hierarchy), cs.Nodup → (∀ c ∈ cs, c ∈ node.children) →
          loadList (fun c s => loadNode nodes ext fuel c r.2 s) cs t = some (.ok t') →
          ∃ L : List Nat, jointNodes t' = jointNodes t ++ L ∧ L.Nodup ∧ ∀ x ∈ L, ∃ c : Nat, (c : Int) ∈ cs ∧ Reach nodes c x := by
        intro cs
        induction cs with
        | nil =>
          intro t t' _ _ ht
          simp only [loadList, Option.some.injEq, Outcome.ok.injEq] at ht
          subst ht
          exact ⟨[], by simp, by simp, by simp⟩
        | cons c cs ih =>
          intro t t' hcs hsub ht
          rw [loadList] at ht
          cases hc : loadNode nodes ext fuel c r.2 t with
          | none => rw [hc] at ht; simp [andThen] at ht
          | some o =>
            cases o with
            | throws => rw [hc] at ht; simp [andThen] at ht
            | ub => rw [hc] at ht; simp [andThen] at ht
            | ok u =>
              rw [hc] at ht
              obtain ⟨cn, rfl⟩ := loadNode_nat hc
              obtain ⟨L1, a1, a2, a3⟩ := loadNode_nodup rank hrank huniq hnd fuel cn r.2 t u hc
              rw [List.nodup_cons] at hcs
              obtain ⟨L2, b1, b2, b3⟩ := ih u t' hcs.2 (fun x hx => hsub x (List.mem_cons_of_mem _ hx)) ht
              refine ⟨L1 ++ L2, by rw [b1, a1, List.append_assoc], ?_, ?_⟩
              · rw [List.nodup_append]
                refine ⟨a2, b2, ?_⟩
                rintro x hx y hy rfl
                obtain ⟨d, hd, hdx⟩ := b3 x hy
                have h1 : Child nodes n cn := ⟨node, hn, hh, hsub _ (by simp)⟩
                have h2 : Child nodes n d := ⟨node, hn, hh, hsub _ (List.mem_cons_of_mem _ hd)⟩
                have : cn = d := by
                  rcases hmeet x cn d (a3 x hx) hdx with hr | hr
                  · exact hlast n cn d h1 h2 hr
                  · exact (hlast n d cn h2 h1 hr).symm
                subst this
                exact hcs.1 hd
              · intro x hx
                rcases List.mem_append.mp hx with hx | hx
                · exact ⟨cn, by simp, a3 x hx⟩
                · obtain ⟨d, hd, hdx⟩ := b3 x hx
                  exact ⟨d, List.mem_cons_of_mem _ hd, hdx⟩
      obtain ⟨L, l1, l2, l3⟩ := key node.children r.1 s' (hnd node (List.mem_of_getElem? hn)) (fun _ hc => hc) hl
      have l4 : ∀ x ∈ L, Reach nodes n x ∧ x ≠ n := by
        intro x hx
        obtain ⟨c, hc, hcx⟩ := l3 x hx
        have h1 : Child nodes n c := ⟨node, hn, hh, hc⟩
        refine ⟨Reach.head h1 hcx, ?_⟩
        rintro rfl
        have := hle _ _ hcx
        have := hrank _ _ h1
        omega
      rcases place_nodes hr with ⟨_, h1⟩ | ⟨_, h1⟩
      · refine ⟨n :: L, by rw [l1, h1, List.append_assoc]; rfl, ?_, ?_⟩
        · rw [List.nodup_cons]
          exact ⟨fun hx => (l4 n hx).2 rfl, l2⟩
        · intro x hx
          rcases List.mem_cons.mp hx with rfl | hx
          · exact Reach.self
          · exact (l4 x hx).1
      · exact ⟨L, by rw [l1, h1], l2, fun x hx => (l4 x hx).1⟩

/-- If all below a child come before its next sibling, nodes are loaded in order. -/
theorem loadNode_sorted {nodes : List Node} {ext : Bool} (hlt : ∀ a b, Child nodes a b → a < b)
    (hsep : ∀ a c1 c2 x, Child nodes a c1 → Child nodes a c2 → c1 < c2 → Reach nodes c1 x → x < c2)
    (hinc : ∀ node ∈ nodes, node.children.Pairwise (· < ·)) :
    ∀ (fuel : Nat) (n : Nat) (p : Option Nat) (s s' : Hierarchy), loadNode nodes ext fuel n p s = some (.ok s') →
    ∃ L : List Nat, jointNodes s' = jointNodes s ++ L ∧ L.Pairwise (· < ·) ∧ ∀ x ∈ L, Reach nodes n x
  | 0, _, _, _, _, h => by simp [loadNode] at h
  | fuel + 1, n, p, s, s', h => by
    have hle : ∀ a b, Reach nodes a b → a ≤ b := by
      intro a b r
      induction r with
      | self => exact le_rfl
      | step _ hc ih => exact ih.trans (hlt _ _ hc).le
    obtain ⟨m, node, hm, hn, hc⟩ := loadNode_ok h
    have : n = m := by exact_mod_cast hm
    subst this
    rcases hc with ⟨_, rfl⟩ | ⟨hh, r, hr, hl⟩
    · exact ⟨[], by simp, by simp, by simp⟩
    · have key : ∀ (cs : List Int) (t t' : Hierarchy), cs.Pairwise (· < ·) → (∀ c ∈ cs, c ∈ node.children) →
          loadList (fun c s => loadNode nodes ext fuel c r.2 s) cs t = some (.ok t') →
          ∃ L : List Nat, jointNodes t' = jointNodes t ++ L ∧ L.Pairwise (· < ·) ∧ ∀ x ∈ L, ∃ c : Nat, (c : Int) ∈ cs ∧ Reach nodes c x := by
        intro cs
        induction cs with
        | nil =>
          intro t t' _ _ ht
          simp only [loadList, Option.some.injEq, Outcome.ok.injEq] at ht
          subst ht
          exact ⟨[], by simp, by simp, by simp⟩
        | cons c cs ih =>
          intro t t' hcs hsub ht
          rw [loadList] at ht
          cases hc : loadNode nodes ext fuel c r.2 t with
          | none => rw [hc] at ht; simp [andThen] at ht
          | some o =>
            cases o with
            | throws => rw [hc] at ht; simp [andThen] at ht
            | ub => rw [hc] at ht; simp [andThen] at ht
            | ok u =>
              rw [hc] at ht
              obtain ⟨cn, rfl⟩ := loadNode_nat hc
              obtain ⟨L1, a1, a2, a3⟩ := loadNode_sorted hlt hsep hinc fuel cn r.2 t u hc
              rw [List.pairwise_cons] at hcs
              obtain ⟨L2, b1, b2, b3⟩ := ih u t' hcs.2 (fun x hx => hsub x (List.mem_cons_of_mem _ hx)) ht
              refine ⟨L1 ++ L2, by rw [b1, a1, List.append_assoc], ?_, ?_⟩
              · rw [List.pairwise_append]
                refine ⟨a2, b2, ?_⟩
                intro x hx y hy
                obtain ⟨d, hd, hdy⟩ := b3 y hy
                have hcd : cn < d := by exact_mod_cast hcs.1 _ hd
                have h1 : Child nodes n cn := ⟨node, hn, hh, hsub _ (by simp)⟩
                have h2 : Child nodes n d := ⟨node, hn, hh, hsub _ (List.mem_cons_of_mem _ hd)⟩
                exact lt_of_lt_of_le (hsep n cn d x h1 h2 hcd (a3 x hx)) (hle _ _ hdy)
              · intro x hx
                rcases List.mem_append.mp hx with hx | hx
                · exact ⟨cn, by simp, a3 x hx⟩
                · obtain ⟨d, hd, hdx⟩ := b3 x hx
                  exact ⟨d, List.mem_cons_of_mem _ hd, hdx⟩
      obtain ⟨L, l1, l2, l3⟩ := key node.children r.1 s' (hinc node (List.mem_of_getElem? hn)) (fun _ hc => hc) hl
      have l4 : ∀ x ∈ L, Reach nodes n x ∧ n < x := by
        intro x hx
        obtain ⟨c, hc, hcx⟩ := l3 x hx
        have h1 : Child nodes n c := ⟨node, hn, hh, hc⟩
        exact ⟨Reach.head h1 hcx, lt_of_lt_of_le (hlt _ _ h1) (hle _ _ hcx)⟩
      rcases place_nodes hr with ⟨_, h1⟩ | ⟨_, h1⟩
      · refine ⟨n :: L, by rw [l1, h1, List.append_assoc]; rfl, ?_, ?_⟩
        · rw [List.pairwise_cons]
          exact ⟨fun x hx => (l4 x hx).2, l2⟩
        · intro x hx
          rcases List.mem_cons.mp hx with rfl | hx
          · exact Reach.self
          · exact (l4 x hx).1
      · exact ⟨L, by rw [l1, h1], l2, fun x hx => (l4 x hx).1⟩

/-- Depth first, all below a joint come before its next sibling. -/
theorem depthFirst_sep {parents : List (Option Nat)} (valid : ∀ (j p : Nat), parents[j]? = some (some p) → p < j) (df : DepthFirst parents)
    {a c1 c2 : Nat} (h1 : parents[c1]? = some (some a)) (h2 : parents[c2]? = some (some a)) (hc : c1 < c2) :
    ∀ x, Above parents c1 x → x < c2 := by
  have hle : ∀ a b, Above parents a b → a ≤ b := by
    intro a b r
    induction r with
    | self => exact le_rfl
    | step _ hc ih => exact ih.trans (valid _ _ hc).le
  have htrans : ∀ a b c, Above parents a b → Above parents b c → Above parents a c := by
    intro a b c hab hbc
    induction hbc with
    | self => exact hab
    | step _ hc ih => exact Above.step ih hc
  have key : ∀ y, c2 ≤ y → y < parents.length → ¬ Above parents c1 y := by
    intro y hy
    induction y, hy using Nat.le_induction with
    | base =>
      intro _ r
      cases r with
      | self => omega
      | step r' hp =>
        rw [h2] at hp
        simp only [Option.some.injEq] at hp
        subst hp
        have := hle _ _ r'
        have := valid _ _ h1
        omega
    | succ y hy ih =>
      intro hl r
      obtain ⟨p, hp, hab⟩ := df y hl
      cases r with
      | self => omega
      | step r' hp' =>
        rw [hp] at hp'
        simp only [Option.some.injEq] at hp'
        subst hp'
        exact ih (by omega) (htrans _ _ _ r' hab)
  intro x hx
  by_contra hcon
  cases hx with
  | self => omega
  | step r hp => exact key x (by omega) (List.getElem?_eq_some_iff.mp hp).1 (Above.step r hp)

/-- Without cycles the recursion ends. -/
theorem loadNode_ends {nodes : List Node} {ext : Bool} (rank : Nat → Nat) (bound : Nat) (hrank : ∀ a b, Child nodes a b → rank a < rank b)
    (hbound : ∀ a, rank a ≤ bound) :
    ∀ (fuel : Nat) (c : Int) (p : Option Nat) (s : Hierarchy), bound + 1 < fuel + rank c.toNat → loadNode nodes ext fuel c p s ≠ none
  | 0, c, _, _, h => by have := hbound c.toNat; omega
  | fuel + 1, c, p, s, h => by
    rw [loadNode]
    split
    · simp
    · rename_i hr
      split
      · simp
      · rename_i node hn
        split
        · simp
        · rename_i hh
          split
          · simp
          · simp
          · rename_i r hp
            have key : ∀ (cs : List Int) (t : Hierarchy), (∀ x ∈ cs, x ∈ node.children) →
                loadList (fun c s => loadNode nodes ext fuel c r.2 s) cs t ≠ none := by
              intro cs
              induction cs with
              | nil => intro t _; simp [loadList]
              | cons d ds ih =>
                intro t hsub
                rw [loadList]
                have hd : loadNode nodes ext fuel d r.2 t ≠ none := by
                  by_cases hd0 : d < 0
                  · cases fuel with
                    | zero =>
                      have := hbound c.toNat
                      omega
                    | succ fuel => rw [loadNode, if_pos (Or.inl hd0)]; simp
                  · have hcd : Child nodes c.toNat d.toNat :=
                      ⟨node, hn, by simpa using hh, by rw [Int.toNat_of_nonneg (by omega)]; exact hsub d (by simp)⟩
                    have := hrank _ _ hcd
                    exact loadNode_ends rank bound hrank hbound fuel d r.2 t (by omega)
                cases hx : loadNode nodes ext fuel d r.2 t with
                | none => exact absurd hx hd
                | some o =>
                  cases o with
                  | throws => simp [andThen]
                  | ub => simp [andThen]
                  | ok u => exact ih u fun x hx => hsub x (List.mem_cons_of_mem _ hx)
            exact key node.children r.1 fun _ hx => hx

/-- With children in range and no capsules or locators it does not fail. -/
theorem loadNode_fine {nodes : List Node} {ext : Bool} (hin : ∀ node ∈ nodes, ∀ c ∈ node.children, 0 ≤ c ∧ c < nodes.length)
    (hj : ∀ node ∈ nodes, IsJoint ext node) : ∀ (fuel : Nat) (c : Int) (p : Option Nat) (s : Hierarchy) (o : Outcome Hierarchy),
    0 ≤ c → c < nodes.length → loadNode nodes ext fuel c p s = some o → ∃ s', o = .ok s'
  | 0, _, _, _, _, _, _, h => by simp [loadNode] at h
  | fuel + 1, c, p, s, o, h0, h1, h => by
    have hlt : c.toNat < nodes.length := by omega
    have hmem : nodes[c.toNat] ∈ nodes := List.getElem_mem hlt
    have hc : ¬ (c < 0 ∨ c > nodes.length) := by omega
    rw [loadNode, if_neg hc, List.getElem?_eq_getElem hlt] at h
    dsimp only at h
    split at h
    · exact ⟨s, (Option.some.inj h).symm⟩
    · obtain ⟨t1, t2, t3⟩ := hj _ hmem
      have hcond : ((!ext && !nodes[c.toNat].mesh) || decide (nodes[c.toNat].type = "skeleton_joint")) = true := by
        simp only [Bool.or_eq_true, Bool.and_eq_true, Bool.not_eq_true', decide_eq_true_eq]
        exact t3.symm
      unfold place at h
      rw [if_neg t1, if_neg t2, if_pos hcond] at h
      dsimp only at h
      have key : ∀ (cs : List Int) (t : Hierarchy) (o : Outcome Hierarchy), (∀ x ∈ cs, x ∈ nodes[c.toNat].children) →
          loadList (fun c' s' => loadNode nodes ext fuel c' (some s.joints.length) s') cs t = some o → ∃ s', o = .ok s' := by
        intro cs
        induction cs with
        | nil =>
          intro t o _ ht
          exact ⟨t, (Option.some.inj ht).symm⟩
        | cons d ds ih =>
          intro t o hsub ht
          rw [loadList] at ht
          cases hx : loadNode nodes ext fuel d (some s.joints.length) t with
          | none => rw [hx] at ht; simp [andThen] at ht
          | some o' =>
            obtain ⟨d0, d1⟩ := hin _ hmem d (hsub d (by simp))
            obtain ⟨s', rfl⟩ := loadNode_fine hin hj fuel d _ t o' d0 d1 hx
            rw [hx] at ht
            exact ih s' o (fun x hx => hsub x (List.mem_cons_of_mem _ hx)) ht
      exact key _ _ o (fun _ hx => hx) h

/-- The node of a joint with its children. -/
def jointNode (extension : Bool) (b : Nat) (parents : List (Option Nat)) (i : Nat) : Node :=
  ⟨((List.range parents.length).filter fun j => parents[j]? = some (some i)).map fun j => ((b + j : Nat) : Int), true, false,
    if extension then "skeleton_joint" else ""⟩

theorem jointNode_other {extension : Bool} {b : Nat} {parents : List (Option Nat)} {p : Option Nat} {i : Nat} (h : p ≠ some i) :
    jointNode extension b (parents ++ [p]) i = jointNode extension b parents i := by
  unfold jointNode
  congr 2
  rw [List.length_append, List.length_singleton, List.range_succ, List.filter_append, List.filter_singleton, List.getElem?_concat_length]
  rw [show decide (some p = some (some i)) = false by simpa using h, cond_false, List.append_nil]
  apply List.filter_congr
  intro j hj
  rw [List.getElem?_append_left (List.mem_range.mp hj)]

theorem jointNode_same {extension : Bool} {b : Nat} {parents : List (Option Nat)} {i : Nat} :
    jointNode extension b (parents ++ [some i]) i = { jointNode extension b parents i with
      children := (jointNode extension b parents i).children ++ [((b + parents.length : Nat) : Int)] } := by
  unfold jointNode
  congr 1
  rw [List.length_append, List.length_singleton, List.range_succ, List.filter_append, List.filter_singleton, List.getElem?_concat_length]
  rw [decide_eq_true rfl, cond_true, List.map_append, List.map_singleton]
  congr 2
  apply List.filter_congr
  intro j hj
  rw [List.getElem?_append_left (List.mem_range.mp hj)]

theorem addSkeleton_append (extension : Bool) (qs : List (Option Nat)) : ∀ (ps : List (Option Nat)) (st : Built),
    addSkeleton extension (ps ++ qs) st = (addSkeleton extension ps st).bind fun st => addSkeleton extension qs st
  | [], _ => rfl
  | p :: ps, st => by
    rw [List.cons_append, addSkeleton, addSkeleton]
    cases addJoint extension st p with
    | ok s => exact addSkeleton_append extension qs ps s
    | throws => rfl
    | ub => rfl

/-- The nodes of a skeleton. -/
theorem addSkeleton_eq (extension : Bool) (base : List Node) (parents : List (Option Nat)) (valid : ∀ (j p : Nat), parents[j]? = some (some p) → p < j) :
    addSkeleton extension parents ⟨base, [], []⟩ =
      .ok ⟨base ++ (List.range parents.length).map (jointNode extension base.length parents), if parents = [] then [] else [(base.length : Int)],
        (List.range parents.length).map (base.length + ·)⟩ := by
  induction parents using List.reverseRecOn with
  | nil => simp [addSkeleton]
  | append_singleton parents p ih =>
    rw [addSkeleton_append, ih fun j q h => valid j q (by rw [List.getElem?_append_left (List.getElem?_eq_some_iff.mp h).1]; exact h)]
    simp only [Outcome.bind, addSkeleton]
    have hroots : (if (List.range parents.length).map (base.length + ·) = [] then (if parents = [] then [] else [(base.length : Int)]) ++
        [((base ++ (List.range parents.length).map (jointNode extension base.length parents)).length : Int)]
        else if parents = [] then [] else [(base.length : Int)]) = [(base.length : Int)] := by
      cases parents with
      | nil => simp
      | cons a as => simp [List.range_succ]
    have hnew : jointNode extension base.length (parents ++ [p]) parents.length = ⟨[], true, false, if extension then "skeleton_joint" else ""⟩ := by
      unfold jointNode
      congr 1
      rw [List.map_eq_nil_iff, List.filter_eq_nil_iff]
      intro j hj hcon
      rw [decide_eq_true_eq] at hcon
      have := valid j _ hcon
      rw [List.mem_range, List.length_append, List.length_singleton] at hj
      omega
    have hne : parents ++ [p] ≠ [] := by simp
    unfold addJoint
    dsimp only
    rw [hroots, if_neg hne, List.length_append, List.length_map, List.length_range]
    cases p with
    | none =>
      dsimp only
      simp only [Outcome.bind, Outcome.ok.injEq, Built.mk.injEq, List.length_append, List.length_singleton, List.range_succ, List.map_append,
        List.map_singleton, hnew, and_true, true_and]
      rw [List.append_assoc]
      congr 2
      apply List.map_congr_left
      intro i _
      exact (jointNode_other (by simp)).symm
    | some q =>
      have hq : q < parents.length := valid parents.length q List.getElem?_concat_length
      have hm : ((List.range parents.length).map (base.length + ·))[q]? = some (base.length + q) := by simp [hq]
      dsimp only
      rw [hm]
      dsimp only
      rw [if_pos (by simp; omega)]
      simp only [Outcome.bind, Outcome.ok.injEq, Built.mk.injEq, List.length_append, List.length_singleton, List.range_succ, List.map_append,
        List.map_singleton, hnew, and_true, true_and]
      apply List.ext_getElem?
      intro k
      rw [List.getElem?_modify]
      by_cases hk : k < base.length
      · rw [List.append_assoc, List.getElem?_append_left hk, List.getElem?_append_left hk]
        cases base[k]? <;> simp [show ¬ base.length + q = k by omega]
      · obtain ⟨i, rfl⟩ : ∃ i, k = base.length + i := ⟨k - base.length, by omega⟩
        have hsh (l : List Node) : (base ++ l)[base.length + i]? = l[i]? := by
          rw [List.getElem?_append_right (by omega), Nat.add_sub_cancel_left]
        have hin (f : Nat → Node) (e : Node) : ((List.range parents.length).map f ++ [e])[i]? =
            if i < parents.length then some (f i) else if i = parents.length then some e else none := by
          by_cases hi : i < parents.length
          · rw [if_pos hi, List.getElem?_append_left (by simpa using hi), List.getElem?_map, List.getElem?_range hi]
            rfl
          · rw [if_neg hi, List.getElem?_append_right (by simpa using hi), List.length_map, List.length_range]
            by_cases he : i = parents.length
            · rw [if_pos he, he, Nat.sub_self]
              rfl
            · rw [if_neg he, List.getElem?_eq_none]
              simp only [List.length_singleton]
              omega
        rw [List.append_assoc, hsh, hsh, hin, hin]
        by_cases hi : i < parents.length
        · rw [if_pos hi, if_pos hi]
          by_cases hqi : q = i
          · subst hqi
            rw [jointNode_same]
            simp
          · rw [jointNode_other (by simpa using hqi)]
            simp [hqi]
        · rw [if_neg hi, if_neg hi]
          by_cases he : i = parents.length
          · rw [if_pos he]
            simp [show ¬ q = i by omega]
          · rw [if_neg he]
            rfl

end Momentum.Gltf
