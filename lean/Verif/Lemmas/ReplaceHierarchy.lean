import Verif.Spec.ReplaceHierarchy
import Verif.Lemmas.Skeleton
import Verif.Lemmas.BvhBuild

/-! # Lemmas for `replaceSkeletonHierarchy` -/

namespace Momentum
open Classical Skeleton

section
variable {K : Type}

theorem lookup_some_mem {l : List (String × Nat)} {nm : String} {k : Nat} (h : l.lookup nm = some k) :
    (nm, k) ∈ l := by
  induction l with
  | nil => simp at h
  | cons a l ih =>
    obtain ⟨x, y⟩ := a
    rw [List.lookup_cons] at h
    by_cases hx : nm == x
    · simp only [hx] at h
      have := eq_of_beq hx
      simp_all
    · simp only [hx] at h
      exact List.mem_cons_of_mem _ (ih h)

theorem lookup_isSome {l : List (String × Nat)} {nm : String} :
    (l.lookup nm).isSome ↔ ∃ k, (nm, k) ∈ l := by
  induction l with
  | nil => simp
  | cons a l ih =>
    obtain ⟨x, y⟩ := a
    rw [List.lookup_cons]
    by_cases hx : nm == x
    · simp only [hx]
      have := eq_of_beq hx
      subst this
      simp
    · simp only [hx, ih]
      have : nm ≠ x := fun h => hx (by simp [h])
      simp [this]

/-- The state after processing the joints `os`. -/
structure CombineInv (src tgt : Skeleton K) (os : List (Bool × Nat)) (st : CombineState K) : Prop where
  len : st.joints.length = os.length
  names : ∀ nm k, (nm, k) ∈ st.names ↔ ∃ jt, st.joints[k]? = some jt ∧ jt.name = nm
  distinct : (st.joints.map (·.name)).Nodup
  copy : ∀ (k : Nat) (b : Bool) (i : Nat) (jt : Joint K), os[k]? = some (b, i) → st.joints[k]? = some jt →
    IsCopy st.joints (if b then src else tgt) i jt
  srcLen : st.srcMap.length = src.joints.length
  tgtLen : st.tgtMap.length = tgt.joints.length
  srcMap : ∀ i k : Nat, st.srcMap[i]? = some (some k) ↔ os[k]? = some (true, i)
  tgtMap : ∀ i k : Nat, st.tgtMap[i]? = some (some k) ↔ os[k]? = some (false, i)

theorem IsCopy.append {joints : List (Joint K)} {s : Skeleton K} {i : Nat} {jt' : Joint K}
    (h : IsCopy joints s i jt') (l : List (Joint K)) : IsCopy (joints ++ l) s i jt' := by
  obtain ⟨jt, h1, h2, h3, h4, h5, h6⟩ := h
  refine ⟨jt, h1, h2, h3, h4, h5, fun p hp => ?_⟩
  obtain ⟨pj, q, qj, a, b, c, d⟩ := h6 p hp
  exact ⟨pj, q, qj, a, b, by rw [List.getElem?_append_left (List.getElem?_eq_some_iff.1 c).1]; exact c, d⟩

theorem getElem?_snoc_some {α : Type} {l : List α} {a b : α} {k : Nat} :
    (l ++ [a])[k]? = some b ↔ l[k]? = some b ∨ (k = l.length ∧ b = a) := by
  constructor
  · intro h
    rcases Nat.lt_trichotomy k l.length with hk | hk | hk
    · rw [List.getElem?_append_left hk] at h; exact .inl h
    · subst hk; simp at h; exact .inr ⟨rfl, h.symm⟩
    · rw [List.getElem?_eq_none (by simp; omega)] at h; simp at h
  · rintro (h | ⟨rfl, rfl⟩)
    · rw [List.getElem?_append_left (List.getElem?_eq_some_iff.1 h).1]; exact h
    · simp

theorem addJoint_inv {src tgt : Skeleton K} {os : List (Bool × Nat)} {st st' : CombineState K}
    {b : Bool} {i : Nat} (hinv : CombineInv src tgt os st)
    (h : addJoint (if b then src else tgt) b st i = .ok st') :
    CombineInv src tgt (os ++ [(b, i)]) st' ∧
    ∃ jt, (if b then src else tgt).joints[i]? = some jt ∧
      (∃ par, st'.joints = st.joints ++ [{ jt with parent := par }] ∧
        ∀ q, par = some q → q ≤ st.joints.length ∧
          (q = st.joints.length → ∃ p pj, jt.parent = some p ∧
            (if b then src else tgt).joints[p]? = some pj ∧ pj.name = jt.name)) := by
  set s := if b then src else tgt with hs
  unfold addJoint at h
  cases hjt : s.joints[i]? with
  | none => rw [hjt] at h; simp at h
  | some jt =>
    rw [hjt] at h
    simp only at h
    by_cases hdup : (st.names.lookup jt.name).isSome
    · rw [if_pos hdup] at h; simp at h
    · rw [if_neg hdup] at h
      have hnew : ∀ k, (jt.name, k) ∉ st.names := fun k hk => hdup (lookup_isSome.2 ⟨k, hk⟩)
      have hfresh : ∀ (k : Nat) (jt' : Joint K), st.joints[k]? = some jt' → jt'.name ≠ jt.name := by
        intro k jt' hk hc
        exact hnew k ((hinv.names _ _).2 ⟨jt', hk, hc⟩)
      have hnotos : (b, i) ∉ os := by
        intro hm
        obtain ⟨k, hk⟩ := List.mem_iff_getElem?.1 hm
        have hkl : k < st.joints.length := by
          rw [hinv.len]; exact (List.getElem?_eq_some_iff.1 hk).1
        obtain ⟨jt0, e1, e2, -⟩ := (hinv.copy k b i _ hk (List.getElem?_eq_getElem hkl)).exists_orig
        rw [← hs, hjt] at e1
        cases e1
        exact hfresh k _ (List.getElem?_eq_getElem hkl) e2
      cases hp : combinedParent s (st.names ++ [(jt.name, st.joints.length)]) jt.parent with
      | throws => rw [hp] at h; simp at h
      | ub => rw [hp] at h; simp at h
      | ok par =>
        rw [hp] at h
        simp only [Outcome.bind_ok, Outcome.ok.injEq] at h
        subst h
        -- what the parent look-up found
        have hpar : (jt.parent = none → par = none) ∧ (∀ p, jt.parent = some p → ∃ pj q,
            s.joints[p]? = some pj ∧ par = some q ∧
              (pj.name, q) ∈ st.names ++ [(jt.name, st.joints.length)]) := by
          unfold combinedParent at hp
          cases hpp : jt.parent with
          | none => rw [hpp] at hp; simp at hp; simp [← hp]
          | some p =>
            rw [hpp] at hp
            simp only at hp
            refine ⟨by simp, ?_⟩
            intro p' hp'
            cases hp'
            cases hpj : s.joints[p]? with
            | none => rw [hpj] at hp; simp at hp
            | some pj =>
              rw [hpj] at hp
              simp only at hp
              cases hl : (st.names ++ [(jt.name, st.joints.length)]).lookup pj.name with
              | none => rw [hl] at hp; simp at hp
              | some q =>
                rw [hl] at hp
                simp only [Outcome.ok.injEq] at hp
                exact ⟨pj, q, rfl, hp.symm, lookup_some_mem hl⟩
        have hnames : ∀ nm k, (nm, k) ∈ st.names ++ [(jt.name, st.joints.length)] ↔
            ∃ jt', (st.joints ++ [{ jt with parent := par }])[k]? = some jt' ∧ jt'.name = nm := by
          intro nm k
          simp only [List.mem_append, List.mem_singleton, Prod.mk.injEq, hinv.names, getElem?_snoc_some]
          constructor
          · rintro (⟨jt', h1, h2⟩ | ⟨h1, h2⟩)
            · exact ⟨jt', .inl h1, h2⟩
            · exact ⟨_, .inr ⟨h2, rfl⟩, h1.symm⟩
          · rintro ⟨jt', h1 | ⟨h1, rfl⟩, h2⟩
            · exact .inl ⟨jt', h1, h2⟩
            · exact .inr ⟨h2.symm, h1⟩
        refine ⟨⟨?_, hnames, ?_, ?_, ?_, ?_, ?_, ?_⟩, jt, rfl, par, rfl, ?_⟩
        · simp [hinv.len]
        · simp only [List.map_append, List.map_cons, List.map_nil]
          rw [List.nodup_append]
          refine ⟨hinv.distinct, by simp, ?_⟩
          intro x hx y hy
          simp only [List.mem_singleton] at hy
          subst hy
          obtain ⟨jt', hm, rfl⟩ := List.mem_map.1 hx
          obtain ⟨k, hk⟩ := List.mem_iff_getElem?.1 hm
          exact hfresh k jt' hk
        · intro k b' i' jt' hk hjk
          rcases getElem?_snoc_some.1 hk with hk | ⟨hk, hb⟩
          · have hkl : k < st.joints.length := by
              rw [hinv.len]; exact (List.getElem?_eq_some_iff.1 hk).1
            rw [List.getElem?_append_left hkl] at hjk
            exact (hinv.copy k b' i' jt' hk hjk).append _
          · have hk' : k = st.joints.length := by rw [hinv.len]; exact hk
            subst hk'
            rw [List.getElem?_append_right le_rfl] at hjk
            simp only [Nat.sub_self, List.getElem?_cons_zero, Option.some.injEq] at hjk
            subst hjk
            cases hb
            refine ⟨jt, hjt, rfl, rfl, rfl, hpar.1, fun p hp' => ?_⟩
            obtain ⟨pj, q, e1, e2, e3⟩ := hpar.2 p hp'
            obtain ⟨qj, f1, f2⟩ := (hnames _ _).1 e3
            exact ⟨pj, q, qj, e1, e2, f1, f2⟩
        · simp only; split_ifs <;> simp [hinv.srcLen]
        · simp only; split_ifs <;> simp [hinv.tgtLen]
        · intro i' k
          simp only [getElem?_snoc_some]
          by_cases hb : b = true
          · subst hb
            have hil : i < src.joints.length := (List.getElem?_eq_some_iff.1 hjt).1
            rw [if_pos rfl]
            by_cases hii : i = i'
            · subst hii
              rw [List.getElem?_set_self (by rw [hinv.srcLen]; exact hil)]
              simp only [Option.some.injEq, and_true]
              constructor
              · intro e; right; rw [← e, hinv.len]
              · rintro (e | e)
                · exact absurd (List.mem_of_getElem? e) hnotos
                · rw [e, hinv.len]
            · rw [List.getElem?_set_ne hii, hinv.srcMap]
              constructor
              · exact .inl
              · rintro (e | ⟨_, e⟩)
                · exact e
                · cases e; exact absurd rfl hii
          · have hb' : b = false := by simpa using hb
            subst hb'
            rw [if_neg (by simp), hinv.srcMap]
            simp
        · intro i' k
          simp only [getElem?_snoc_some]
          by_cases hb : b = true
          · subst hb
            rw [if_pos rfl, hinv.tgtMap]
            simp
          · have hb' : b = false := by simpa using hb
            subst hb'
            have hil : i < tgt.joints.length := (List.getElem?_eq_some_iff.1 hjt).1
            rw [if_neg (by simp)]
            by_cases hii : i = i'
            · subst hii
              rw [List.getElem?_set_self (by rw [hinv.tgtLen]; exact hil)]
              simp only [Option.some.injEq, and_true]
              constructor
              · intro e; right; rw [← e, hinv.len]
              · rintro (e | e)
                · exact absurd (List.mem_of_getElem? e) hnotos
                · rw [e, hinv.len]
            · rw [List.getElem?_set_ne hii, hinv.tgtMap]
              constructor
              · exact .inl
              · rintro (e | ⟨_, e⟩)
                · exact e
                · cases e; exact absurd rfl hii
        · intro q hq
          subst hq
          cases hpp : jt.parent with
          | none => have := hpar.1 hpp; simp at this
          | some p =>
            obtain ⟨pj, q', e1, e2, e3⟩ := hpar.2 p hpp
            cases e2
            rcases List.mem_append.1 e3 with e3 | e3
            · obtain ⟨qj, f1, f2⟩ := (hinv.names _ _).1 e3
              have := (List.getElem?_eq_some_iff.1 f1).1
              exact ⟨by omega, by omega⟩
            · simp only [List.mem_singleton, Prod.mk.injEq] at e3
              exact ⟨by omega, fun _ => ⟨p, pj, rfl, e1, e3.1⟩⟩

theorem addJoint_ne_ub {s : Skeleton K} (hv : s.Valid) {b : Bool} {st : CombineState K} {i : Nat}
    (hi : i < s.joints.length) : addJoint s b st i ≠ .ub := by
  unfold addJoint
  rw [List.getElem?_eq_getElem hi]
  simp only
  by_cases hd : (st.names.lookup s.joints[i].name).isSome
  · rw [if_pos hd]; simp
  · rw [if_neg hd]
    have hcp : combinedParent s (st.names ++ [(s.joints[i].name, st.joints.length)]) s.joints[i].parent ≠ .ub := by
      unfold combinedParent
      cases hp : s.joints[i].parent with
      | none => simp
      | some p =>
        have hlt := hv i _ p (List.getElem?_eq_getElem hi) hp
        simp only [List.getElem?_eq_getElem (hlt.trans hi)]
        split <;> simp
    cases hx : combinedParent s (st.names ++ [(s.joints[i].name, st.joints.length)]) s.joints[i].parent with
    | ub => exact absurd hx hcp
    | throws => simp
    | ok par => simp

/-- Fold of steps that each add known origins. -/
theorem combine_fold {src tgt : Skeleton K} {step : CombineState K → Nat → Outcome (CombineState K)}
    {o : Nat → List (Bool × Nat)} {l : List Nat} {Q : CombineState K → Prop}
    (hstep : ∀ i ∈ l, ∀ os st st', CombineInv src tgt os st → Q st → step st i = .ok st' →
      CombineInv src tgt (os ++ o i) st' ∧ Q st') :
    ∀ os st st', CombineInv src tgt os st → Q st →
      l.foldl (fun (acc : Outcome (CombineState K)) i => acc.bind fun st => step st i) (.ok st) = .ok st' →
      CombineInv src tgt (os ++ l.flatMap o) st' ∧ Q st' := by
  induction l with
  | nil => intro os st st' h hq e; simp at e; subst e; simpa using ⟨h, hq⟩
  | cons i l ih =>
    intro os st st' h hq e
    rw [List.foldl_cons, Outcome.bind_ok] at e
    cases hs : step st i with
    | throws =>
      exfalso
      rw [hs] at e
      have : ∀ l : List Nat, l.foldl (fun (acc : Outcome (CombineState K)) i => acc.bind fun st => step st i)
          .throws = .throws := by
        intro l; induction l with
        | nil => rfl
        | cons a l ih => rw [List.foldl_cons, Outcome.bind_throws, ih]
      rw [this] at e; simp at e
    | ub =>
      exfalso
      rw [hs] at e
      have : ∀ l : List Nat, l.foldl (fun (acc : Outcome (CombineState K)) i => acc.bind fun st => step st i)
          .ub = .ub := by
        intro l; induction l with
        | nil => rfl
        | cons a l ih => rw [List.foldl_cons, Outcome.bind_ub, ih]
      rw [this] at e; simp at e
    | ok st1 =>
      rw [hs] at e
      obtain ⟨h1, q1⟩ := hstep i (by simp) os st st1 h hq hs
      obtain ⟨h2, q2⟩ := ih (fun j hj => hstep j (by simp [hj])) _ _ _ h1 q1 e
      exact ⟨by simpa using h2, q2⟩

theorem fold_ne_ub {step : CombineState K → Nat → Outcome (CombineState K)} {l : List Nat}
    (hstep : ∀ i ∈ l, ∀ st, step st i ≠ .ub) : ∀ x : Outcome (CombineState K), x ≠ .ub →
      l.foldl (fun (acc : Outcome (CombineState K)) i => acc.bind fun st => step st i) x ≠ .ub := by
  induction l with
  | nil => intro x hx; simpa using hx
  | cons i l ih =>
    intro x hx
    rw [List.foldl_cons]
    apply ih (fun j hj => hstep j (by simp [hj]))
    cases x with
    | ok st => exact hstep i (by simp) st
    | throws => simp
    | ub => exact absurd rfl hx

theorem isAncestor_eq {s : Skeleton K} (hv : s.Valid) {j a : Nat} (hj : j < s.joints.length)
    (ha : a < s.joints.length) : s.isAncestor j a = some (decide (s.Anc j a)) := by
  obtain ⟨b, h1, h2⟩ := isAncestorLoop_spec hv a j hj
  unfold isAncestor
  rw [if_pos hj, if_pos ha, h1]
  congr 1
  by_cases h : s.Anc j a
  · simp [h, h2.2 h]
  · simp only [h, decide_false]
    by_contra hc
    exact h (h2.1 (by simpa using hc))

theorem anc_ne_iff_proper {s : Skeleton K} {j a : Nat} (h : j ≠ a) : s.Anc j a ↔ s.ProperAnc j a := by
  constructor
  · intro hx
    rcases Relation.ReflTransGen.cases_head hx with rfl | ⟨c, h1, h2⟩
    · exact absurd rfl h
    · exact Relation.TransGen.head' h1 h2
  · exact Relation.TransGen.to_reflTransGen

/-- The validity part of the invariant. -/
def JointsValid (st : CombineState K) : Prop := Skeleton.Valid ⟨st.joints⟩

theorem addJoint_valid {src tgt : Skeleton K} {os : List (Bool × Nat)} {st st' : CombineState K}
    {b : Bool} {i : Nat} (hinv : CombineInv src tgt os st) (hq : JointsValid st)
    (hd : (if b then src else tgt).ParentNamesDiffer)
    (h : addJoint (if b then src else tgt) b st i = .ok st') : JointsValid st' := by
  obtain ⟨-, jt, hjt, par, hj, hpar⟩ := addJoint_inv hinv h
  intro k jt' p hk hp
  simp only [hj] at hk
  rcases getElem?_snoc_some.1 hk with hk | ⟨hkk, rfl⟩
  · exact hq k jt' p hk hp
  · obtain ⟨h1, h2⟩ := hpar p hp
    rw [hkk]
    rcases Nat.lt_or_ge p st.joints.length with hlt | hge
    · exact hlt
    · exfalso
      obtain ⟨p0, pj, e1, e2, e3⟩ := h2 (by omega)
      exact hd i jt p0 pj hjt e1 e2 e3

theorem addSrcStep_eq {src : Skeleton K} (hv : src.Valid) {r k : Nat} (hr : r < src.joints.length)
    (hk : k < src.joints.length) (hrk : r < k) (st : CombineState K) :
    addSrcStep src r st k = if src.ProperAnc k r then addJoint src true st k else .ok st := by
  unfold addSrcStep
  rw [isAncestor_eq hv hk hr]
  simp only [ofOption, Outcome.bind_ok, anc_ne_iff_proper (show k ≠ r by omega)]
  by_cases h : src.ProperAnc k r <;> simp [h]

theorem flatMap_if_singleton {α β : Type} (l : List α) (P : α → Prop) (f : α → β) :
    (l.flatMap fun a => if P a then [f a] else []) = (l.filter (P ·)).map f := by
  induction l with
  | nil => rfl
  | cons a l ih =>
    rw [List.flatMap_cons, ih]
    by_cases h : P a <;> simp [h]

theorem properBelow_range {s : Skeleton K} (hv : s.Valid) {r : Nat} (hr : r < s.joints.length) :
    (List.range' (r + 1) (s.joints.length - (r + 1))).filter (fun k => s.ProperAnc k r) =
      (List.range s.joints.length).filter (fun k => s.ProperAnc k r) := by
  have e : List.range s.joints.length = List.range (r + 1) ++ List.range' (r + 1) (s.joints.length - (r + 1)) := by
    rw [List.range_eq_range', List.range_eq_range']
    have := List.range'_append_1 (s := 0) (m := r + 1) (n := s.joints.length - (r + 1))
    rw [Nat.zero_add] at this
    rw [this]
    congr 1
    omega
  rw [e, List.filter_append]
  have : (List.range (r + 1)).filter (fun k => decide (s.ProperAnc k r)) = [] := by
    rw [List.filter_eq_nil_iff]
    intro k hk
    have := List.mem_range.1 hk
    simp only [decide_eq_true_eq]
    intro hc
    have := properAnc_lt hv hc
    omega
  rw [this, List.nil_append]

theorem addSrcLoop_inv {src tgt : Skeleton K} (hv : src.Valid) {r : Nat} (hr : r < src.joints.length)
    {os : List (Bool × Nat)} {st st' : CombineState K} (hinv : CombineInv src tgt os st)
    (h : addSrcLoop src r st = .ok st') :
    CombineInv src tgt (os ++ ((List.range src.joints.length).filter
      (fun k => src.ProperAnc k r)).map (true, ·)) st' ∧
    (src.ParentNamesDiffer → JointsValid st → JointsValid st') := by
  unfold addSrcLoop at h
  rw [← properBelow_range hv hr, ← flatMap_if_singleton]
  have hstep : ∀ i ∈ List.range' (r + 1) (src.joints.length - (r + 1)), ∀ os st0 st1,
      CombineInv src tgt os st0 → (src.ParentNamesDiffer → JointsValid st → JointsValid st0) →
      addSrcStep src r st0 i = .ok st1 →
      CombineInv src tgt (os ++ if src.ProperAnc i r then [(true, i)] else []) st1 ∧
        (src.ParentNamesDiffer → JointsValid st → JointsValid st1) := by
    intro i hi os st0 st1 h0 hq e
    obtain ⟨hi1, hi2⟩ := List.mem_range'_1.1 hi
    rw [addSrcStep_eq hv hr (by omega) (by omega)] at e
    by_cases hp : src.ProperAnc i r
    · rw [if_pos hp] at e ⊢
      exact ⟨(addJoint_inv (b := true) h0 (by simpa using e)).1,
        fun hd hj => addJoint_valid (b := true) h0 (hq hd hj) (by simpa using hd) (by simpa using e)⟩
    · rw [if_neg hp] at e ⊢
      simp only [Outcome.ok.injEq] at e
      subst e
      simpa using ⟨h0, hq⟩
  exact combine_fold (Q := fun s => src.ParentNamesDiffer → JointsValid st → JointsValid s) hstep
    os st st' hinv (fun _ h => h) h

theorem addSrcLoop_ne_ub {src : Skeleton K} (hv : src.Valid) {r : Nat} (hr : r < src.joints.length)
    (st : CombineState K) : addSrcLoop src r st ≠ .ub := by
  unfold addSrcLoop
  apply fold_ne_ub
  · intro i hi st0
    obtain ⟨hi1, hi2⟩ := List.mem_range'_1.1 hi
    rw [addSrcStep_eq hv hr (by omega) (by omega)]
    split_ifs
    · exact addJoint_ne_ub hv (by omega)
    · simp
  · simp

theorem combineSkeletons_inv {src tgt : Skeleton K} (hvs : src.Valid) (hvt : tgt.Valid) {rs rt : Nat}
    (hrs : rs < src.joints.length) (hrt : rt < tgt.joints.length) {st : CombineState K}
    (h : combineSkeletons src tgt rs rt = .ok st) :
    CombineInv src tgt (combinedOrigins src tgt rs rt) st ∧
    (src.ParentNamesDiffer → tgt.ParentNamesDiffer → JointsValid st) := by
  unfold combineSkeletons at h
  have h0 : CombineInv src tgt [] ⟨[], [], List.replicate src.joints.length none,
      List.replicate tgt.joints.length none⟩ := by
    refine ⟨rfl, by simp, by simp, by simp, by simp, by simp, ?_, ?_⟩
    · intro i k
      simp [List.getElem?_replicate]
    · intro i k
      simp [List.getElem?_replicate]
  have hstep : ∀ i ∈ List.range tgt.joints.length, ∀ os st0 st1,
      CombineInv src tgt os st0 → (src.ParentNamesDiffer → tgt.ParentNamesDiffer → JointsValid st0) →
      addTgtStep src tgt rs rt st0 i = .ok st1 →
      CombineInv src tgt (os ++ if i = rt then
        (false, i) :: ((List.range src.joints.length).filter (fun k => src.ProperAnc k rs)).map (true, ·)
        else if tgt.ProperAnc i rt then [] else [(false, i)]) st1 ∧
        (src.ParentNamesDiffer → tgt.ParentNamesDiffer → JointsValid st1) := by
    intro i hi os st0 st1 hc hq e
    have hil := List.mem_range.1 hi
    unfold addTgtStep at e
    by_cases hir : i = rt
    · rw [if_pos hir] at e ⊢
      cases ha : addJoint tgt false st0 i with
      | throws => rw [ha] at e; simp at e
      | ub => rw [ha] at e; simp at e
      | ok st2 =>
        rw [ha, Outcome.bind_ok] at e
        have i2 := (addJoint_inv (b := false) hc (by simpa using ha)).1
        obtain ⟨i3, q3⟩ := addSrcLoop_inv hvs hrs i2 e
        refine ⟨by simpa using i3, fun hd1 hd2 => q3 hd1 ?_⟩
        exact addJoint_valid (b := false) hc (hq hd1 hd2) (by simpa using hd2) (by simpa using ha)
    · rw [if_neg hir] at e ⊢
      rw [isAncestor_eq hvt hil hrt] at e
      simp only [ofOption, Outcome.bind_ok, anc_ne_iff_proper hir] at e
      by_cases hp : tgt.ProperAnc i rt
      · simp only [hp, decide_true, if_true, Outcome.ok.injEq] at e ⊢
        subst e
        simpa using ⟨hc, hq⟩
      · simp only [hp, decide_false, Bool.false_eq_true, if_false] at e ⊢
        exact ⟨(addJoint_inv (b := false) hc (by simpa using e)).1, fun hd1 hd2 =>
          addJoint_valid (b := false) hc (hq hd1 hd2) (by simpa using hd2) (by simpa using e)⟩
  have := combine_fold (Q := fun s => src.ParentNamesDiffer → tgt.ParentNamesDiffer → JointsValid s) hstep
    [] _ st h0 (by intro _ _ k jt p hk; simp at hk) h
  simpa [combinedOrigins] using this

theorem combineSkeletons_ne_ub {src tgt : Skeleton K} (hvs : src.Valid) (hvt : tgt.Valid) {rs rt : Nat}
    (hrs : rs < src.joints.length) (hrt : rt < tgt.joints.length) :
    combineSkeletons src tgt rs rt ≠ .ub := by
  unfold combineSkeletons
  apply fold_ne_ub
  · intro i hi st0
    have hil := List.mem_range.1 hi
    unfold addTgtStep
    split_ifs with hir
    · cases ha : addJoint tgt false st0 i with
      | ub => exact absurd ha (addJoint_ne_ub hvt hil)
      | throws => simp
      | ok st2 => exact addSrcLoop_ne_ub hvs hrs _
    · rw [isAncestor_eq hvt hil hrt]
      simp only [ofOption, Outcome.bind_ok]
      split_ifs
      · simp
      · exact addJoint_ne_ub hvt hil
  · simp

/-! ### The skinning loop -/

theorem skinLoop_self {tgt : Skeleton K} {names : List (String × Nat)} {i p : Nat} {ij pj : Joint K}
    (hi : tgt.joints[i]? = some ij) (hp : ij.parent = some p) (hpj : tgt.joints[p]? = some pj)
    (hn : names.lookup pj.name = none) : skinLoop tgt names i (some p) = none := by
  have : ∀ r, skinLoop tgt names i (some p) = some r → False := by
    suffices h : ∀ cur r, skinLoop tgt names i cur = some r → cur = some p → False from
      fun r hr => h _ r hr rfl
    intro cur r hr
    refine skinLoop.partial_correctness (tgt := tgt) (names := names) (i := i)
      (motive := fun cur _ => cur = some p → False) ?_ cur r hr
    intro f ih cur r hr hc
    subst hc
    simp only [hpj, hi, hn] at hr
    exact ih _ _ hr hp
  cases h : skinLoop tgt names i (some p) with
  | none => rfl
  | some r => exact (this r h).elim

theorem skinLoop_ends {tgt : Skeleton K} (hv : tgt.Valid) {names : List (String × Nat)} {i : Nat}
    {ij : Joint K} (hi : tgt.joints[i]? = some ij)
    (hc : names.lookup ij.name ≠ none ∨ ∀ p pj, ij.parent = some p → tgt.joints[p]? = some pj →
      names.lookup pj.name ≠ none) :
    ∃ o, skinLoop tgt names i (some i) = some o ∧ o ≠ .ub := by
  rw [skinLoop]
  simp only [hi]
  cases hn : names.lookup ij.name with
  | some k => exact ⟨_, rfl, by simp⟩
  | none =>
    simp only
    cases hp : ij.parent with
    | none => rw [skinLoop]; exact ⟨_, rfl, by simp⟩
    | some p =>
      have hlt := hv i ij p hi hp
      have hil := (List.getElem?_eq_some_iff.1 hi).1
      have hpj := List.getElem?_eq_getElem (hlt.trans hil)
      rcases hc with hc | hc
      · exact absurd hn hc
      · have := hc p _ hp hpj
        cases hl : names.lookup tgt.joints[p].name with
        | none => exact absurd hl this
        | some k =>
          rw [skinLoop]
          simp only [hpj, hi, hl]
          exact ⟨_, rfl, by simp⟩

theorem skinMap_ends {tgt : Skeleton K} (hv : tgt.Valid) {names : List (String × Nat)}
    (hc : ∀ (i : Nat) (ij : Joint K), tgt.joints[i]? = some ij → names.lookup ij.name ≠ none ∨
      ∀ p pj, ij.parent = some p → tgt.joints[p]? = some pj → names.lookup pj.name ≠ none) :
    ∃ o, skinMap tgt names = some o ∧ o ≠ .ub := by
  unfold skinMap
  have : ∀ (l : List Nat) (x : Option (Outcome (List (Option Nat)))), (∀ i ∈ l, i < tgt.joints.length) →
      (∃ o, x = some o ∧ o ≠ .ub) →
      ∃ o, l.foldl (fun (acc : Option (Outcome (List (Option Nat)))) i =>
        thenStep acc fun l => skinStep tgt names l i) x = some o ∧ o ≠ .ub := by
    intro l
    induction l with
    | nil => intro x _ h; exact h
    | cons i l ih =>
      intro x hl hx
      rw [List.foldl_cons]
      apply ih _ (fun j hj => hl j (by simp [hj]))
      obtain ⟨o, rfl, ho⟩ := hx
      cases o with
      | ub => exact absurd rfl ho
      | throws => exact ⟨_, rfl, by simp⟩
      | ok acc =>
        simp only [thenStep, skinStep]
        obtain ⟨o, h1, h2⟩ := skinLoop_ends hv (List.getElem?_eq_getElem (hl i (by simp)))
          (hc i _ (List.getElem?_eq_getElem (hl i (by simp))))
        rw [h1]
        cases o with
        | ub => exact absurd rfl h2
        | throws => exact ⟨_, rfl, by simp⟩
        | ok m => cases m <;> exact ⟨_, rfl, by simp⟩
  exact this _ _ (fun i hi => List.mem_range.1 hi) ⟨_, rfl, by simp⟩

end
end Momentum
