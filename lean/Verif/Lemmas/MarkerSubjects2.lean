import Verif.Lemmas.MarkerSubjects

/-! Helper lemmas for C90: the places of the markers, and the loop over the frames. -/

namespace Momentum.MarkerSubjects

open TrcText (TrcMarker UpVector toMomentum toUnit)

section
variable {K : Type} [Field K]

/-- The points that get a marker. -/
def kept (labels : List (List Char)) (g : List Char × List Nat) : List Nat :=
  g.2.filter fun p => !isDangling (markerName g.1 (labels.getD p []))

/-- The markers before the first frame. -/
def templates (labels : List (List Char)) (g : List Char × List Nat) : List (TrcMarker K) :=
  (kept labels g).map fun p => ⟨markerName g.1 (labels.getD p []), ⟨0, 0, 0⟩, true⟩

theorem placeMarker_fold (labels : List (List Char)) (a : Nat) (s : List Char) (ps : List Nat) :
    ∀ (mm : List (Option (Nat × Nat))) (ts : List (TrcMarker K)), ps.Nodup →
      let r := ps.foldl (placeMarker labels a s) (mm, ts)
      r.2 = ts ++ templates labels (s, ps) ∧ r.1.length = mm.length ∧
      (∀ k p : Nat, (kept labels (s, ps))[k]? = some p → p < mm.length → r.1[p]? = some (some (a, ts.length + k))) ∧
      ∀ p : Nat, p ∉ kept labels (s, ps) → r.1[p]? = mm[p]? := by
  induction ps with
  | nil => intro mm ts _; simp [templates, kept]
  | cons q ps ih =>
    intro mm ts hnd
    rw [List.nodup_cons] at hnd
    rw [List.foldl_cons]
    by_cases hd : isDangling (markerName s (labels.getD q [])) = true
    · have hstep : placeMarker labels a s (mm, ts) q = (mm, ts) := by
        unfold placeMarker; dsimp only; rw [if_pos hd]
      have hk : kept labels (s, q :: ps) = kept labels (s, ps) := by
        unfold kept
        rw [List.filter_cons_of_neg]
        simp only [hd]; decide
      rw [hstep]
      unfold templates
      rw [hk]
      exact ih mm ts hnd.2
    · have hd' : isDangling (markerName s (labels.getD q [])) = false := by simpa using hd
      have hstep : placeMarker labels a s (mm, ts) q = (mm.set q (some (a, ts.length)), ts ++ [⟨markerName s (labels.getD q []), ⟨0, 0, 0⟩, true⟩]) := by
        unfold placeMarker; dsimp only; rw [if_neg hd]
      have hk : kept labels (s, q :: ps) = q :: kept labels (s, ps) := by
        unfold kept
        rw [List.filter_cons_of_pos]
        simp only [hd']; decide
      rw [hstep]
      obtain ⟨h1, h2, h3, h4⟩ := ih (mm.set q (some (a, ts.length))) (ts ++ [⟨markerName s (labels.getD q []), ⟨0, 0, 0⟩, true⟩]) hnd.2
      have hq : q ∉ kept labels (s, ps) := fun h => hnd.1 (List.mem_of_mem_filter h)
      refine ⟨?_, ?_, ?_, ?_⟩
      · rw [h1]
        unfold templates
        rw [hk, List.map_cons, List.append_assoc]
        rfl
      · rw [h2, List.length_set]
      · intro k p hkp hp
        rw [hk] at hkp
        cases k with
        | zero =>
          simp only [List.getElem?_cons_zero, Option.some.injEq] at hkp
          subst hkp
          rw [h4 q hq, List.getElem?_set_self hp]
          rfl
        | succ k =>
          rw [List.getElem?_cons_succ] at hkp
          rw [h3 k p hkp (by rw [List.length_set]; exact hp)]
          simp only [List.length_append, List.length_singleton]
          rw [show ts.length + 1 + k = ts.length + (k + 1) by ring]
      · intro p hp
        rw [hk, List.mem_cons, not_or] at hp
        rw [h4 p hp.2, List.getElem?_set_ne (fun h => hp.1 h.symm)]

theorem placeSubject_fold (labels : List (List Char)) (groups : List (List Char × List Nat)) :
    ∀ (mm : List (Option (Nat × Nat))) (ts : List (List (TrcMarker K))), (∀ g ∈ groups, g.2.Nodup) →
      groups.Pairwise (fun g h => ∀ p ∈ g.2, p ∉ h.2) →
      let r := groups.foldl (placeSubject labels) (mm, ts)
      r.2 = ts ++ groups.map (templates labels) ∧ r.1.length = mm.length ∧
      (∀ (a k p : Nat) (g : List Char × List Nat), groups[a]? = some g → (kept labels g)[k]? = some p → p < mm.length →
        r.1[p]? = some (some (ts.length + a, k))) ∧
      ∀ p : Nat, (∀ g ∈ groups, p ∉ kept labels g) → r.1[p]? = mm[p]? := by
  induction groups with
  | nil => intro mm ts _ _; simp
  | cons g groups ih =>
    intro mm ts hnd hpw
    rw [List.pairwise_cons] at hpw
    rw [List.foldl_cons]
    obtain ⟨f1, f2, f3, f4⟩ := placeMarker_fold (K := K) labels ts.length g.1 g.2 mm [] (hnd g (by simp))
    have hstep : placeSubject labels (mm, ts) g = ((g.2.foldl (placeMarker labels ts.length g.1) (mm, ([] : List (TrcMarker K)))).1,
        ts ++ [templates labels g]) := by
      unfold placeSubject; dsimp only; rw [f1]; rfl
    rw [hstep]
    obtain ⟨h1, h2, h3, h4⟩ := ih (g.2.foldl (placeMarker labels ts.length g.1) (mm, ([] : List (TrcMarker K)))).1 (ts ++ [templates labels g])
      (fun h hh => hnd h (List.mem_cons_of_mem _ hh)) hpw.2
    refine ⟨?_, ?_, ?_, ?_⟩
    · rw [h1, List.map_cons, List.append_assoc]; rfl
    · rw [h2, f2]
    · intro a k p h ha hk hp
      cases a with
      | zero =>
        simp only [List.getElem?_cons_zero, Option.some.injEq] at ha
        subst ha
        have hpg : p ∈ g.2 := List.mem_of_mem_filter (List.mem_of_getElem? hk)
        rw [h4 p, f3 k p hk hp]
        · simp
        · intro h hh hph
          exact hpw.1 h hh p hpg (List.mem_of_mem_filter hph)
      | succ a =>
        rw [List.getElem?_cons_succ] at ha
        rw [h3 a k p h ha hk (by rw [f2]; exact hp)]
        simp only [List.length_append, List.length_singleton]
        rw [show ts.length + 1 + a = ts.length + (a + 1) by ring]
    · intro p hp
      rw [h4 p (fun h hh => hp h (List.mem_cons_of_mem _ hh)), f4 p (hp g (by simp))]

end

section
variable {K : Type} [Field K] [LinearOrder K]

/-- The marker of an actor. -/
def markerAt (ts : List (List (TrcMarker K))) (a k : Nat) : Option (TrcMarker K) := ts[a]?.bind fun t => t[k]?

theorem markerAt_modify (ts : List (List (TrcMarker K))) (a k b j : Nat) (f : TrcMarker K → TrcMarker K) :
    markerAt (ts.modify a fun t => t.modify k f) b j = if a = b ∧ k = j then (markerAt ts b j).map f else markerAt ts b j := by
  unfold markerAt
  rw [List.getElem?_modify]
  cases ts[b]? with
  | none => simp
  | some t =>
    by_cases hab : a = b
    · by_cases hkj : k = j
      · simp [hab, hkj]
      · have e : (t.modify k f)[j]? = t[j]? := by
          rw [List.getElem?_modify]
          cases t[j]? <;> simp [hkj]
        simp [hab, hkj, e]
    · simp [hab]

theorem modify_shape (ts : List (List (TrcMarker K))) (a k : Nat) (f : TrcMarker K → TrcMarker K) :
    (ts.modify a fun t => t.modify k f).map List.length = ts.map List.length := by
  apply List.ext_getElem?
  intro i
  rw [List.getElem?_map, List.getElem?_map, List.getElem?_modify]
  cases ts[i]? with
  | none => rfl
  | some t => by_cases h : a = i <;> simp [h]

/-- A point with a marker is seen. -/
def SeenBy (up : UpVector) (unit : List Char) (mm : List (Option (Nat × Nat))) (points : List (C3dPoint K)) (p : Nat) : Prop :=
  ∃ a pt, mm[p]? = some (some a) ∧ points[p]? = some pt ∧ (pointPosition up unit pt).isSome = true

/-- One pass over points. -/
theorem loopOver_points (up : UpVector) (unit : List Char) (mm : List (Option (Nat × Nat))) (points : List (C3dPoint K))
    (inj : ∀ (p q : Nat) (a : Nat × Nat), mm[p]? = some (some a) → mm[q]? = some (some a) → p = q) (ps : List Nat) :
    ∀ (ts : List (List (TrcMarker K))) (b : Bool), ps.Nodup → (∀ p ∈ ps, p < mm.length ∧ p < points.length) →
      ∃ ts' b', loopOver (pointStep up unit mm points) (ts, b) ps = .ok (ts', b') ∧ ts'.map List.length = ts.map List.length ∧
        (b' = true ↔ b = true ∨ ∃ p ∈ ps, SeenBy up unit mm points p) ∧
        (∀ (p a k : Nat) (pt : C3dPoint K), mm[p]? = some (some (a, k)) → points[p]? = some pt →
          markerAt ts' a k = if p ∈ ps then (markerAt ts a k).map (showMarker (pointPosition up unit pt)) else markerAt ts a k) := by
  induction ps with
  | nil =>
    intro ts b _ _
    exact ⟨ts, b, rfl, rfl, by simp, by simp⟩
  | cons q ps ih =>
    intro ts b hnd hlt
    rw [List.nodup_cons] at hnd
    obtain ⟨hq1, hq2⟩ := hlt q (by simp)
    unfold loopOver
    have hpt : points[q]? = some points[q] := List.getElem?_eq_getElem hq2
    cases hm : mm[q]? with
    | none => rw [List.getElem?_eq_none_iff] at hm; omega
    | some o =>
      cases o with
      | none =>
        have hstep : pointStep up unit mm points (ts, b) q = .ok (ts, b) := by unfold pointStep; rw [hm]
        obtain ⟨ts', b', h1, h2, h3, h4⟩ := ih ts b hnd.2 (fun p hp => hlt p (List.mem_cons_of_mem _ hp))
        rw [hstep]
        refine ⟨ts', b', h1, h2, ?_, ?_⟩
        · rw [h3]
          constructor
          · rintro (h | ⟨p, hp, h⟩)
            · exact Or.inl h
            · exact Or.inr ⟨p, List.mem_cons_of_mem _ hp, h⟩
          · rintro (h | ⟨p, hp, h⟩)
            · exact Or.inl h
            · rcases List.mem_cons.mp hp with rfl | hp
              · obtain ⟨a, pt, ha, -⟩ := h
                rw [hm] at ha
                simp at ha
              · exact Or.inr ⟨p, hp, h⟩
        · intro p a k pt hp hpp
          rw [h4 p a k pt hp hpp]
          have hne : p ≠ q := by rintro rfl; rw [hm] at hp; simp at hp
          simp [hne]
      | some c =>
        obtain ⟨a, k⟩ := c
        have hstep : pointStep up unit mm points (ts, b) q =
            .ok (ts.modify a fun t => t.modify k (showMarker (pointPosition up unit points[q])), b || (pointPosition up unit points[q]).isSome) := by
          unfold pointStep; rw [hm]; dsimp only; rw [hpt]
        obtain ⟨ts', b', h1, h2, h3, h4⟩ := ih (ts.modify a fun t => t.modify k (showMarker (pointPosition up unit points[q])))
          (b || (pointPosition up unit points[q]).isSome) hnd.2 (fun p hp => hlt p (List.mem_cons_of_mem _ hp))
        rw [hstep]
        refine ⟨ts', b', h1, h2.trans (modify_shape _ _ _ _), ?_, ?_⟩
        · rw [h3, Bool.or_eq_true]
          constructor
          · rintro ((h | h) | ⟨p, hp, h⟩)
            · exact Or.inl h
            · exact Or.inr ⟨q, by simp, (a, k), points[q], hm, hpt, h⟩
            · exact Or.inr ⟨p, List.mem_cons_of_mem _ hp, h⟩
          · rintro (h | ⟨p, hp, h⟩)
            · exact Or.inl (Or.inl h)
            · rcases List.mem_cons.mp hp with rfl | hp
              · obtain ⟨c, pt, -, hc, h⟩ := h
                rw [hpt, Option.some.injEq] at hc
                subst hc
                exact Or.inl (Or.inr h)
              · exact Or.inr ⟨p, hp, h⟩
        · intro p a' k' pt hp hpp
          rw [h4 p a' k' pt hp hpp, markerAt_modify]
          by_cases hpq : p = q
          · subst hpq
            rw [hm] at hp
            simp only [Option.some.injEq, Prod.mk.injEq] at hp
            rw [hpt, Option.some.injEq] at hpp
            subst hpp
            rw [if_neg hnd.1, if_pos hp, if_pos (by simp)]
          · have hne : ¬ (a = a' ∧ k = k') := by
              rintro ⟨rfl, rfl⟩
              exact hpq (inj p q (a, k) hp hm)
            rw [if_neg hne]
            simp [hpq]

theorem markerAt_hideAll (ts : List (List (TrcMarker K))) (a k : Nat) :
    markerAt (hideAll ts) a k = (markerAt ts a k).map fun m => { m with occluded := true } := by
  unfold markerAt hideAll
  rw [List.getElem?_map]
  cases ts[a]? with
  | none => rfl
  | some t => simp

theorem hideAll_shape (ts : List (List (TrcMarker K))) : (hideAll ts).map List.length = ts.map List.length := by
  unfold hideAll
  rw [List.map_map]
  apply List.map_congr_left
  intro t _
  simp

/-- From one frame to the next. -/
def FrameStep (up : UpVector) (unit : List Char) (mm : List (Option (Nat × Nat))) (points : List (C3dPoint K)) (prev next : List (List (TrcMarker K))) : Prop :=
  next.map List.length = prev.map List.length ∧
    ∀ (p a k : Nat) (pt : C3dPoint K), mm[p]? = some (some (a, k)) → points[p]? = some pt →
      markerAt next a k = (markerAt prev a k).map fun m => showMarker (pointPosition up unit pt) { m with occluded := true }

/-- The loop over the frames. -/
theorem frameLoop_spec (up : UpVector) (unit : List Char) (mm : List (Option (Nat × Nat)))
    (inj : ∀ (p q : Nat) (a : Nat × Nat), mm[p]? = some (some a) → mm[q]? = some (some a) → p = q) (n : Nat) (hn : mm.length = n) (m : Nat) :
    ∀ (fs : List (List (C3dPoint K))) (ts : List (List (TrcMarker K))) (b : Bool) (acc : List (List (List (TrcMarker K)))),
      m ≤ fs.length → (∀ f ∈ fs, n ≤ f.length) →
      ∃ new b', frameLoop up unit mm n m fs (ts, b) acc = .ok (acc ++ new, b') ∧ new.length = m ∧
        (b' = true ↔ b = true ∨ ∃ (f : Nat) (points : List (C3dPoint K)) (p : Nat), f < m ∧ fs[f]? = some points ∧ SeenBy up unit mm points p) ∧
        ∀ (f : Nat) (points : List (C3dPoint K)) (prev next : List (List (TrcMarker K))), fs[f]? = some points → (ts :: new)[f]? = some prev → new[f]? = some next →
          FrameStep up unit mm points prev next := by
  induction m with
  | zero =>
    intro fs ts b acc _ _
    refine ⟨[], b, by simp [frameLoop], rfl, by simp, ?_⟩
    intro f points prev next _ _ h
    simp at h
  | succ m ih =>
    intro fs ts b acc hm hf
    cases fs with
    | nil => simp at hm
    | cons f0 fs =>
      have hf0 := hf f0 (by simp)
      obtain ⟨ts', b', h1, h2, h3, h4⟩ := loopOver_points up unit mm f0 inj (List.range n) (hideAll ts) b List.nodup_range
        (fun p hp => by have := List.mem_range.mp hp; omega)
      obtain ⟨new, b'', k1, k2, k3, k4⟩ := ih fs ts' b' (acc ++ [ts']) (by simpa using hm) (fun f hf' => hf f (List.mem_cons_of_mem _ hf'))
      refine ⟨ts' :: new, b'', ?_, by simp [k2], ?_, ?_⟩
      · unfold frameLoop
        rw [h1]
        show frameLoop up unit mm n m fs (ts', b') (acc ++ [ts']) = _
        rw [k1, List.append_assoc]
        rfl
      · rw [k3, h3]
        constructor
        · rintro ((h | ⟨p, -, h⟩) | ⟨f, points, p, hf, hp, h⟩)
          · exact Or.inl h
          · exact Or.inr ⟨0, f0, p, by omega, rfl, h⟩
          · exact Or.inr ⟨f + 1, points, p, by omega, by simpa using hp, h⟩
        · rintro (h | ⟨f, points, p, hf, hp, h⟩)
          · exact Or.inl (Or.inl h)
          · cases f with
            | zero =>
              simp only [List.getElem?_cons_zero, Option.some.injEq] at hp
              subst hp
              refine Or.inl (Or.inr ⟨p, ?_, h⟩)
              obtain ⟨a, pt, ha, -⟩ := h
              rw [List.mem_range, ← hn]
              exact (List.getElem?_eq_some_iff.mp ha).1
            | succ f => exact Or.inr ⟨f, points, p, by omega, by simpa using hp, h⟩
      · intro f points prev next hfp hprev hnext
        cases f with
        | zero =>
          simp only [List.getElem?_cons_zero, Option.some.injEq] at hfp hprev hnext
          subst hfp hprev hnext
          refine ⟨h2.trans (hideAll_shape ts), ?_⟩
          intro p a k pt hp hpt
          have hpn : p ∈ List.range n := by
            rw [List.mem_range, ← hn]
            exact (List.getElem?_eq_some_iff.mp hp).1
          rw [h4 p a k pt hp hpt, if_pos hpn, markerAt_hideAll, Option.map_map]
          rfl
        | succ f =>
          rw [List.getElem?_cons_succ] at hfp hprev hnext
          exact k4 f points prev next hfp hprev hnext

end

end Momentum.MarkerSubjects
