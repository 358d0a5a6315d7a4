import Verif.Model.CollisionStateless
import Verif.Props.CollisionError

/-!
# Helper lemmas for the collision error function with stored pairs
-/

namespace Momentum
open Skeleton

/-- The loop of the constructor counts like the other one and stops where `commonAncestor` does. -/
theorem pairWalk_eq {s : Skeleton ℝ} (hv : s.Valid) : ∀ n a b, a + b ≤ n → a < s.joints.length → b < s.joints.length → ∀ c,
    pairWalk s (some a) (some b) c = (pairSteps s (some a) (some b) c).bind fun k =>
      (commonAncestorLoop s (some a) (some b)).map fun r => (k, r) := by
  intro n
  induction n with
  | zero =>
    intro a b hab _ _ c
    obtain ⟨rfl, rfl⟩ : a = 0 ∧ b = 0 := by omega
    rw [pairWalk.eq_def, pairSteps.eq_def, commonAncestorLoop.eq_def]; simp
  | succ n ih =>
    intro a b hab ha hb c
    rw [pairWalk.eq_def, pairSteps.eq_def, commonAncestorLoop.eq_def]
    by_cases h : a = b
    · subst h; simp
    · have h' : ¬ (some a = some b) := by simpa using h
      simp only [h', if_false]
      by_cases hlt : b < a
      · have hna : ¬ a < b := by omega
        simp only [indexAbove, hlt, decide_true, if_true, parentOf_eq a ha, h, hna, if_false, Option.bind_eq_bind,
          Option.bind_some]
        rcases root_or_parent a ha with hp | ⟨p, hr, hp⟩
        · rw [hp, pairWalk.eq_def, pairSteps.eq_def]; simp [indexAbove]
        · rw [hp]
          have hpa := parentRel_lt hv hr
          exact ih p b (by omega) (hpa.trans ha) hb (c + 1)
      · have hlt' : a < b := by omega
        simp only [indexAbove, hlt, decide_false, Bool.false_eq_true, if_false, parentOf_eq b hb, h, hlt', if_true,
          Option.bind_eq_bind, Option.bind_some]
        rcases root_or_parent b hb with hp | ⟨p, hr, hp⟩
        · rw [hp, pairWalk.eq_def, pairSteps.eq_def]; simp [indexAbove]
        · rw [hp]
          have hpa := parentRel_lt hv hr
          exact ih a p (by omega) ha (hpa.trans hb) (c + 1)

theorem distinctPairs_range' : ∀ n k, distinctPairs (List.range' k n) =
    (List.range' k n).flatMap fun i => (List.range' (i + 1) (k + n - (i + 1))).map fun j => (i, j) := by
  intro n
  induction n with
  | zero => intro k; rfl
  | succ n ih =>
    intro k
    rw [List.range'_succ, distinctPairs, ih, List.flatMap_cons]
    congr 1
    · rw [show k + (n + 1) - (k + 1) = n by omega]
    · have : ∀ i, k + (n + 1) - (i + 1) = k + 1 + n - (i + 1) := fun i => by omega
      simp only [this]

theorem distinctPairs_range (n : Nat) : distinctPairs (List.range n) = allIJ n := by
  rw [List.range_eq_range', distinctPairs_range', allIJ, ← List.range_eq_range']
  simp

namespace StatelessCollision
open CollisionError

open Classical in
/-- What holds of the object at any time. -/
structure Kept (skel : Skeleton ℝ) (tol eps : ℝ) (g : List (TaperedCapsule ℝ)) (rest : List (CapsuleState ℝ))
    (E : StatelessCollision) : Prop where
  skeleton_eq : E.skeleton = skel
  tol_eq : E.tol = tol
  eps_eq : E.eps = eps
  geometry : E.collisionGeometry = g
  pairs : E.collisionPairs.map (fun q => (q.1, q.2.1)) =
    (allIJ g.length).filter fun p => Watched skel tol eps g rest p.1 p.2
  stops : ∀ q ∈ E.collisionPairs, ∃ ga gb c, g[q.1]? = some ga ∧ g[q.2.1]? = some gb ∧ skel.Anc ga.parent c ∧
    skel.Anc gb.parent c ∧ skel.commonAncestor (some ga.parent) (some gb.parent) = some q.2.2
  active : E.collisionActive.length = E.collisionPairs.length

/-- One step of the constructor. -/
theorem pairStep_spec {E : StatelessCollision} {cs : List (CapsuleState ℝ)} (hv : E.skeleton.Valid)
    (hcs : cs.length = E.collisionGeometry.length)
    (hpar : ∀ tc ∈ E.collisionGeometry, tc.parent < E.skeleton.joints.length) {i j : Nat}
    (hij : (i, j) ∈ allIJ E.collisionGeometry.length) (acc : List (Nat × Nat × Option Nat)) :
    (∀ r, E.pairStep cs i acc j = some r →
      (¬ Watched E.skeleton E.tol E.eps E.collisionGeometry cs i j ∧ r = acc) ∨
      (Watched E.skeleton E.tol E.eps E.collisionGeometry cs i j ∧ ∃ p0, r = acc ++ [(i, j, p0)] ∧
        ∃ ga gb c, E.collisionGeometry[i]? = some ga ∧ E.collisionGeometry[j]? = some gb ∧ E.skeleton.Anc ga.parent c ∧
          E.skeleton.Anc gb.parent c ∧ E.skeleton.commonAncestor (some ga.parent) (some gb.parent) = some p0)) ∧
    ((∀ a ∈ E.collisionGeometry, ∀ b ∈ E.collisionGeometry, ∃ c, E.skeleton.Anc a.parent c ∧ E.skeleton.Anc b.parent c) →
      ∃ r, E.pairStep cs i acc j = some r) := by
  obtain ⟨hij, hj⟩ := mem_allIJ.1 hij
  have hi : i < E.collisionGeometry.length := hij.trans hj
  have e1 : cs[i]? = some (cs[i]'(by omega)) := List.getElem?_eq_getElem _
  have e2 : cs[j]? = some (cs[j]'(by omega)) := List.getElem?_eq_getElem _
  have e3 : E.collisionGeometry[i]? = some E.collisionGeometry[i] := List.getElem?_eq_getElem _
  have e4 : E.collisionGeometry[j]? = some E.collisionGeometry[j] := List.getElem?_eq_getElem _
  simp only [pairStep, e1, e2, e3, e4, Option.bind_eq_bind, Option.bind_some]
  have hWiff : Watched E.skeleton E.tol E.eps E.collisionGeometry cs i j ↔
      ¬ E.skeleton.Adjacent E.collisionGeometry[i].parent E.collisionGeometry[j].parent ∧
      overlaps E.tol E.eps (cs[i]'(by omega)) (cs[j]'(by omega)) = false := by
    simp only [Watched, e1, e2, e3, e4, Option.some.injEq]
    constructor
    · rintro ⟨_, _, _, _, rfl, rfl, rfl, rfl, h⟩; exact h
    · intro h; exact ⟨_, _, _, _, rfl, rfl, rfl, rfl, h⟩
  by_cases ho : overlaps E.tol E.eps (cs[i]'(by omega)) (cs[j]'(by omega)) = true
  · rw [if_pos ho]
    have : ¬ Watched E.skeleton E.tol E.eps E.collisionGeometry cs i j := by rw [hWiff, ho]; simp
    exact ⟨fun r hr => Or.inl ⟨this, (Option.some.inj hr).symm⟩, fun _ => ⟨_, rfl⟩⟩
  · rw [if_neg ho]
    have ha := hpar _ (List.getElem_mem hi)
    have hb := hpar _ (List.getElem_mem hj)
    rw [pairWalk_eq hv _ _ _ le_rfl ha hb]
    by_cases hcom : ∃ c, E.skeleton.Anc E.collisionGeometry[i].parent c ∧ E.skeleton.Anc E.collisionGeometry[j].parent c
    · obtain ⟨k, k1, _, k3⟩ := pairSteps_spec hv _ _ _ le_rfl ha hb hcom 0
      obtain ⟨r0, l1, _⟩ := commonAncestorLoop_spec hv _ _ _ le_rfl ha hb
      have hca : E.skeleton.commonAncestor (some E.collisionGeometry[i].parent) (some E.collisionGeometry[j].parent) =
          some r0 := by
        unfold commonAncestor
        rw [if_pos ⟨by intro x hx; cases hx; exact ha, by intro x hx; cases hx; exact hb⟩]
        exact l1
      rw [k1, l1]
      simp only [Option.bind_some, Option.map_some, Nat.zero_add]
      by_cases hk : k > 1
      · rw [if_pos hk]
        have : Watched E.skeleton E.tol E.eps E.collisionGeometry cs i j := by
          rw [hWiff, ← k3]; exact ⟨by omega, by simpa using ho⟩
        obtain ⟨c, hc1, hc2⟩ := hcom
        exact ⟨fun r hr => Or.inr ⟨this, r0, (Option.some.inj hr).symm, _, _, c, rfl, rfl, hc1, hc2, hca⟩,
          fun _ => ⟨_, rfl⟩⟩
      · rw [if_neg hk]
        have : ¬ Watched E.skeleton E.tol E.eps E.collisionGeometry cs i j := by
          rw [hWiff, ← k3]; omega
        exact ⟨fun r hr => Or.inl ⟨this, (Option.some.inj hr).symm⟩, fun _ => ⟨_, rfl⟩⟩
    · rw [pairSteps_none hv _ _ _ le_rfl ha hb hcom]
      exact ⟨fun r hr => by simp at hr, fun hone => absurd (hone _ (List.getElem_mem hi) _ (List.getElem_mem hj)) hcom⟩

theorem pairLoop_flat (E : StatelessCollision) (cs : List (CapsuleState ℝ)) (n : Nat) :
    E.pairLoop cs n = (allIJ n).foldlM (fun acc (p : Nat × Nat) => E.pairStep cs p.1 acc p.2) [] := by
  unfold pairLoop
  exact foldlM_flatMap_map (fun acc (p : Nat × Nat) => E.pairStep cs p.1 acc p.2)
    (fun i => List.range' (i + 1) (n - (i + 1))) (fun i j => (i, j)) (List.range n) []

open Classical in
/-- The double loop of the constructor. -/
theorem pairLoop_spec {E : StatelessCollision} {cs : List (CapsuleState ℝ)} (hv : E.skeleton.Valid)
    (hcs : cs.length = E.collisionGeometry.length)
    (hpar : ∀ tc ∈ E.collisionGeometry, tc.parent < E.skeleton.joints.length) {pairs : List (Nat × Nat × Option Nat)}
    (h : E.pairLoop cs E.collisionGeometry.length = some pairs) :
    pairs.map (fun q => (q.1, q.2.1)) = (allIJ E.collisionGeometry.length).filter (fun p =>
      Watched E.skeleton E.tol E.eps E.collisionGeometry cs p.1 p.2) ∧
    ∀ q ∈ pairs, ∃ ga gb c, E.collisionGeometry[q.1]? = some ga ∧ E.collisionGeometry[q.2.1]? = some gb ∧
      E.skeleton.Anc ga.parent c ∧ E.skeleton.Anc gb.parent c ∧
      E.skeleton.commonAncestor (some ga.parent) (some gb.parent) = some q.2.2 := by
  rw [pairLoop_flat] at h
  have hfold : ∀ (l : List (Nat × Nat)), (∀ p ∈ l, p ∈ allIJ E.collisionGeometry.length) → ∀ a r,
      l.foldlM (fun acc (p : Nat × Nat) => E.pairStep cs p.1 acc p.2) a = some r →
      ∃ new, r = a ++ new ∧ new.map (fun q => (q.1, q.2.1)) = l.filter (fun p =>
        Watched E.skeleton E.tol E.eps E.collisionGeometry cs p.1 p.2) ∧
      ∀ q ∈ new, ∃ ga gb c, E.collisionGeometry[q.1]? = some ga ∧ E.collisionGeometry[q.2.1]? = some gb ∧
        E.skeleton.Anc ga.parent c ∧ E.skeleton.Anc gb.parent c ∧
        E.skeleton.commonAncestor (some ga.parent) (some gb.parent) = some q.2.2 := by
    intro l
    induction l with
    | nil => intro _ a r h; exact ⟨[], by simpa using (Option.some.inj h).symm, rfl, by simp⟩
    | cons x l ih =>
      intro hl a r h
      rw [List.foldlM_cons] at h
      simp only [Option.bind_eq_bind, Option.bind_eq_some_iff] at h
      obtain ⟨a', h1, h2⟩ := h
      obtain ⟨new, i1, i2, i3⟩ := ih (fun p hp => hl p (by simp [hp])) a' r h2
      rcases (pairStep_spec hv hcs hpar (hl x (by simp)) a).1 a' h1 with ⟨w, rfl⟩ | ⟨w, p0, rfl, hp0⟩
      · exact ⟨new, i1, by rw [i2, List.filter_cons_of_neg (by simpa using w)], i3⟩
      · refine ⟨(x.1, x.2, p0) :: new, by rw [i1]; simp, ?_, ?_⟩
        · rw [List.map_cons, i2, List.filter_cons_of_pos (by simpa using w)]
        · intro q hq
          rcases List.mem_cons.1 hq with rfl | hq
          · exact hp0
          · exact i3 q hq
  obtain ⟨new, rfl, h2, h3⟩ := hfold _ (fun p hp => hp) _ _ h
  exact ⟨h2, h3⟩

theorem construct_kept {B : ErrorBase} {offsets : List ℝ} {tol eps : ℝ} {g : List (TaperedCapsule ℝ)}
    {rest : List (CapsuleState ℝ)} (hv : B.skeleton.Valid) (hpar : ∀ tc ∈ g, tc.parent < B.skeleton.joints.length)
    (hrest : RestPose B offsets g rest) {E : StatelessCollision} (h : construct B offsets tol eps g = some E) :
    E.Kept B.skeleton tol eps g rest := by
  obtain ⟨state, s1, s2⟩ := hrest
  unfold construct at h
  rw [s1] at h
  simp only [Option.bind_eq_bind, Option.bind_some, s2, Option.bind_eq_some_iff, Option.some.injEq] at h
  obtain ⟨pairs, h2, rfl⟩ := h
  have hl := (capsules_spec s2).1
  obtain ⟨k1, k2⟩ := pairLoop_spec (E := ⟨B, tol, eps, g, [], [], rest⟩) hv hl hpar h2
  exact ⟨rfl, rfl, rfl, rfl, k1, k2, by simp⟩

open Classical in
/-- The object of the other class that compares the same pairs in the same order. -/
noncomputable def twin (E : StatelessCollision) : CollisionError :=
  { toErrorBase := E.toErrorBase
    tol := E.tol
    eps := E.eps
    collisionGeometry := E.collisionGeometry
    excludingPairIds := (allIJ E.collisionGeometry.length).filter fun p =>
      p ∉ E.collisionPairs.map fun q => (q.1, q.2.1)
    jacobianSize := E.collisionPairs.length
    collisionState := E.collisionState
    bvh := ⟨[], (List.range E.collisionGeometry.length).map fun i => ⟨0, 0, i⟩⟩ }

section
variable {skel : Skeleton ℝ} {tol eps : ℝ} {g : List (TaperedCapsule ℝ)} {rest : List (CapsuleState ℝ)}
  {E E' : StatelessCollision} {st : List JointState}

theorem twin_kept (h : E.Kept skel tol eps g rest) : E.twin.Kept skel tol eps g rest := by
  classical
  have hmem : ∀ i j, (i, j) ∈ E.collisionPairs.map (fun q => (q.1, q.2.1)) ↔
      i < j ∧ j < g.length ∧ Watched skel tol eps g rest i j := by
    intro i j
    rw [h.pairs, List.mem_filter, mem_allIJ]
    simp only [decide_eq_true_eq, and_assoc]
  refine ⟨h.skeleton_eq, h.tol_eq, h.eps_eq, h.geometry, ?_, ?_, ?_, ?_⟩
  · intro i j
    simp only [twin, h.geometry, List.mem_filter, mem_allIJ, decide_eq_true_eq]
    rw [hmem]; tauto
  · have := congrArg List.length h.pairs
    rw [List.length_map] at this
    exact this
  · intro i j hij hw
    have hj : j < g.length := by
      obtain ⟨_, _, _, _, _, h2, _⟩ := hw
      exact (List.getElem?_eq_some_iff.1 h2).1
    obtain ⟨q, q1, q2⟩ := List.mem_map.1 ((hmem i j).2 ⟨hij, hj, hw⟩)
    obtain ⟨ga, gb, c, a1, a2, a3, a4, _⟩ := h.stops q q1
    simp only [Prod.mk.injEq] at q2
    rw [q2.1] at a1; rw [q2.2] at a2
    exact ⟨ga, gb, c, a1, a2, a3, a4⟩
  · simp only [twin, h.geometry, List.map_map]
    have : ((fun b : Box ℝ => b.id) ∘ fun i => (⟨0, 0, i⟩ : Box ℝ)) = id := rfl
    rw [this, List.map_id]

theorem twin_order (E : StatelessCollision) : E.twin.order = allIJ E.collisionGeometry.length := by
  unfold CollisionError.order twin
  simp only [List.map_map]
  have : ((fun b : Box ℝ => b.id) ∘ fun i => (⟨0, 0, i⟩ : Box ℝ)) = id := rfl
  rw [this, List.map_id, distinctPairs_range]

/-- The pairs that take part are found among those stored. -/
theorem twin_hits (h : E.Kept skel tol eps g rest) :
    E.twin.hits = E.collisionPairs.filterMap fun q => E.twin.hit (q.1, q.2.1) := by
  classical
  have e : (E.collisionPairs.filterMap fun q => E.twin.hit (q.1, q.2.1)) =
      (E.collisionPairs.map fun q => (q.1, q.2.1)).filterMap E.twin.hit := by
    rw [List.filterMap_map]; rfl
  rw [e, h.pairs, CollisionError.hits, twin_order, h.geometry, List.filterMap_filter]
  refine List.filterMap_congr fun p hp => ?_
  split
  · rfl
  · rename_i hw
    obtain ⟨p1, p2⟩ := mem_allIJ.1 hp
    have hx := (excluded_iff (twin_kept h) (a := p.1) (b := p.2) (by omega) (by omega) p2).not
    rw [min_eq_left p1.le, max_eq_right p1.le] at hx
    have : E.twin.excluded p.1 p.2 = true := by
      have := hx.2 (by simpa using hw)
      simpa using this
    unfold hit narrowPhase
    rw [if_pos this]; rfl

end
end StatelessCollision
end Momentum
