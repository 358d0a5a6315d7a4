import Verif.Lemmas.TransformPose5

/-!
# C74: moving the poses of a character by a transform

`transformPoses` changes the parameters that place a character in the world, so that the character moves by a given transform.  The
solver that it runs and its random numbers are arbitrary functions here; `C74_transformed_partial` asks that the solver finds a
placement where there is one.
-/

namespace Momentum
open Skeleton Transform

section
variable {s : Skeleton ℝ} {pt : ParameterTransform ℝ} {solve : Nat → Transform ℝ → Nat → List ℝ → List ℝ} {rng : Nat → Nat → Nat → ℝ}
  {ps out : List (List ℝ)} {ts : List (Transform ℝ)} {cont : Bool}

theorem transformPoses_some (hC : PoseCharacter s pt) (h : transformPoses s pt solve rng ps ts cont = some out) :
    (ts.length = 1 ∨ ps.length = ts.length) ∧ ∃ S n keep, PoseTransformSolver.make s pt = some S ∧ RigidPart s pt S n keep ∧
      (List.range ps.length).foldlM (transformFrame S solve rng ps ts cont) [] = some out := by
  unfold transformPoses at h
  split at h
  · rename_i hl
    rw [Option.bind_eq_some_iff] at h
    obtain ⟨S, h1, h2⟩ := h
    obtain ⟨n, keep, hS⟩ := make_spec hC h1
    exact ⟨hl, S, n, keep, h1, hS, h2⟩
  · cases h

/-- The transform for a frame: the only one, or its own. -/
theorem frame_transform {m f : Nat} (hl : ts.length = 1 ∨ m = ts.length) (hf : f < m) :
    (if f < ts.length then ts[f]? else ts[0]?) = ts[if ts.length = 1 then 0 else f]? := by
  by_cases h1 : ts.length = 1
  · rw [if_pos h1]
    split
    · have : f = 0 := by omega
      rw [this]
    · rfl
  · rw [if_neg h1, if_pos (by omega)]

/-- The call succeeds for every character whose parts fit together and that has a joint moved by a rigid parameter. -/
theorem C74_defined (hC : PoseCharacter s pt) {root : Nat} (hr : LastRigidJoint pt root)
    (hl : ts.length = 1 ∨ ps.length = ts.length) (hps : ∀ p ∈ ps, p.length = pt.transform.cols ∨ p.length = 0)
    (hsolve : ∀ f t i p, (solve f t i p).length = p.length) (rng : Nat → Nat → Nat → ℝ) (cont : Bool) :
    ∃ out, transformPoses s pt solve rng ps ts cont = some out := by
  obtain ⟨S, hS⟩ := make_defined hC hr
  obtain ⟨n, keep, hS'⟩ := make_spec hC hS
  unfold transformPoses
  rw [if_pos hl, hS, Option.bind_some]
  have key : ∀ m ≤ ps.length, ∃ out, (List.range m).foldlM (transformFrame S solve rng ps ts cont) [] = some out ∧
      ∀ o ∈ out, o.length = pt.transform.cols ∨ o.length = 0 := by
    intro m
    induction m with
    | zero => intro _; exact ⟨[], rfl, by simp⟩
    | succ m ih =>
      intro hm
      obtain ⟨o, h1, h2⟩ := ih (by omega)
      have hpm : ps[m]? = some (ps[m]) := List.getElem?_eq_getElem (by omega)
      have hstep : ∃ y : List ℝ, transformFrame S solve rng ps ts cont o m = some (o ++ [y]) ∧
          (y.length = pt.transform.cols ∨ y.length = 0) := by
        unfold transformFrame
        rw [hpm, Option.bind_some]
        split
        · exact ⟨[], rfl, .inr rfl⟩
        · rename_i h0
          have hpl := (hps _ (List.getElem_mem (show m < ps.length by omega))).resolve_right h0
          rw [frame_transform hl (by omega : m < ps.length)]
          obtain ⟨t, ht⟩ : ∃ t, ts[if ts.length = 1 then 0 else m]? = some t := by
            rw [List.getElem?_eq_getElem (by split <;> omega)]; exact ⟨_, rfl⟩
          rw [ht, Option.bind_some]
          obtain ⟨r, hr1, hr2⟩ := hS'.transformPose_defined hC (hsolve m) (rng m) t hpl
            (prev := if 0 < m ∧ cont = true then o.getD (m - 1) [] else []) (by
              split
              · rw [List.getD_eq_getElem?_getD]
                cases he : o[m - 1]? with
                | none => exact .inr rfl
                | some x => exact h2 x (List.mem_of_getElem? he)
              · exact .inr rfl)
          rw [hr1]
          exact ⟨r, rfl, .inl hr2⟩
      obtain ⟨y, hy1, hy2⟩ := hstep
      refine ⟨o ++ [y], ?_, ?_⟩
      · rw [List.range_succ, List.foldlM_append, h1]
        simp only [Option.bind_eq_bind, Option.bind_some, List.foldlM_cons, List.foldlM_nil, hy1]
        rfl
      · intro x hx
        rcases List.mem_append.1 hx with hx | hx
        · exact h2 x hx
        · rw [List.mem_singleton.1 hx]; exact hy2
  obtain ⟨out, h1, -⟩ := key _ le_rfl
  exact ⟨out, h1⟩

/-- There is one result for each pose, and it has the same parameters except for those that place the character in the world,
whatever the solver does.  A pose without parameters stays so. -/
theorem C74_other_parameters_kept (hC : PoseCharacter s pt) (h : transformPoses s pt solve rng ps ts cont = some out) :
    out.length = ps.length ∧ ∀ (f : Nat) (p : List ℝ), ps[f]? = some p → ∃ p' : List ℝ, out[f]? = some p' ∧ p'.length = p.length ∧
      ∀ i, ¬RigidParameter pt i → p'[i]? = p[i]? := by
  obtain ⟨-, S, n, keep, -, hS, h2⟩ := transformPoses_some hC h
  obtain ⟨h3, h4⟩ := frames_spec _ h2
  refine ⟨h3, fun f p hp => ?_⟩
  have hf := (List.getElem?_eq_some_iff.1 hp).1
  obtain ⟨p', h5, h6⟩ := h4 f hf
  rw [hp] at h5
  cases h5
  rcases h6 with ⟨h0, h6⟩ | ⟨-, t, prev, r, -, h7, h8⟩
  · refine ⟨[], h6, h0.symm, fun i _ => ?_⟩
    rw [List.length_eq_zero_iff.1 h0]
  · obtain ⟨hl, p0, root, solved, -, -, -, rfl⟩ := transformPose_some h7
    obtain ⟨a, b, -⟩ := hS.written (hl.trans hS.numFull) solved
    exact ⟨_, h8, a, b⟩

theorem lastRigid_root {S : PoseTransformSolver} {n : Nat} {keep : ParameterSet} (hS : RigidPart s pt S n keep) {root : Nat}
    (hr : LastRigidJoint pt root) : S.root = root := by
  rw [hS.root]
  obtain ⟨i, h1, h2⟩ := hr.moved
  obtain ⟨i', h3, h4⟩ := hS.last.moved
  exact le_antisymm (hr.last _ _ h3 h4) (hS.last.last _ _ h1 h2)

/-- Whatever the solver does, every joint below the last joint moved by a rigid parameter keeps its place relative to that joint: the
pose is moved, not changed. -/
theorem C74_relative_pose_kept (hC : PoseCharacter s pt) {root : Nat} (hr : LastRigidJoint pt root)
    (h : transformPoses s pt solve rng ps ts cont = some out) {f : Nat} {p : List ℝ} (hp : ps[f]? = some p) (hp0 : p.length ≠ 0)
    {j : Nat} (hj : s.Anc j root) (hjl : j < s.joints.length) :
    ∃ p' old new oldRoot newRoot oldJ newJ, out[f]? = some p' ∧ characterPose s pt p = some old ∧ characterPose s pt p' = some new ∧
      old[root]? = some oldRoot ∧ new[root]? = some newRoot ∧ old[j]? = some oldJ ∧ new[j]? = some newJ ∧
      oldRoot.inverse * oldJ = newRoot.inverse * newJ ∧ newJ = newRoot * (oldRoot.inverse * oldJ) := by
  obtain ⟨-, S, n, keep, -, hS, h2⟩ := transformPoses_some hC h
  obtain ⟨h3, h4⟩ := frames_spec _ h2
  have hf := (List.getElem?_eq_some_iff.1 hp).1
  obtain ⟨p', h5, h6⟩ := h4 f hf
  rw [hp] at h5
  cases h5
  obtain ⟨-, t, prev, r, -, h7, h8⟩ := h6.resolve_left (fun h => hp0 h.1)
  obtain ⟨hl, p0, root', solved, -, -, -, rfl⟩ := transformPose_some h7
  have hl := hl.trans hS.numFull
  obtain ⟨a, b, -⟩ := hS.written hl solved
  rw [← lastRigid_root hS hr] at hj ⊢
  obtain ⟨old, -, hold, -⟩ := hS.rootAt hC hl
  obtain ⟨new, -, hnew, -⟩ := hS.rootAt hC (a.trans hl)
  obtain ⟨A, B, A', B', R, e1, e2, e3, e4, hu, hs, hu', hR, rfl, rfl⟩ := hS.relative hC hl (a.trans hl) b hold hnew hj hjl
  have hs' : A'.scale ≠ 0 := by
    obtain ⟨A2, B2, -, -, -, c1, -, -, -, -, c2, -⟩ := hS.relative hC (a.trans hl) hl (fun c hc => (b c hc).symm) hnew hold hj hjl
    rw [e3] at c1; cases c1; exact c2
  have k1 : A.inverse * (A * R) = R := by
    rw [← mul_assoc' (Transform.normSq_inverse hu) hu, inverse_mul hu hs, one_mul']
  have k2 : A'.inverse * (A' * R) = R := by
    rw [← mul_assoc' (Transform.normSq_inverse hu') hu', inverse_mul hu' hs', one_mul']
  exact ⟨_, old, new, A, A', A * R, A' * R, h8, hold, hnew, e1, e3, e2, e4, by rw [k1, k2], by rw [k1]⟩

/-- The claim of the call, as far as it holds.  Let the solver find placements, let the transform be a rotation and a translation, let
no rigid parameter scale a joint, and let the rigid parameters be able to bring the last joint they move to where the transform takes
it.  Then the transform is what happens to every point attached to a joint below that joint. -/
theorem C74_transformed_partial (hC : PoseCharacter s pt) {root : Nat} (hr : LastRigidJoint pt root)
    (hscale : ∀ e ∈ pt.transform.entries, RigidParameter pt e.col → e.row % 7 ≠ 6)
    (hsolve : ∀ S, PoseTransformSolver.make s pt = some S →
      ∀ f, FindsPlacement S.skeleton S.transform S.root (fun k => S.rigid.mem k = true) (solve f))
    (h : transformPoses s pt solve rng ps ts cont = some out) {f : Nat} {p : List ℝ} (hp : ps[f]? = some p) (hp0 : p.length ≠ 0)
    {t : Transform ℝ} (ht : ts[if ts.length = 1 then 0 else f]? = some t) (htu : t.rotation.normSq = 1) (hts : t.scale = 1)
    {old : List (Transform ℝ)} {oldRoot : Transform ℝ} (hold : characterPose s pt p = some old) (hor : old[root]? = some oldRoot)
    (hreach : ∃ q, AgreeOutside (RigidParameter pt) p q ∧ PlacesJoint s pt root (t * oldRoot) q) :
    ∃ p' new, out[f]? = some p' ∧ characterPose s pt p' = some new ∧
      ∀ j < s.joints.length, s.Anc j root → ∃ oldJ newJ, old[j]? = some oldJ ∧ new[j]? = some newJ ∧
        ∀ v, newJ.transformPoint v = t.transformPoint (oldJ.transformPoint v) := by
  obtain ⟨hlen, S, n, keep, hmk, hS, h2⟩ := transformPoses_some hC h
  obtain ⟨h3, h4⟩ := frames_spec _ h2
  have hf := (List.getElem?_eq_some_iff.1 hp).1
  obtain ⟨p', h5, h6⟩ := h4 f hf
  rw [hp] at h5
  cases h5
  obtain ⟨-, t', prev, r, ht', h7, h8⟩ := h6.resolve_left (fun h => hp0 h.1)
  rw [frame_transform hlen hf, ht] at ht'
  cases ht'
  obtain ⟨hl, p0, root', solved, hp0', hroot', hloop, rfl⟩ := transformPose_some h7
  have hl := hl.trans hS.numFull
  have hroot := lastRigid_root hS hr
  rw [← hroot] at hor hreach ⊢
  have hp0e := hS.copy hl hp0'
  subst hp0e
  obtain ⟨old', T, e1, e2, e3, -⟩ := hS.rootAt hC hl
  rw [hold] at e1; cases e1
  rw [hor] at e2; cases e2
  rw [e3] at hroot'; cases hroot'
  have hl0 : (restrictTo keep p).length = S.transform.transform.cols := by
    rw [restrictTo_map, List.length_map, hl, hS.cols]
  have hag0 : AgreeOutside (fun k => S.rigid.mem k = true) (restrictTo keep p)
      (if prev.length = 0 then restrictTo keep p else S.copyRigid prev (restrictTo keep p)) := by
    split
    · exact ⟨rfl, fun _ _ => rfl⟩
    · exact copyRigid_agree S prev _
  obtain ⟨q, hq1, hq2⟩ := hreach
  have hql : q.length = pt.transform.cols := hq1.1.trans hl
  have hagq : AgreeOutside (fun k => S.rigid.mem k = true) (restrictTo keep p) (restrictTo keep q) := by
    refine ⟨by rw [restrictTo_map, restrictTo_map, List.length_map, List.length_map, hl, hql], fun k hk => ?_⟩
    rw [restrictTo_map, restrictTo_map, hl, hql, List.getElem?_map, List.getElem?_map]
    cases hc : (keptParams keep pt.transform.cols)[k]? with
    | none => rfl
    | some c =>
      have : ¬RigidParameter pt c := fun hrc => hk ((hS.rigid k).2 ⟨c, hc, hrc⟩)
      simp only [Option.map_some, List.getD_eq_getElem?_getD, hq1.2 c this]
  have hreachS : PlacesJoint S.skeleton S.transform S.root (t * oldRoot) (restrictTo keep q) := by
    obtain ⟨tq, Tq, g1, g2, g3⟩ := hq2
    obtain ⟨tq', Tq', k1, k2, -, tq2, k3, k4⟩ := hS.rootAt hC hql
    rw [g1] at k1; cases k1
    rw [g2] at k2; cases k2
    exact ⟨tq2, Tq, k3, k4, g3⟩
  obtain ⟨solved', hloop', hag, hplace⟩ := restartLoop_found (rng := rng f) (hsolve S hmk f)
    (hag0.1.trans hl0) ⟨_, hag0.symm.trans hagq, hreachS⟩ 10000 0
  rw [hloop] at hloop'
  cases hloop'
  obtain ⟨a, b, c⟩ := hS.written hl solved
  have hc := c (hag0.trans hag)
  generalize hfull : (List.range S.toFull.length).foldl (S.writeStep solved) p = full' at *
  have hl' := a.trans hl
  obtain ⟨new, T', k1, k2, -, tq2, k3, k4⟩ := hS.rootAt hC hl'
  rw [hc] at k3
  obtain ⟨tq, Tq, g1, g2, g3, g4⟩ := hplace
  rw [k3] at g1; cases g1
  rw [k4] at g2; cases g2
  refine ⟨full', new, h8, k1, fun j hj hanc => ?_⟩
  obtain ⟨A, B, A', B', R, e1, e2, e3, e4, hu, -, hu', hR, rfl, rfl⟩ := hS.relative hC hl hl' b hold k1 hanc hj
  rw [hor] at e1; cases e1
  rw [k2] at e3; cases e3
  have hsc : T'.scale = oldRoot.scale := by
    obtain ⟨jp, st, -, -, a1, a2, a3, a4, -⟩ := hS.pose hC hl
    obtain ⟨jq, st', -, -, b1, b2, b3, b4, -⟩ := hS.pose hC hl'
    obtain ⟨jp', c1, c2, c3⟩ := apply_getElem hC.valid hl
    obtain ⟨jq', d1, d2, d3⟩ := apply_getElem hC.valid hl'
    rw [a1] at c1; cases c1
    rw [b1] at d1; cases d1
    have hrl : S.root < s.joints.length := by
      have := hS.pos; have := hS.le; rw [hS.root]; omega
    have hsl := state_scale hC.skeleton a3 a4 b3 b4 (fun k => by
      unfold jointSlice
      rw [List.getD_eq_getElem?_getD, List.getD_eq_getElem?_getD]
      congr 1
      show jq[7 * k + 6]? = jp[7 * k + 6]?
      by_cases hrow : 7 * k + 6 < pt.transform.rows
      · rw [c3 _ hrow, d3 _ hrow]
        congr 2
        refine rowSum_congr_row fun e he her => ?_
        have : ¬RigidParameter pt e.col := fun hrc => hscale e he hrc (by omega)
        rw [List.getD_eq_getElem?_getD, List.getD_eq_getElem?_getD, b _ this]
      · rw [List.getElem?_eq_none (by omega), List.getElem?_eq_none (by omega)]) S.root hrl
    unfold characterPose at hold k1
    rw [a1, Option.bind_some, a2] at hold
    rw [b1, Option.bind_some, b2] at k1
    simp only [Option.map_some, Option.some.injEq] at hold k1
    rw [← hold, List.getElem?_map] at hor
    rw [← k1, List.getElem?_map] at k2
    obtain ⟨x, hx, rfl⟩ := Option.map_eq_some_iff.1 hor
    obtain ⟨y, hy, rfl⟩ := Option.map_eq_some_iff.1 k2
    simpa [worldOf, hx, hy] using hsl
  refine ⟨_, _, e2, e4, fun v => ?_⟩
  rw [transformPoint_mul hu' hR, transformPoint_mul hu hR, ← transformPoint_mul htu hu]
  generalize R.transformPoint v = w
  have hs2 : (t * oldRoot).scale = oldRoot.scale := by
    show t.scale * oldRoot.scale = _
    rw [hts, one_mul]
  show T'.translation + T'.rotation.rotate (T'.scale • w) =
    (t * oldRoot).translation + (t * oldRoot).rotation.rotate ((t * oldRoot).scale • w)
  rw [← Quat.toMat_mulVec, ← Quat.toMat_mulVec, g3, g4, hsc, hs2]

end

end Momentum
