import Verif.Lemmas.TransformPose3

namespace Momentum
open Skeleton Transform

theorem restrictTo_map (keep : ParameterSet) (p : List ℝ) :
    restrictTo keep p = (keptParams keep p.length).map fun c => p.getD c 0 := by
  unfold restrictTo
  rw [← List.filterMap_eq_map]
  refine List.filterMap_congr fun c hc => ?_
  have := (mem_keptParams.1 hc).1
  simp [List.getElem?_eq_getElem this, List.getD_eq_getElem?_getD]

section
variable {s : Skeleton ℝ} {pt : ParameterTransform ℝ} {S : PoseTransformSolver} {n : Nat} {keep : ParameterSet}

/-- Writing the solved parameters back. -/
theorem RigidPart.written (hS : RigidPart s pt S n keep) {full : List ℝ} (hf : full.length = pt.transform.cols) (solved : List ℝ) :
    let full' := (List.range S.toFull.length).foldl (S.writeStep solved) full
    full'.length = full.length ∧ (∀ c, ¬RigidParameter pt c → full'[c]? = full[c]?) ∧
      (AgreeOutside (fun k => S.rigid.mem k = true) (restrictTo keep full) solved → restrictTo keep full' = solved) := by
  intro full'
  have hkl : ∀ c ∈ S.toFull, c < full.length := by
    rw [hS.toFull, hf]; intro c hc; exact (mem_keptParams.1 hc).1
  have hnd : S.toFull.Nodup := by rw [hS.toFull]; exact kept_nodup _ _
  obtain ⟨h1, h2, h3⟩ := PoseTransformSolver.write_fold S hnd solved _ le_rfl full hkl
  change full'.length = full.length at h1
  have hr : ∀ k, S.rigid.mem k = true ↔ ∃ c, S.toFull[k]? = some c ∧ RigidParameter pt c := by
    intro k; rw [hS.toFull]; exact hS.rigid k
  refine ⟨h1, fun c hc => h2 c fun k _ hk e => ?_, fun hag => ?_⟩
  · obtain ⟨c', h4, h5⟩ := (hr k).1 hk
    rw [e] at h4; cases h4; exact hc h5
  · obtain ⟨hl, ha⟩ := hag
    have hlen : (restrictTo keep full).length = S.toFull.length := by
      rw [restrictTo_map, List.length_map, hf, hS.toFull]
    have hlen' : (restrictTo keep full').length = S.toFull.length := by
      rw [restrictTo_map, List.length_map, h1, hf, hS.toFull]
    apply List.ext_getElem?
    intro k
    by_cases hk : k < S.toFull.length
    · have e1 : (restrictTo keep full')[k]? = some (full'.getD (S.toFull[k]) 0) := by
        rw [restrictTo_map, h1, hf, ← hS.toFull, List.getElem?_map, List.getElem?_eq_getElem hk]; rfl
      have e2 : (restrictTo keep full)[k]? = some (full.getD (S.toFull[k]) 0) := by
        rw [restrictTo_map, hf, ← hS.toFull, List.getElem?_map, List.getElem?_eq_getElem hk]; rfl
      have hc : S.toFull[k]? = some (S.toFull[k]) := List.getElem?_eq_getElem hk
      by_cases hkr : S.rigid.mem k = true
      · have h4 := h3 k hk hkr _ hc
        change full'[S.toFull[k]]? = _ at h4
        rw [e1, List.getD_eq_getElem?_getD, h4, Option.getD_some, List.getD_eq_getElem _ _ (by omega),
          List.getElem?_eq_getElem (by omega)]
      · have h4 := h2 (S.toFull[k]) (fun k' hk' hr' e => by
          have : k' = k := (List.getElem?_inj hk' hnd).1 (by rw [e, hc])
          exact hkr (this ▸ hr'))
        change full'[S.toFull[k]]? = _ at h4
        rw [ha k hkr, e1, e2, List.getD_eq_getElem?_getD, h4, ← List.getD_eq_getElem?_getD]
    · rw [List.getElem?_eq_none (by omega), List.getElem?_eq_none (by omega)]

/-- The joints after the simplified character keep their joint parameters. -/
theorem RigidPart.tail (hC : PoseCharacter s pt) (hS : RigidPart s pt S n keep) {p q : List ℝ} (hp : p.length = pt.transform.cols)
    (hq : q.length = pt.transform.cols) (h : ∀ c, ¬RigidParameter pt c → q[c]? = p[c]?) {jp jq : List ℝ}
    (h1 : pt.apply p = some jp) (h2 : pt.apply q = some jq) : ∀ j, S.root < j → jointSlice jq j = jointSlice jp j := by
  intro j hj
  obtain ⟨jp', a1, a2, a3⟩ := apply_getElem hC.valid hp
  obtain ⟨jq', b1, b2, b3⟩ := apply_getElem hC.valid hq
  rw [h1] at a1; cases a1
  rw [h2] at b1; cases b1
  funext k
  unfold jointSlice
  rw [List.getD_eq_getElem?_getD, List.getD_eq_getElem?_getD]
  congr 1
  by_cases hr : 7 * j + k.val < pt.transform.rows
  · rw [a3 _ hr, b3 _ hr]
    congr 2
    refine rowSum_congr_row fun e he her => ?_
    have hnr : ¬RigidParameter pt e.col := by
      intro hc
      have h4 := hS.last.last e.col (e.row / 7) hc ⟨e, he, rfl, rfl⟩
      rw [hS.root] at hj
      have := k.isLt
      rw [her] at h4
      omega
    rw [List.getD_eq_getElem?_getD, List.getD_eq_getElem?_getD, h _ hnr]
  · rw [List.getElem?_eq_none (by omega), List.getElem?_eq_none (by omega)]

/-- The joints below the root keep their place relative to it. -/
theorem RigidPart.relative (hC : PoseCharacter s pt) (hS : RigidPart s pt S n keep) {p q : List ℝ} (hp : p.length = pt.transform.cols)
    (hq : q.length = pt.transform.cols) (h : ∀ c, ¬RigidParameter pt c → q[c]? = p[c]?) {tp tq : List (Transform ℝ)}
    (h1 : characterPose s pt p = some tp) (h2 : characterPose s pt q = some tq) {j : Nat} (hj : s.Anc j S.root)
    (hjl : j < s.joints.length) :
    ∃ A B A' B' R : Transform ℝ, tp[S.root]? = some A ∧ tp[j]? = some B ∧ tq[S.root]? = some A' ∧ tq[j]? = some B' ∧
      A.rotation.normSq = 1 ∧ A.scale ≠ 0 ∧ A'.rotation.normSq = 1 ∧ R.rotation.normSq = 1 ∧ B = A * R ∧ B' = A' * R := by
  obtain ⟨jp, st, -, -, a1, a2, a3, a4, -⟩ := hS.pose hC hp
  obtain ⟨jq, st', -, -, b1, b2, b3, b4, -⟩ := hS.pose hC hq
  unfold characterPose at h1 h2
  rw [a1, Option.bind_some, a2] at h1
  rw [b1, Option.bind_some, b2] at h2
  simp only [Option.map_some, Option.some.injEq] at h1 h2
  obtain ⟨R, hR, e1, e2⟩ := state_relative hC.skeleton hC.unit a3 a4 b3 b4 (hS.tail hC hp hq h a1 b1) hj
  have hpos := hS.pos
  have hle := hS.le
  have hr : S.root < s.joints.length := by rw [hS.root]; omega
  have hw : ∀ (st : List JointState) (k : Nat) (hk : k < st.length), worldOf st (some k) = (st[k]).transform := by
    intro st k hk
    simp [worldOf, List.getElem?_eq_getElem hk]
  have hu := a3.worldOf_unit hC.skeleton hC.unit (some S.root)
  have hu' := b3.worldOf_unit hC.skeleton hC.unit (some S.root)
  rw [hw st j (by omega), hw st _ (by omega)] at e1
  rw [hw st' j (by omega), hw st' _ (by omega)] at e2
  rw [hw st _ (by omega)] at hu
  rw [hw st' _ (by omega)] at hu'
  refine ⟨_, _, _, _, R, ?_, ?_, ?_, ?_, hu.1, hu.2, hu'.1, hR, e1, e2⟩
  · rw [← h1, List.getElem?_map, List.getElem?_eq_getElem (by omega)]; rfl
  · rw [← h1, List.getElem?_map, List.getElem?_eq_getElem (by omega)]; rfl
  · rw [← h2, List.getElem?_map, List.getElem?_eq_getElem (by omega)]; rfl
  · rw [← h2, List.getElem?_map, List.getElem?_eq_getElem (by omega)]; rfl

end

/-- The frames of a result. -/
theorem frames_spec {S : PoseTransformSolver} {solve : Nat → Transform ℝ → Nat → List ℝ → List ℝ} {rng : Nat → Nat → Nat → ℝ}
    {ps : List (List ℝ)} {ts : List (Transform ℝ)} {cont : Bool} (m : Nat) : ∀ {out : List (List ℝ)},
    (List.range m).foldlM (transformFrame S solve rng ps ts cont) [] = some out →
      out.length = m ∧ ∀ f < m, ∃ p, ps[f]? = some p ∧
        ((p.length = 0 ∧ out[f]? = some []) ∨ (p.length ≠ 0 ∧ ∃ t prev r,
          (if f < ts.length then ts[f]? else ts[0]?) = some t ∧ S.transformPose (solve f) (rng f) p t prev = some r ∧
            out[f]? = some r)) := by
  induction m with
  | zero => intro out h; cases h; exact ⟨rfl, fun f hf => by omega⟩
  | succ m ih =>
    intro out h
    rw [List.range_succ, List.foldlM_append] at h
    simp only [Option.bind_eq_bind, Option.bind_eq_some_iff, List.foldlM_cons, List.foldlM_nil] at h
    obtain ⟨o, h1, x, h2, h3⟩ := h
    cases h3
    obtain ⟨hl, hf⟩ := ih h1
    unfold transformFrame at h2
    rw [Option.bind_eq_some_iff] at h2
    obtain ⟨p, hp, h2⟩ := h2
    have hext : ∀ y : List ℝ, (o ++ [y]).length = m + 1 ∧ (o ++ [y])[m]? = some y ∧ ∀ f < m, (o ++ [y])[f]? = o[f]? := by
      intro y
      refine ⟨by simp [hl], by rw [List.getElem?_append_right (by omega)]; simp [hl], fun f hf => ?_⟩
      exact List.getElem?_append_left (by omega)
    split at h2
    · rename_i h0
      cases h2
      obtain ⟨a, b, c⟩ := hext []
      refine ⟨a, fun f hfm => ?_⟩
      by_cases hfe : f = m
      · subst hfe; exact ⟨p, hp, Or.inl ⟨h0, b⟩⟩
      · rw [c f (by omega)]; exact hf f (by omega)
    · rename_i h0
      rw [Option.bind_eq_some_iff] at h2
      obtain ⟨t, ht, h2⟩ := h2
      rw [Option.map_eq_some_iff] at h2
      obtain ⟨r, hr, rfl⟩ := h2
      obtain ⟨a, b, c⟩ := hext r
      refine ⟨a, fun f hfm => ?_⟩
      by_cases hfe : f = m
      · subst hfe; exact ⟨p, hp, Or.inr ⟨h0, t, _, r, ht, hr, b⟩⟩
      · rw [c f (by omega)]; exact hf f (by omega)

theorem transformPose_some {S : PoseTransformSolver} {solve : Transform ℝ → Nat → List ℝ → List ℝ} {rng : Nat → Nat → ℝ}
    {full : List ℝ} {t : Transform ℝ} {prev r : List ℝ} (h : S.transformPose solve rng full t prev = some r) :
    full.length = S.numFull ∧ ∃ p0 root solved, S.toFull.mapM (fun i => full[i]?) = some p0 ∧ S.rootAt p0 = some root ∧
      S.restartLoop solve rng (t * root) 10001 0 (if prev.length = 0 then p0 else S.copyRigid prev p0) = some solved ∧
      r = (List.range S.toFull.length).foldl (S.writeStep solved) full := by
  unfold PoseTransformSolver.transformPose at h
  split at h
  · rename_i hl
    rw [Option.bind_eq_some_iff] at h
    obtain ⟨p0, h1, h⟩ := h
    rw [Option.bind_eq_some_iff] at h
    obtain ⟨root, h2, h⟩ := h
    rw [Option.map_eq_some_iff] at h
    obtain ⟨solved, h3, rfl⟩ := h
    exact ⟨hl.1, p0, root, solved, h1, h2, h3, rfl⟩
  · cases h

theorem matDistance_self (a : Mat3 ℝ) : PoseTransformSolver.matDistance a a = 0 := by
  simp [PoseTransformSolver.matDistance]

/-- A solver that finds a placement ends the loop at once. -/
theorem restartLoop_found {S : PoseTransformSolver} {solve : Transform ℝ → Nat → List ℝ → List ℝ} {rng : Nat → Nat → ℝ}
    (hf : FindsPlacement S.skeleton S.transform S.root (fun k => S.rigid.mem k = true) solve) {target : Transform ℝ} {p : List ℝ}
    (hp : p.length = S.transform.transform.cols)
    (hreach : ∃ q, AgreeOutside (fun k => S.rigid.mem k = true) p q ∧ PlacesJoint S.skeleton S.transform S.root target q) (fuel i : Nat) :
    ∃ solved, S.restartLoop solve rng target (fuel + 1) i p = some solved ∧ AgreeOutside (fun k => S.rigid.mem k = true) p solved ∧
      PlacesJoint S.skeleton S.transform S.root target solved := by
  obtain ⟨h1, h2⟩ := hf target i p hp
  have h3 := h2 hreach
  refine ⟨solve target i p, ?_, h1, h3⟩
  obtain ⟨ts, T, h4, h5, h6, h7⟩ := h3
  have hroot : S.rootAt (solve target i p) = some T := by
    unfold characterPose at h4
    rw [Option.bind_eq_some_iff] at h4
    obtain ⟨jp, a1, a2⟩ := h4
    rw [Option.map_eq_some_iff] at a2
    obtain ⟨st, a2, rfl⟩ := a2
    unfold PoseTransformSolver.rootAt
    rw [a1, Option.bind_some, a2, Option.bind_some]
    rwa [List.getElem?_map] at h5
  rw [PoseTransformSolver.restartLoop, hroot, Option.bind_some, h7, matDistance_self, if_pos (by norm_num)]

theorem copyRigid_agree (S : PoseTransformSolver) (prev p : List ℝ) :
    AgreeOutside (fun k => S.rigid.mem k = true) p (S.copyRigid prev p) := by
  refine ⟨by simp [PoseTransformSolver.copyRigid], fun k hk => ?_⟩
  unfold PoseTransformSolver.copyRigid
  rw [List.getElem?_mapIdx]
  have : ¬S.rigid.test k = some true := by rw [PoseTransformSolver.test_true]; exact hk
  cases p[k]? <;> simp [this]

theorem AgreeOutside.symm {e : Nat → Prop} {p q : List ℝ} (h : AgreeOutside e p q) : AgreeOutside e q p :=
  ⟨h.1.symm, fun k hk => (h.2 k hk).symm⟩

theorem AgreeOutside.trans {e : Nat → Prop} {p q r : List ℝ} (h : AgreeOutside e p q) (h' : AgreeOutside e q r) : AgreeOutside e p r :=
  ⟨h'.1.trans h.1, fun k hk => (h'.2 k hk).trans (h.2 k hk)⟩

end Momentum
