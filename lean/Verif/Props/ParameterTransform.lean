import Verif.Lemmas.ParameterTransform2
import Mathlib.Algebra.Ring.Int.Defs

/-!
# C13-C15: parameter transforms
-/

namespace Momentum
open ParameterTransform

variable {K : Type} [CommRing K]

/-- **C13** `apply` succeeds exactly when the sizes match, and then computes `T p + offsets`. -/
theorem C13_apply_affine (pt : ParameterTransform K) (hwf : pt.transform.WF) (p q : List K) :
    pt.apply p = some q ↔
      p.length = pt.transform.cols ∧ pt.offsets.length = pt.transform.rows ∧
      q.length = pt.transform.rows ∧
      ∀ i < pt.transform.rows, q[i]? = some
        (∑ j ∈ Finset.range pt.transform.cols, pt.transform.coeff i j * p.getD j 0
          + pt.offsets.getD i 0) := by
  have key : pt.offsets.length = pt.transform.rows →
      (addVec (pt.transform.mulVec p) pt.offsets).length = pt.transform.rows ∧
      ∀ i < pt.transform.rows, (addVec (pt.transform.mulVec p) pt.offsets)[i]? = some
        (∑ j ∈ Finset.range pt.transform.cols, pt.transform.coeff i j * p.getD j 0
          + pt.offsets.getD i 0) := by
    intro ho
    refine ⟨by rw [addVec_length, mulVec_length, ho, min_self], ?_⟩
    intro i hi
    rw [addVec, zipWith_getElem _ _ _ _ (mulVec_getElem _ _ _ hi)
      (List.getElem?_eq_getElem (by omega) : pt.offsets[i]? = some pt.offsets[i])]
    rw [List.getD_eq_getElem _ _ (by omega)]
    rw [rowSum_eq_coeff pt.transform.rows pt.transform.cols pt.transform.cols _ fun e he => (hwf e he).2]
  unfold ParameterTransform.apply
  constructor
  · intro h
    split at h
    · rename_i h1
      split at h
      · rename_i h2
        simp only [Option.some.injEq] at h
        subst h
        exact ⟨h1, h2, key h2⟩
      · simp at h
    · simp at h
  · rintro ⟨h1, h2, h3, h4⟩
    rw [if_pos h1, if_pos h2]
    congr 1
    apply ext_getElem? (by rw [(key h2).1, h3])
    intro i hi
    rw [(key h2).1] at hi
    rw [(key h2).2 i hi, h4 i hi]

/-- **C13** the character parameters returned by the inverse transform reproduce the joint parameters
exactly, whatever vector (of the right length) the linear solver returns. -/
theorem C13_inverse_reproduces (pt : ParameterTransform K) (solve : List K → List K)
    (hs : ∀ v, (solve v).length = pt.transform.cols) (jp : List K)
    (hj : jp.length = pt.transform.rows) (ho : pt.offsets.length = pt.transform.rows) :
    ∃ cp, pt.inverseApply solve jp = some cp ∧ pt.applyCharacter cp = some jp := by
  refine ⟨_, by unfold ParameterTransform.inverseApply; rw [if_pos hj, if_pos ho], ?_⟩
  unfold ParameterTransform.applyCharacter
  simp only [hs, if_true]
  have hl : (subVec jp (pt.transform.mulVec (solve (subVec jp pt.offsets)))).length
      = pt.transform.rows := by rw [subVec_length, mulVec_length, hj, min_self]
  rw [hl]
  split
  · rw [if_pos rfl, addVec_subVec_cancel _ _ (by rw [mulVec_length, hj])]
  · rename_i h0
    have h0 : pt.transform.rows = 0 := by omega
    congr 1
    exact (List.eq_nil_of_length_eq_zero (by rw [mulVec_length, h0])).trans
      (List.eq_nil_of_length_eq_zero (by rw [hj, h0])).symm

/-- **C13** wrong sizes are reported by every entry point. -/
theorem C13_size_errors (pt : ParameterTransform K) (p : List K) (cp : CharacterParameters K)
    (solve : List K → List K) (jp : List K) :
    (p.length ≠ pt.transform.cols → pt.apply p = none) ∧
    (cp.pose.length ≠ pt.transform.cols → pt.applyCharacter cp = none) ∧
    (jp.length ≠ pt.transform.rows → pt.inverseApply solve jp = none) := by
  refine ⟨fun h => ?_, fun h => ?_, fun h => ?_⟩
  · unfold ParameterTransform.apply; rw [if_neg h]
  · unfold ParameterTransform.applyCharacter; rw [if_neg h]
  · unfold ParameterTransform.inverseApply; rw [if_neg h]

/-- A transform with two parameters driving seven joint parameters, one of them twice. -/
def exPT : ParameterTransform Int where
  name := ["a", "b", "c"]
  transform := ⟨7, 3, [⟨0, 0, 2⟩, ⟨0, 1, 3⟩, ⟨5, 1, -1⟩, ⟨6, 2, 4⟩]⟩
  offsets := [1, 0, 0, 0, 0, 0, 10]
  activeJointParams := [true, false, false, false, false, true, true]
  parameterSets := [("all", ParameterSet.all)]
  poseConstraints := [("rest", [(0, 5), (2, 7)])]
  blendShapeParameters := [1]
  faceExpressionParameters := []

theorem exPT_valid :
    exPT.Valid [⟨.minMax 0 (-1) 1, 1⟩, ⟨.linear 0 2 1 0 0 0, 1⟩, ⟨.halfPlane 1 2 1 1 0, 3⟩] := by
  constructor <;> simp [exPT, SparseMat.WF, LimitData.params, kMaxModelParams]
  intro a b h; omega

example : exPT.apply [1, 2, 3] = some [9, 0, 0, 0, 0, -2, 22] := by decide

/-- **C14** `splitParameters`: the chosen pose entries become zero, the others stay, and the joint
parameters stay the same. -/
theorem C14_split (pt : ParameterTransform K) (p r : CharacterParameters K) (s : ParameterSet)
    (h : pt.splitParameters p s = some r) :
    r.pose.length = p.pose.length ∧
    (∀ j < p.pose.length, r.pose[j]? = if s.mem j then some 0 else p.pose[j]?) ∧
    (∃ jp, pt.applyCharacter p = some jp) ∧
    pt.applyCharacter r = pt.applyCharacter p := by
  unfold ParameterTransform.splitParameters at h
  simp only [Option.bind_eq_bind, Option.bind_eq_some_iff, Option.some.injEq] at h
  obtain ⟨flags, hf, offs, ho, rfl⟩ := h
  have hflen : flags.length = p.pose.length := by rw [mapM_length hf]; simp
  have hflags : flags = (List.range p.pose.length).map s.mem :=
    mapM_eq_map hf fun i _ b hb => (test_eq hb).2
  have hget : ∀ j < p.pose.length, flags[j]? = some (s.mem j) := by
    intro j hj
    rw [hflags, List.getElem?_map, List.getElem?_range hj]; rfl
  have hlen : ∀ f : K → Bool → K, (List.zipWith f p.pose flags).length = p.pose.length := by
    intro f; rw [List.length_zipWith, hflen, min_self]
  have hsplit : ∀ j, p.pose.getD j 0 =
      (List.zipWith (fun x (b : Bool) => if b then 0 else x) p.pose flags).getD j 0 +
      (List.zipWith (fun x (b : Bool) => if b then x else 0) p.pose flags).getD j 0 := by
    intro j
    by_cases hj : j < p.pose.length
    · have h1 : p.pose[j]? = some p.pose[j] := List.getElem?_eq_getElem hj
      simp only [List.getD_eq_getElem?_getD]
      rw [zipWith_getElem _ _ _ _ h1 (hget j hj), zipWith_getElem _ _ _ _ h1 (hget j hj), h1]
      simp only [Option.getD_some]
      split <;> simp
    · simp only [List.getD_eq_getElem?_getD]
      rw [List.getElem?_eq_none (by omega), List.getElem?_eq_none (by rw [hlen]; omega),
        List.getElem?_eq_none (by rw [hlen]; omega)]
      simp
  have hmul : addVec (pt.transform.mulVec
        (List.zipWith (fun x (b : Bool) => if b then 0 else x) p.pose flags))
      (pt.transform.mulVec (List.zipWith (fun x (b : Bool) => if b then x else 0) p.pose flags))
      = pt.transform.mulVec p.pose := by
    apply ext_getElem? (by rw [addVec_length]; simp [mulVec_length])
    intro i hi
    rw [addVec_length, mulVec_length, mulVec_length, min_self] at hi
    rw [addVec, zipWith_getElem _ _ _ _ (mulVec_getElem _ _ _ hi) (mulVec_getElem _ _ _ hi),
      mulVec_getElem _ _ _ hi, ← rowSum_add]
    simp only [← hsplit]
  refine ⟨hlen _, ?_, ?_, ?_⟩
  · intro j hj
    have h1 : p.pose[j]? = some p.pose[j] := List.getElem?_eq_getElem hj
    rw [zipWith_getElem _ _ _ _ h1 (hget j hj), h1]
    split <;> rfl
  · unfold ParameterTransform.applyCharacter at ho ⊢
    simp only [hlen] at ho
    split at ho
    · rename_i hc
      simp only [hc, if_true]
      split at ho
      · rename_i h0
        rw [if_pos h0]
        split at ho
        · rename_i h1; rw [if_pos h1]; exact ⟨_, rfl⟩
        · simp at ho
      · rename_i h0; rw [if_neg h0]; exact ⟨_, rfl⟩
    · simp at ho
  · unfold ParameterTransform.applyCharacter at ho ⊢
    simp only [hlen] at ho ⊢
    split at ho
    · rename_i hc
      simp only [hc, if_true]
      split at ho
      · rename_i h0
        split at ho
        · rename_i h1
          simp only [Option.some.injEq] at ho
          have hol : offs.length = pt.transform.rows := by
            rw [← ho, addVec_length, mulVec_length, h1, min_self]
          rw [hol, if_pos (by omega), if_pos rfl, if_pos h0, if_pos h1, ← ho, ← hmul]
          congr 1
          simp only [addVec]
          apply List.ext_getElem?
          intro i
          simp only [List.getElem?_zipWith]
          generalize (pt.transform.mulVec _)[i]? = a
          generalize (pt.transform.mulVec _)[i]? = b
          cases a <;> cases b <;> cases p.offsets[i]? <;> simp [add_assoc]
        · simp at ho
      · rename_i h0
        simp only [Option.some.injEq] at ho
        have hol : offs.length = pt.transform.rows := by rw [← ho, mulVec_length]
        rw [hol, if_neg h0]
        split
        · rw [if_pos rfl, ← ho, hmul]
        · rename_i hr
          congr 1
          exact (List.eq_nil_of_length_eq_zero (by rw [mulVec_length]; omega)).trans
            (List.eq_nil_of_length_eq_zero (by rw [mulVec_length]; omega)).symm
    · simp at ho

/-- **C14** splitting succeeds whenever the sizes fit. -/
theorem C14_split_defined (pt : ParameterTransform K) (p : CharacterParameters K) (s : ParameterSet)
    (h1 : p.pose.length = pt.transform.cols) (h2 : pt.transform.cols ≤ 2048)
    (h3 : p.offsets.length = 0 ∨ p.offsets.length = pt.transform.rows) :
    ∃ r, pt.splitParameters p s = some r := by
  unfold ParameterTransform.splitParameters
  rw [mapM_of_forall (g := s.mem)]
  · simp only [Option.bind_eq_bind, Option.bind_some]
    unfold ParameterTransform.applyCharacter
    simp only [List.length_zipWith, List.length_map, List.length_range, min_self, h1, if_true]
    rcases h3 with h3 | h3
    · rw [if_neg (by omega)]; exact ⟨_, rfl⟩
    · rw [if_pos h3]
      split <;> exact ⟨_, rfl⟩
  · intro i hi
    apply test_of_lt
    have := List.mem_range.mp hi
    unfold kMaxModelParams; omega

example : (⟨[1, 2, 3], [0, 0, 0, 0, 0, 0, 1]⟩ : CharacterParameters Int).pose.length
    = exPT.transform.cols ∧ exPT.transform.cols ≤ 2048 := by decide

/-! ### C15 -/

/-- **C15** the subset transform applied to the restricted parameters equals the original applied to the
parameters with the removed ones set to zero. -/
theorem C15_subset_apply (pt q : ParameterTransform K) (limits L : List (ParameterLimit K))
    (s : ParameterSet) (h : pt.subset limits s = some (q, L)) (p : List K)
    (hp : p.length = pt.transform.cols) :
    q.apply (restrictTo s p) = pt.apply (zeroOutside s p) := by
  obtain ⟨hn, ht, _, ho, _, _, _, _, _, _, hcol, _⟩ := subset_some h
  unfold ParameterTransform.apply
  rw [ho, ht]
  have e1 : (restrictTo s p).length = (keptParams s pt.transform.cols).length := by
    rw [restrictTo_length, hp]
  have e2 : (zeroOutside s p).length = pt.transform.cols := by simp [zeroOutside, hp]
  simp only [e1, e2, if_true]
  split
  · congr 2
    refine mulVec_congr _ _ _ _ (by rfl) ?_
    intro i
    apply renEntry_rowSum s _ _ hcol
    · intro c hc hm
      rw [restrictTo_getD s p (by omega) hm, mapIdx_getD, if_pos hm]
    · intro c hc hm
      rw [mapIdx_getD, if_neg (by simp [hm])]
  · rfl

/-- **C15** names and sizes. -/
theorem C15_subset_names (pt q : ParameterTransform K) (limits L : List (ParameterLimit K))
    (s : ParameterSet) (hv : pt.Valid limits) (h : pt.subset limits s = some (q, L)) :
    q.name = restrictTo s pt.name ∧ q.transform.cols = q.name.length ∧
    q.transform.rows = pt.transform.rows ∧ q.offsets = pt.offsets := by
  obtain ⟨hn, ht, hname, ho, _⟩ := subset_some h
  have hq : q.name = restrictTo s pt.name := by
    unfold restrictTo
    rw [hv.names]
    have := congrArg (List.filterMap id) hname
    rw [filterMap_id_map, filterMap_id_map] at this
    rw [this]; simp
  refine ⟨hq, ?_, by rw [ht], ho⟩
  rw [hq, restrictTo_length, hv.names, ht]

/-- **C15** a valid transform can always be subset, and the result is valid again. -/
theorem C15_subset_valid (pt : ParameterTransform K) (limits : List (ParameterLimit K))
    (s : ParameterSet) (hv : pt.Valid limits) :
    ∃ q L, pt.subset limits s = some (q, L) ∧ q.Valid L := by
  obtain ⟨⟨q, L⟩, h⟩ := subset_of_valid hv s
  refine ⟨q, L, h, ?_⟩
  obtain ⟨hn, ht, hname, ho, ha, hsets, hpc, hb, hf, hL, hcol, hlim⟩ := subset_some h
  obtain ⟨hname', hcols, hrows, _⟩ := C15_subset_names pt q limits L s hv h
  have hrank : ∀ i < pt.transform.cols, s.mem i → rank s i < q.transform.cols := by
    intro i hi hm
    rw [ht]
    exact (List.getElem?_eq_some_iff.mp (kept_getElem_rank hi hm)).1
  have hblend : ∀ b : List Int, (∀ x ∈ b, x < pt.transform.cols) →
      ∀ x ∈ b.map (renBlend s), x < q.transform.cols := by
    intro b hb x hx
    obtain ⟨y, hy, rfl⟩ := List.mem_map.mp hx
    unfold renBlend ren
    have := hb y hy
    by_cases h0 : 0 ≤ y
    · rw [if_pos h0]
      by_cases hm : s.mem y.toNat
      · rw [if_pos hm]
        have := hrank y.toNat (by omega) hm
        simp only; omega
      · rw [if_neg hm]; simp only; omega
    · rw [if_neg h0]; omega
  refine ⟨hcols.symm, ?_, ?_, ?_, ?_, ?_, ?_, ?_⟩
  · rw [ht]; exact (keptParams_length_le _ _).trans hn
  · rw [ho, hrows]; exact hv.offs
  · intro e he
    rw [ht] at he
    obtain ⟨e0, he0, hr⟩ := List.mem_filterMap.mp he
    unfold renEntry ren at hr
    split at hr
    · rename_i hm
      simp only [Option.map_some, Option.some.injEq] at hr
      subst hr
      exact ⟨by rw [ht]; exact (hv.wf e0 he0).1, hrank _ (hv.wf e0 he0).2 hm⟩
    · simp at hr
  · intro nc hnc iv hiv
    rw [hpc] at hnc
    obtain ⟨nc0, hnc0, rfl⟩ := List.mem_map.mp hnc
    obtain ⟨iv0, hiv0, hr⟩ := List.mem_filterMap.mp hiv
    unfold renConstraint ren at hr
    split at hr
    · rename_i hm
      simp only [Option.map_some, Option.some.injEq] at hr
      subst hr
      exact hrank _ (hv.constraints nc0 hnc0 iv0 hiv0) hm
    · simp at hr
  · rw [hb]; exact hblend _ hv.blend
  · rw [hf]; exact hblend _ hv.face
  · intro l hl i hi
    rw [hL] at hl
    obtain ⟨l0, hl0, hr⟩ := List.mem_filterMap.mp hl
    unfold renLimit at hr
    split at hr
    · rename_i hm
      simp only [Option.some.injEq] at hr
      subst hr
      have hb := hv.lims l0 hl0
      have key : ∀ d : LimitData K, (d.rename (rank s)).params = d.params.map (rank s) := by
        intro d; cases d <;> rfl
      simp only [ParameterLimit.rename, key] at hi
      obtain ⟨i0, hi0, rfl⟩ := List.mem_map.mp hi
      exact hrank i0 (hb i0 hi0) (hm i0 hi0)
    · simp at hr

/-- **C15** limits: renaming the new limits back gives exactly the old limits all of whose parameters are
kept, in order and with their weights; every limit mentioning a removed parameter is dropped. -/
theorem C15_subset_limits (pt q : ParameterTransform K) (limits L : List (ParameterLimit K))
    (s : ParameterSet) (h : pt.subset limits s = some (q, L)) :
    L.map (fun l => l.rename fun k => (keptParams s pt.transform.cols).getD k 0)
      = limits.filter fun l => l.data.params.all s.mem := by
  obtain ⟨hn, ht, _, _, _, _, _, _, _, hL, _, hlim⟩ := subset_some h
  subst hL
  clear h ht
  induction limits with
  | nil => rfl
  | cons l ls ih =>
    have ih := ih fun l' hl' => hlim l' (List.mem_cons_of_mem _ hl')
    have hl := hlim l List.mem_cons_self
    by_cases hm : ∀ i ∈ l.data.params, s.mem i
    · have e1 : renLimit s l = some (l.rename (rank s)) := by unfold renLimit; rw [if_pos hm]
      rw [List.filterMap_cons, e1, List.filter_cons_of_pos (by simpa [List.all_eq_true] using hm)]
      simp only [List.map_cons]
      rw [ih]
      congr 1
      have key : ∀ i ∈ l.data.params,
          (keptParams s pt.transform.cols).getD (rank s i) 0 = i := by
        intro i hi
        rw [List.getD_eq_getElem?_getD, kept_getElem_rank (hl i hi) (hm i hi)]; rfl
      obtain ⟨d, w⟩ := l
      cases d <;> simp only [LimitData.params, List.mem_cons, List.not_mem_nil, or_false,
        forall_eq_or_imp, forall_eq] at key <;>
        simp only [ParameterLimit.rename, LimitData.rename, key]
    · have e1 : renLimit s l = none := by unfold renLimit; rw [if_neg hm]
      rw [List.filterMap_cons, e1, List.filter_cons_of_neg (by simpa [List.all_eq_true] using hm)]
      exact ih

/-- **C15** pose constraints: same names; renaming back gives exactly the kept entries. -/
theorem C15_subset_poseConstraints (pt q : ParameterTransform K) (limits L : List (ParameterLimit K))
    (s : ParameterSet) (hv : pt.Valid limits) (h : pt.subset limits s = some (q, L)) :
    q.poseConstraints.map (fun nc => (nc.1, nc.2.map fun iv =>
        ((keptParams s pt.transform.cols).getD iv.1 0, iv.2)))
      = pt.poseConstraints.map fun nc => (nc.1, nc.2.filter fun iv => s.mem iv.1) := by
  obtain ⟨hn, ht, _, _, _, _, hpc, _⟩ := subset_some h
  rw [hpc, List.map_map]
  apply List.map_congr_left
  intro nc hnc
  have hb := hv.constraints nc hnc
  simp only [Function.comp_apply, Prod.mk.injEq, true_and]
  generalize nc.2 = c at hb
  induction c with
  | nil => rfl
  | cons iv c ih =>
    have ih := ih fun iv' hiv' => hb iv' (List.mem_cons_of_mem _ hiv')
    have hi := hb iv List.mem_cons_self
    by_cases hm : s.mem iv.1
    · have e1 : renConstraint s iv = some (rank s iv.1, iv.2) := by
        unfold renConstraint ren; rw [if_pos hm]; rfl
      rw [List.filterMap_cons, e1, List.filter_cons_of_pos (by simpa using hm)]
      simp only [List.map_cons]
      rw [ih, List.getD_eq_getElem?_getD, kept_getElem_rank hi hm]
      rfl
    · have e1 : renConstraint s iv = none := by unfold renConstraint ren; rw [if_neg hm]; rfl
      rw [List.filterMap_cons, e1, List.filter_cons_of_neg (by simpa using hm)]
      exact ih

/-- **C15** parameter sets: same names; the `k`-th new parameter is in the new set exactly when the old
parameter it stands for is in the old set, and nothing else is. -/
theorem C15_subset_parameterSets (pt q : ParameterTransform K) (limits L : List (ParameterLimit K))
    (s : ParameterSet) (h : pt.subset limits s = some (q, L)) (k : Nat) :
    q.parameterSets.map (fun ns => (ns.1, ns.2.mem k))
      = pt.parameterSets.map fun ns => (ns.1,
          match (keptParams s pt.transform.cols)[k]? with
          | some i => ns.2.mem i
          | none => false) := by
  obtain ⟨hn, ht, _, _, _, hs, _⟩ := subset_some h
  rw [hs, List.map_map]
  apply List.map_congr_left
  intro ns _
  simp only [Function.comp_apply, Prod.mk.injEq, true_and]
  unfold ParameterSet.mem
  by_cases hk : k < kMaxModelParams
  · rw [dif_pos hk]; rfl
  · rw [dif_neg hk, List.getElem?_eq_none]
    have := keptParams_length_le s pt.transform.cols
    omega

/-- **C15** blend-shape and face-expression indices: an index of a kept parameter becomes the index of
its new name, everything else becomes -1. -/
theorem C15_subset_blendShapes (pt q : ParameterTransform K) (limits L : List (ParameterLimit K))
    (s : ParameterSet) (hv : pt.Valid limits) (h : pt.subset limits s = some (q, L)) :
    List.Forall₂ (fun old new : Int =>
      (∃ k : Nat, new = k ∧ 0 ≤ old ∧ (keptParams s pt.transform.cols)[k]? = some old.toNat) ∨
      (new = -1 ∧ (old < 0 ∨ s.mem old.toNat = false)))
      pt.blendShapeParameters q.blendShapeParameters ∧
    List.Forall₂ (fun old new : Int =>
      (∃ k : Nat, new = k ∧ 0 ≤ old ∧ (keptParams s pt.transform.cols)[k]? = some old.toNat) ∨
      (new = -1 ∧ (old < 0 ∨ s.mem old.toNat = false)))
      pt.faceExpressionParameters q.faceExpressionParameters := by
  obtain ⟨hn, ht, _, _, _, _, _, hb, hf, _⟩ := subset_some h
  rw [hb, hf]
  have key : ∀ l : List Int, (∀ b ∈ l, b < pt.transform.cols) →
      List.Forall₂ (fun old new : Int =>
        (∃ k : Nat, new = k ∧ 0 ≤ old ∧ (keptParams s pt.transform.cols)[k]? = some old.toNat) ∨
        (new = -1 ∧ (old < 0 ∨ s.mem old.toNat = false))) l (l.map (renBlend s)) := by
    intro l hl
    induction l with
    | nil => exact .nil
    | cons b l ih =>
      refine .cons ?_ (ih fun b' hb' => hl b' (List.mem_cons_of_mem _ hb'))
      have hb := hl b List.mem_cons_self
      unfold renBlend ren
      by_cases h0 : 0 ≤ b
      · rw [if_pos h0]
        by_cases hm : s.mem b.toNat
        · left
          rw [if_pos hm]
          exact ⟨_, rfl, h0, kept_getElem_rank (by omega) hm⟩
        · right
          rw [if_neg hm]
          exact ⟨rfl, .inr (by simpa using hm)⟩
      · right
        rw [if_neg h0]
        exact ⟨rfl, .inl (by omega)⟩
  exact ⟨key _ hv.blend, key _ hv.face⟩

theorem activeOf_getElem (rows : Nat) (es : List (Triplet K)) (r : Nat) (hr : r < rows) :
    (activeOf rows es)[r]? = some (es.any fun e => e.row == r) := by
  have gen : ∀ (es : List (Triplet K)) (acc : List Bool) (b : Bool), acc[r]? = some b →
      (es.foldl (fun acc e => acc.set e.row true) acc)[r]? = some (b || es.any fun e => e.row == r) := by
    intro es
    induction es with
    | nil => intro acc b h; simpa using h
    | cons e es ih =>
      intro acc b h
      rw [List.foldl_cons]
      by_cases he : e.row = r
      · rw [ih _ true]
        · simp [he]
        · rw [he, List.getElem?_set_self (List.getElem?_eq_some_iff.mp h).1]
      · rw [ih _ b]
        · simp [beq_eq_false_iff_ne.mpr he]
        · rw [List.getElem?_set_ne he]; exact h
  unfold activeOf
  rw [gen es _ false (by rw [List.getElem?_replicate, if_pos hr])]
  simp

/-- **C15** a joint parameter is active in the subset exactly when a kept parameter drives it. -/
theorem C15_subset_active (pt q : ParameterTransform K) (limits L : List (ParameterLimit K))
    (s : ParameterSet) (h : pt.subset limits s = some (q, L)) (r : Nat) (hr : r < pt.transform.rows) :
    q.activeJointParams[r]? = some
      (pt.transform.entries.any fun e => e.row == r && s.mem e.col) := by
  obtain ⟨hn, ht, _, _, ha, _⟩ := subset_some h
  rw [ha, activeOf_getElem _ _ _ hr]
  congr 1
  generalize pt.transform.entries = es
  induction es with
  | nil => rfl
  | cons e es ih =>
    by_cases hm : s.mem e.col
    · have : renEntry s e = some ⟨e.row, rank s e.col, e.val⟩ := by simp [renEntry, ren, hm]
      rw [List.filterMap_cons, this]
      simp [ih, hm]
    · have : renEntry s e = none := by simp [renEntry, ren, hm]
      rw [List.filterMap_cons, this]
      simp [ih, hm]

/-- The set of the first and third parameter. -/
def exSet : ParameterSet := fun i => i.val == 0 || i.val == 2

/-- Concrete case: parameter "b" is removed, with it its limit; the linear limit is renamed. -/
example : ((exPT.subset
    [⟨.minMax 0 (-1) 1, 1⟩, ⟨.linear 0 2 1 0 0 0, 1⟩, ⟨.halfPlane 1 2 1 1 0, 3⟩] exSet).map
      fun r => (r.1.name, r.2.length)) = some (["a", "c"], 2) := by rfl

end Momentum
