import Verif.Lemmas.ReplaceHierarchy
import Verif.Props.Character

/-!
# C23: replacing a skeleton hierarchy
-/

namespace Momentum
open Classical Skeleton

section
variable {K : Type}

theorem mem_combinedOrigins {src tgt : Skeleton K} {rs rt : Nat} {b : Bool} {i : Nat} :
    (b, i) ∈ combinedOrigins src tgt rs rt ↔
      (b = false ∧ i < tgt.joints.length ∧ (i = rt ∨ ¬ tgt.ProperAnc i rt)) ∨
      (b = true ∧ rt < tgt.joints.length ∧ i < src.joints.length ∧ src.ProperAnc i rs) := by
  unfold combinedOrigins
  simp only [List.mem_flatMap, List.mem_range]
  constructor
  · rintro ⟨k, hk, h⟩
    split_ifs at h with h1 h2
    · simp only [List.mem_cons, Prod.mk.injEq, List.mem_map, List.mem_filter, List.mem_range,
        decide_eq_true_eq] at h
      rcases h with ⟨rfl, rfl⟩ | ⟨j, ⟨h3, h4⟩, rfl, rfl⟩
      · exact .inl ⟨rfl, hk, .inl h1⟩
      · exact .inr ⟨rfl, h1 ▸ hk, h3, h4⟩
    · simp at h
    · simp only [List.mem_singleton, Prod.mk.injEq] at h
      obtain ⟨rfl, rfl⟩ := h
      exact .inl ⟨rfl, hk, .inr h2⟩
  · rintro (⟨rfl, h1, h2⟩ | ⟨rfl, h1, h2, h3⟩)
    · refine ⟨i, h1, ?_⟩
      by_cases hir : i = rt
      · rw [if_pos hir]; simp
      · rw [if_neg hir, if_neg (h2.resolve_left hir)]; simp
    · refine ⟨rt, h1, ?_⟩
      rw [if_pos rfl]
      simp [h2, h3]

theorem names_surviving {src tgt : Skeleton K} {rs rt : Nat} (hv : tgt.Valid) (hrt : rt < tgt.joints.length)
    {st : CombineState K} (h : CombineInv src tgt (combinedOrigins src tgt rs rt) st) (nm : String) :
    st.names.lookup nm ≠ none ↔ SurvivingName src tgt rs rt nm := by
  have h0 : st.names.lookup nm ≠ none ↔ ∃ (k : Nat) (jt : Joint K), st.joints[k]? = some jt ∧ jt.name = nm := by
    rw [← Option.isSome_iff_ne_none, lookup_isSome]
    simp only [h.names]
  rw [h0]
  constructor
  · rintro ⟨k, jt, hk, rfl⟩
    have hkl : k < (combinedOrigins src tgt rs rt).length := by
      rw [← h.len]; exact (List.getElem?_eq_some_iff.1 hk).1
    have he := List.getElem?_eq_getElem hkl
    generalize (combinedOrigins src tgt rs rt)[k] = bi at he
    obtain ⟨b, i⟩ := bi
    obtain ⟨jt0, e1, e2, -⟩ := (h.copy k b i jt he hk).exists_orig
    rcases mem_combinedOrigins.1 (List.mem_of_getElem? he) with ⟨rfl, h1, h2⟩ | ⟨rfl, h1, h2, h3⟩
    · refine .inl ⟨i, jt0, by simpa using e1, ?_, e2.symm⟩
      rcases h2 with rfl | h2
      · exact fun hc => absurd (properAnc_lt hv hc) (lt_irrefl _)
      · exact h2
    · exact .inr ⟨i, jt0, by simpa using e1, h3, e2.symm⟩
  · have key : ∀ (b : Bool) (i : Nat) (jt : Joint K), (b, i) ∈ combinedOrigins src tgt rs rt →
        (if b then src else tgt).joints[i]? = some jt →
          ∃ (k : Nat) (jt' : Joint K), st.joints[k]? = some jt' ∧ jt'.name = jt.name := by
      intro b i jt hm hj
      obtain ⟨k, hk⟩ := List.mem_iff_getElem?.1 hm
      have hkl : k < st.joints.length := by rw [h.len]; exact (List.getElem?_eq_some_iff.1 hk).1
      obtain ⟨jt0, e1, e2, -⟩ := (h.copy k b i _ hk (List.getElem?_eq_getElem hkl)).exists_orig
      rw [hj] at e1
      cases e1
      exact ⟨k, _, List.getElem?_eq_getElem hkl, e2⟩
    rintro (⟨i, jt, h1, h2, rfl⟩ | ⟨i, jt, h1, h2, rfl⟩)
    · exact key false i jt (mem_combinedOrigins.2 (.inl ⟨rfl, (List.getElem?_eq_some_iff.1 h1).1, .inr h2⟩))
        (by simpa using h1)
    · exact key true i jt (mem_combinedOrigins.2 (.inr ⟨rfl, hrt, (List.getElem?_eq_some_iff.1 h1).1, h2⟩))
        (by simpa using h1)

theorem replace_ok {K : Type} [CommRing K] [DecidableEq K] {src tgt c : Character K} {a b : String}
    (h : replaceSkeletonHierarchy src tgt a b = some (.ok c)) :
    ∃ rt rs st jm, tgt.skeleton.getJointIdByName b = some rt ∧ src.skeleton.getJointIdByName a = some rs ∧
      combineSkeletons src.skeleton tgt.skeleton rs rt = .ok st ∧ c.skeleton.joints = st.joints ∧
      skinMap tgt.skeleton st.names = some (.ok jm) := by
  unfold replaceSkeletonHierarchy at h
  by_cases he : src.skeleton.joints.isEmpty
  · rw [if_pos he] at h; simp at h
  rw [if_neg he] at h
  cases ht : tgt.skeleton.getJointIdByName b with
  | none => rw [ht] at h; simp at h
  | some rt =>
    cases hs : src.skeleton.getJointIdByName a with
    | none => rw [ht, hs] at h; simp at h
    | some rs =>
      rw [ht, hs] at h
      simp only at h
      cases hc : combineSkeletons src.skeleton tgt.skeleton rs rt with
      | throws => rw [hc] at h; simp [thenStep] at h
      | ub => rw [hc] at h; simp [thenStep] at h
      | ok st =>
        rw [hc] at h
        simp only [thenStep] at h
        cases hr : combineRest src tgt st with
        | throws => rw [hr] at h; simp at h
        | ub => rw [hr] at h; simp at h
        | ok c' =>
          rw [hr] at h
          simp only at h
          have hj : c'.skeleton.joints = st.joints := by
            unfold combineRest at hr
            generalize hx : (do
              let srcLocs ← mapLocatorParents src.locators st.srcMap
              let tgtLocs ← mapLocatorParents tgt.locators st.tgtMap
              let tgtCaps ← mapOptCapsules tgt.collision st.tgtMap
              let srcCaps ← mapOptCapsules src.collision st.srcMap
              let (pt1, tgtParams) ← addMappedParameters tgt.parameterTransform st.tgtMap
                (ParameterTransform.emptyWith (st.joints.length * 7))
              let (pt2, srcParams) ← addMappedParameters src.parameterTransform st.srcMap pt1
              let active ← pt2.computeActiveJointParams ParameterSet.all
              let tgtLims ← mapParameterLimits tgt.parameterLimits st.tgtMap tgtParams
              let srcLims ← mapParameterLimits src.parameterLimits st.srcMap srcParams
              some { skeleton := ⟨st.joints⟩
                     parameterTransform := { pt2 with activeJointParams := active }
                     parameterLimits := tgtLims ++ srcLims
                     locators := removeDuplicateLocators tgtLocs srcLocs ++ srcLocs
                     mesh := tgt.mesh
                     skinWeights := none
                     collision := if (tgtCaps ++ srcCaps).isEmpty then none else some (tgtCaps ++ srcCaps)
                     inverseBindPose := ([] : List (Affine K)) } : Option (Character K)) = x at hr
            cases x with
            | none => simp [ofOption] at hr
            | some c2 =>
              simp only [ofOption, Outcome.ok.injEq] at hr
              subst hr
              simp only [Option.bind_eq_bind, Option.bind_eq_some_iff] at hx
              obtain ⟨_, -, _, -, _, -, _, -, ⟨_, _⟩, -, ⟨_, _⟩, -, _, -, _, -, _, -, hx⟩ := hx
              simp only [Option.some.injEq] at hx
              rw [← hx]
          cases hk : skinMap tgt.skeleton st.names with
          | none => rw [hk] at h; simp at h
          | some o =>
            rw [hk] at h
            cases o with
            | throws => simp at h
            | ub => simp at h
            | ok jm =>
              simp only [Option.some.injEq] at h
              refine ⟨rt, rs, st, jm, rfl, rfl, hc, ?_, hk⟩
              unfold withSkin at h
              cases hm : mapOptSkin tgt.skinWeights jm with
              | none => rw [hm] at h; simp [ofOption] at h
              | some sk =>
                rw [hm] at h
                simp only [ofOption, Outcome.bind_ok, Outcome.ok.injEq] at h
                rw [← h]
                exact hj

theorem jointId_lt {s : Skeleton K} {nm : String} {r : Nat} (h : s.getJointIdByName nm = some r) :
    r < s.joints.length := by
  unfold getJointIdByName at h
  exact (List.findIdx?_eq_some_iff_getElem.1 h).1

/-- **C23** (validity).  When `replaceSkeletonHierarchy` returns and no joint shares its parent's name, the
resulting skeleton lists parents before children, and its joint names are all different.

Missing for the full property: without the hypothesis on names the result may be cyclic
(`C23_own_parent`). -/
theorem C23_valid_partial {K : Type} [CommRing K] [DecidableEq K] (src tgt c : Character K) (a b : String)
    (hs : src.skeleton.Valid) (ht : tgt.skeleton.Valid)
    (hds : src.skeleton.ParentNamesDiffer) (hdt : tgt.skeleton.ParentNamesDiffer)
    (h : replaceSkeletonHierarchy src tgt a b = some (.ok c)) :
    c.skeleton.Valid ∧ (c.skeleton.joints.map (·.name)).Nodup := by
  obtain ⟨rt, rs, st, jm, h1, h2, h3, h4, -⟩ := replace_ok h
  obtain ⟨hi, hv⟩ := combineSkeletons_inv hs ht (jointId_lt h2) (jointId_lt h1) h3
  refine ⟨?_, by rw [h4]; exact hi.distinct⟩
  have := hv hds hdt
  unfold JointsValid at this
  rw [← h4] at this
  exact this

/-- **C23** (content).  When `replaceSkeletonHierarchy` returns, its joints are exactly the target joints not
strictly below the target root and the source joints strictly below the source root, in the order of
`combinedOrigins`; each is a copy of the original whose parent is the joint carrying the name of the original
parent. -/
theorem C23_joints {K : Type} [CommRing K] [DecidableEq K] (src tgt c : Character K) (a b : String)
    (hs : src.skeleton.Valid) (ht : tgt.skeleton.Valid)
    (h : replaceSkeletonHierarchy src tgt a b = some (.ok c)) :
    ∃ rt rs, tgt.skeleton.getJointIdByName b = some rt ∧ src.skeleton.getJointIdByName a = some rs ∧
      c.skeleton.joints.length = (combinedOrigins src.skeleton tgt.skeleton rs rt).length ∧
      ∀ (k : Nat) (isSrc : Bool) (i : Nat) (jt : Joint K),
        (combinedOrigins src.skeleton tgt.skeleton rs rt)[k]? = some (isSrc, i) →
        c.skeleton.joints[k]? = some jt →
        IsCopy c.skeleton.joints (if isSrc then src.skeleton else tgt.skeleton) i jt := by
  obtain ⟨rt, rs, st, jm, h1, h2, h3, h4, -⟩ := replace_ok h
  obtain ⟨hi, -⟩ := combineSkeletons_inv hs ht (jointId_lt h2) (jointId_lt h1) h3
  exact ⟨rt, rs, h1, h2, by rw [h4]; exact hi.len, by rw [h4]; exact hi.copy⟩

/-- **C23** (termination).  If every target joint strictly below the target root has its own name or its
parent's name in the combined skeleton, `replaceSkeletonHierarchy` ends: it returns or reports an error, and
makes no out-of-range access.

Missing for the full property: without the hypothesis it never returns (`C23_orphan_never_returns`,
`C23_endless_loop`). -/
theorem C23_terminates_partial {K : Type} [CommRing K] [DecidableEq K] (src tgt : Character K) (a b : String)
    (hs : src.skeleton.Valid) (ht : tgt.skeleton.Valid)
    (hc : ∀ rt rs i ij p pj, tgt.skeleton.getJointIdByName b = some rt →
      src.skeleton.getJointIdByName a = some rs → tgt.skeleton.ProperAnc i rt →
      tgt.skeleton.joints[i]? = some ij → ij.parent = some p → tgt.skeleton.joints[p]? = some pj →
      SurvivingName src.skeleton tgt.skeleton rs rt ij.name ∨
      SurvivingName src.skeleton tgt.skeleton rs rt pj.name) :
    ∃ o, replaceSkeletonHierarchy src tgt a b = some o ∧ o ≠ .ub := by
  unfold replaceSkeletonHierarchy
  by_cases he : src.skeleton.joints.isEmpty
  · rw [if_pos he]; exact ⟨_, rfl, by simp⟩
  rw [if_neg he]
  cases h1 : tgt.skeleton.getJointIdByName b with
  | none => exact ⟨_, rfl, by simp⟩
  | some rt =>
    cases h2 : src.skeleton.getJointIdByName a with
    | none => exact ⟨_, rfl, by simp⟩
    | some rs =>
      have hrt := jointId_lt h1
      simp only
      cases h3 : combineSkeletons src.skeleton tgt.skeleton rs rt with
      | ub => exact absurd h3 (combineSkeletons_ne_ub hs ht (jointId_lt h2) hrt)
      | throws => exact ⟨_, rfl, by simp⟩
      | ok st =>
        obtain ⟨hi, -⟩ := combineSkeletons_inv hs ht (jointId_lt h2) hrt h3
        simp only [thenStep]
        cases h4 : combineRest src tgt st with
        | ub =>
          exfalso
          unfold combineRest ofOption at h4
          split at h4 <;> simp at h4
        | throws => exact ⟨_, rfl, by simp⟩
        | ok c' =>
          simp only
          obtain ⟨o, h5, h6⟩ := skinMap_ends ht (names := st.names) (by
            intro i ij hij
            by_cases hp : tgt.skeleton.ProperAnc i rt
            · by_cases hn : st.names.lookup ij.name = none
              · right
                intro p pj hpp hpj
                rw [names_surviving ht hrt hi]
                refine (hc rt rs i ij p pj h1 h2 hp hij hpp hpj).resolve_left ?_
                rw [← names_surviving ht hrt hi]
                exact fun hx => hx hn
              · exact .inl hn
            · left
              rw [names_surviving ht hrt hi]
              exact .inl ⟨i, ij, hij, hp, rfl⟩)
          rw [h5]
          cases o with
          | ub => exact absurd rfl h6
          | throws => exact ⟨_, rfl, by simp⟩
          | ok jm =>
            refine ⟨_, rfl, ?_⟩
            unfold withSkin ofOption
            split <;> simp

/-- **C23** (defect).  As soon as some target joint has neither its own nor its parent's name in the combined
skeleton, `replaceSkeletonHierarchy` does not return a character: line 518 keeps looking up the same parent. -/
theorem C23_orphan_never_returns {K : Type} [CommRing K] [DecidableEq K] (src tgt : Character K)
    (a b : String) (hs : src.skeleton.Valid) (ht : tgt.skeleton.Valid) (rt rs i p : Nat) (ij pj : Joint K)
    (h1 : tgt.skeleton.getJointIdByName b = some rt) (h2 : src.skeleton.getJointIdByName a = some rs)
    (hij : tgt.skeleton.joints[i]? = some ij) (hp : ij.parent = some p)
    (hpj : tgt.skeleton.joints[p]? = some pj)
    (hni : ¬ SurvivingName src.skeleton tgt.skeleton rs rt ij.name)
    (hnp : ¬ SurvivingName src.skeleton tgt.skeleton rs rt pj.name) (c : Character K) :
    replaceSkeletonHierarchy src tgt a b ≠ some (.ok c) := by
  intro h
  obtain ⟨rt', rs', st, jm, e1, e2, h3, -, hk⟩ := replace_ok h
  rw [h1] at e1; cases e1
  rw [h2] at e2; cases e2
  have hrt := jointId_lt h1
  obtain ⟨hi, -⟩ := combineSkeletons_inv hs ht (jointId_lt h2) hrt h3
  have n1 : st.names.lookup ij.name = none := by
    by_contra hx; exact hni ((names_surviving ht hrt hi _).1 hx)
  have n2 : st.names.lookup pj.name = none := by
    by_contra hx; exact hnp ((names_surviving ht hrt hi _).1 hx)
  have hloop : skinLoop tgt.skeleton st.names i (some i) = none := by
    rw [skinLoop]
    simp only [hij, n1, hp]
    exact skinLoop_self hij hp hpj n2
  have hfold : ∀ (l : List Nat) (x : Option (Outcome (List (Option Nat)))), i ∈ l →
      ∀ jm, l.foldl (fun (acc : Option (Outcome (List (Option Nat)))) i =>
        thenStep acc fun l => skinStep tgt.skeleton st.names l i) x ≠ some (.ok jm) := by
    intro l
    induction l with
    | nil => intro x hm; simp at hm
    | cons j l ih =>
      intro x hm jm
      rw [List.foldl_cons]
      rcases List.mem_cons.1 hm with rfl | hm
      · have hx : ∀ y, thenStep x (fun l => skinStep tgt.skeleton st.names l i) ≠ some (.ok y) := by
          intro y
          cases x with
          | none => simp [thenStep]
          | some o =>
            cases o with
            | ok acc => simp [thenStep, skinStep, hloop]
            | throws => simp [thenStep]
            | ub => simp [thenStep]
        generalize thenStep x (fun l => skinStep tgt.skeleton st.names l i) = y at hx
        clear ih hm
        induction l generalizing y with
        | nil => exact hx jm
        | cons j l ih =>
          rw [List.foldl_cons]
          apply ih
          intro z
          cases y with
          | none => simp [thenStep]
          | some o =>
            cases o with
            | ok acc => exact absurd rfl (hx acc)
            | throws => simp [thenStep]
            | ub => simp [thenStep]
      · exact ih _ hm jm
  exact hfold _ _ (List.mem_range.2 (List.getElem?_eq_some_iff.1 hij).1) jm hk

end

/-! ### Concrete cases -/

/-- A character with a skeleton and nothing else. -/
def bareCharacter (joints : List (Joint ℚ)) : Character ℚ where
  skeleton := ⟨joints⟩
  parameterTransform := ParameterTransform.emptyWith (joints.length * 7)
  parameterLimits := []
  locators := []
  mesh := none
  skinWeights := none
  collision := none
  inverseBindPose := []

/-- A joint with identity rotation and no offset. -/
def bareJoint (name : String) (parent : Option Nat) : Joint ℚ := ⟨name, parent, ⟨1, 0, 0, 0⟩, ⟨0, 0, 0⟩⟩

/-- A body whose hand has a single finger, and a hand with two joints to replace it. -/
def exBody : Character ℚ := bareCharacter [bareJoint "root" none, bareJoint "hand" (some 0),
  bareJoint "finger" (some 1), bareJoint "foot" (some 0)]
def exHand : Character ℚ := bareCharacter [bareJoint "root" none, bareJoint "hand" (some 0),
  bareJoint "thumb" (some 1), bareJoint "thumb1" (some 2)]

def jointsOf (o : Option (Outcome (Character ℚ))) : List (String × Option Nat) :=
  match o with
  | some (.ok c) => c.skeleton.joints.map fun j => (j.name, j.parent)
  | _ => []


theorem exBody_anc (i : Nat) (h : i < 4) : exBody.skeleton.isAncestor i 1 = some (i = 1 ∨ i = 2 : Bool) := by
  have : i = 0 ∨ i = 1 ∨ i = 2 ∨ i = 3 := by omega
  rcases this with rfl | rfl | rfl | rfl <;>
    simp [exBody, bareCharacter, bareJoint, isAncestor, isAncestorLoop, parentOf]

theorem exHand_anc (i : Nat) (h : i < 4) : exHand.skeleton.isAncestor i 1 = some (decide (1 ≤ i)) := by
  have : i = 0 ∨ i = 1 ∨ i = 2 ∨ i = 3 := by omega
  rcases this with rfl | rfl | rfl | rfl <;>
    simp [exHand, bareCharacter, bareJoint, isAncestor, isAncestorLoop, parentOf]

def exCombined : CombineState ℚ where
  joints := [bareJoint "root" none, bareJoint "hand" (some 0), bareJoint "thumb" (some 1),
    bareJoint "thumb1" (some 2), bareJoint "foot" (some 0)]
  names := [("root", 0), ("hand", 1), ("thumb", 2), ("thumb1", 3), ("foot", 4)]
  srcMap := [none, none, some 2, some 3]
  tgtMap := [some 0, some 1, none, some 4]

theorem exBody_combined : combineSkeletons exHand.skeleton exBody.skeleton 1 1 = .ok exCombined := by
  have l1 : exHand.skeleton.joints.length = 4 := rfl
  have l2 : exBody.skeleton.joints.length = 4 := rfl
  have r : List.range 4 = [0, 1, 2, 3] := rfl
  have r2 : List.range' (1 + 1) (4 - (1 + 1)) = [2, 3] := rfl
  simp only [combineSkeletons, l1, l2, r, List.foldl_cons, List.foldl_nil, Outcome.bind_ok, addTgtStep,
    exBody_anc 0 (by omega), exBody_anc 2 (by omega), exBody_anc 3 (by omega), ofOption]
  simp [addJoint, addSrcLoop, addSrcStep, l1, r2, exHand_anc, ofOption, exBody, bareCharacter, bareJoint, combinedParent,
    List.lookup]
  simp [exHand, bareCharacter, bareJoint, exCombined, List.lookup]

def okay {α : Type} : Outcome α → Bool
  | .ok _ => true
  | _ => false

theorem okay_iff {α : Type} {o : Outcome α} (h : okay o = true) : ∃ a, o = .ok a := by
  cases o <;> simp_all [okay]

theorem exBody_skin : skinMap exBody.skeleton exCombined.names =
    some (.ok [some 0, some 1, some 1, some 4]) := by
  have l2 : exBody.skeleton.joints.length = 4 := rfl
  have r : List.range 4 = [0, 1, 2, 3] := rfl
  simp [skinMap, l2, r, thenStep, skinStep, skinLoop, exBody, bareCharacter, bareJoint, exCombined, List.lookup]

/-- The theorems above apply to a concrete pair of characters: the replacement returns a five-joint skeleton
in which the finger is gone and the two thumb joints follow the hand. -/
theorem exBody_replaced : ∃ c, replaceSkeletonHierarchy exHand exBody "hand" "hand" = some (.ok c) ∧
    c.skeleton.joints = exCombined.joints := by
  obtain ⟨c', hc'⟩ := okay_iff (o := combineRest exHand exBody exCombined) (by decide +kernel)
  have h : ∃ c, replaceSkeletonHierarchy exHand exBody "hand" "hand" = some (.ok c) := by
    unfold replaceSkeletonHierarchy
    rw [if_neg (by simp [exHand, bareCharacter])]
    rw [show exBody.skeleton.getJointIdByName "hand" = some 1 by decide +kernel,
      show exHand.skeleton.getJointIdByName "hand" = some 1 by decide +kernel]
    simp only [exBody_combined, thenStep, hc', exBody_skin]
    exact ⟨_, rfl⟩
  obtain ⟨c, h⟩ := h
  refine ⟨c, h, ?_⟩
  obtain ⟨rt, rs, st, jm, h1, h2, h3, h4, -⟩ := replace_ok h
  rw [show exBody.skeleton.getJointIdByName "hand" = some 1 by decide +kernel] at h1
  rw [show exHand.skeleton.getJointIdByName "hand" = some 1 by decide +kernel] at h2
  cases h1; cases h2
  rw [exBody_combined] at h3
  cases h3
  exact h4

theorem exBody_valid : exBody.skeleton.Valid := by
  intro i jt p h hp
  match i with
  | 0 | 1 | 2 | 3 => simp [exBody, bareCharacter, bareJoint] at h; subst h; simp_all <;> omega
  | n + 4 => simp [exBody, bareCharacter] at h

theorem exHand_valid : exHand.skeleton.Valid := by
  intro i jt p h hp
  match i with
  | 0 | 1 | 2 | 3 => simp [exHand, bareCharacter, bareJoint] at h; subst h; simp_all <;> omega
  | n + 4 => simp [exHand, bareCharacter] at h

example : exBody.skeleton.ParentNamesDiffer ∧ exHand.skeleton.ParentNamesDiffer := by
  constructor <;> intro i jt p pj h hp hpj
  · match i with
    | 0 | 1 | 2 | 3 =>
      simp [exBody, bareCharacter, bareJoint] at h; subst h; simp at hp
      try subst hp
      try (simp [exBody, bareCharacter, bareJoint] at hpj; subst hpj; simp)
    | n + 4 => simp [exBody, bareCharacter] at h
  · match i with
    | 0 | 1 | 2 | 3 =>
      simp [exHand, bareCharacter, bareJoint] at h; subst h; simp at hp
      try subst hp
      try (simp [exHand, bareCharacter, bareJoint] at hpj; subst hpj; simp)
    | n + 4 => simp [exHand, bareCharacter] at h

/-- The hypothesis of `C23_terminates_partial` is met by this pair. -/
example (rt rs i : Nat) (ij : Joint ℚ) (p : Nat) (pj : Joint ℚ)
    (h1 : exBody.skeleton.getJointIdByName "hand" = some rt)
    (_ : exHand.skeleton.getJointIdByName "hand" = some rs) (_ : exBody.skeleton.ProperAnc i rt)
    (hij : exBody.skeleton.joints[i]? = some ij) (hp : ij.parent = some p)
    (hpj : exBody.skeleton.joints[p]? = some pj) :
    SurvivingName exHand.skeleton exBody.skeleton rs rt ij.name ∨
    SurvivingName exHand.skeleton exBody.skeleton rs rt pj.name := by
  rw [show exBody.skeleton.getJointIdByName "hand" = some 1 by decide +kernel] at h1
  cases h1
  refine .inr (.inl ⟨p, pj, hpj, fun hc => ?_, rfl⟩)
  have := properAnc_lt exBody_valid hc
  match i with
  | 0 | 1 | 2 | 3 =>
    simp [exBody, bareCharacter, bareJoint] at hij; subst hij; simp at hp
    try omega
  | n + 4 => simp [exBody, bareCharacter] at hij

/-- A hand with a finger of two joints: the second one is the orphan of `C23_orphan_never_returns`. -/
def exLongFinger : Character ℚ := bareCharacter [bareJoint "root" none, bareJoint "hand" (some 0),
  bareJoint "finger1" (some 1), bareJoint "finger2" (some 2)]

theorem exLong_anc (i : Nat) (h : i < 4) : exLongFinger.skeleton.isAncestor i 1 = some (decide (1 ≤ i)) := by
  have : i = 0 ∨ i = 1 ∨ i = 2 ∨ i = 3 := by omega
  rcases this with rfl | rfl | rfl | rfl <;>
    simp [exLongFinger, bareCharacter, bareJoint, isAncestor, isAncestorLoop, parentOf]

def exCombined2 : CombineState ℚ where
  joints := [bareJoint "root" none, bareJoint "hand" (some 0), bareJoint "thumb" (some 1),
    bareJoint "thumb1" (some 2)]
  names := [("root", 0), ("hand", 1), ("thumb", 2), ("thumb1", 3)]
  srcMap := [none, none, some 2, some 3]
  tgtMap := [some 0, some 1, none, none]

theorem exLong_combined : combineSkeletons exHand.skeleton exLongFinger.skeleton 1 1 = .ok exCombined2 := by
  have l1 : exHand.skeleton.joints.length = 4 := rfl
  have l2 : exLongFinger.skeleton.joints.length = 4 := rfl
  have r : List.range 4 = [0, 1, 2, 3] := rfl
  have r2 : List.range' (1 + 1) (4 - (1 + 1)) = [2, 3] := rfl
  simp only [combineSkeletons, l1, l2, r, List.foldl_cons, List.foldl_nil, Outcome.bind_ok, addTgtStep,
    exLong_anc 0 (by omega), exLong_anc 2 (by omega), exLong_anc 3 (by omega), ofOption]
  simp [addJoint, addSrcLoop, addSrcStep, l1, r2, exHand_anc, ofOption, exLongFinger, bareCharacter, bareJoint,
    combinedParent, List.lookup]
  simp [exHand, bareCharacter, bareJoint, exCombined2, List.lookup]

/-- **C23** (defect, concrete).  Replacing a hand whose finger has two joints by a hand without that finger
never ends. -/
theorem C23_endless_loop : replaceSkeletonHierarchy exHand exLongFinger "hand" "hand" = none := by
  obtain ⟨c', hc'⟩ := okay_iff (o := combineRest exHand exLongFinger exCombined2) (by decide +kernel)
  have hs : skinMap exLongFinger.skeleton exCombined2.names = none := by
    have l2 : exLongFinger.skeleton.joints.length = 4 := rfl
    have r : List.range 4 = [0, 1, 2, 3] := rfl
    have h3 : skinLoop exLongFinger.skeleton exCombined2.names 3 (some 3) = none := by
      rw [skinLoop]
      simp only [exLongFinger, bareCharacter, bareJoint, exCombined2, List.lookup]
      simp only [List.getElem?_cons_succ, List.getElem?_cons_zero]
      exact skinLoop_self (ij := bareJoint "finger2" (some 2)) (pj := bareJoint "finger1" (some 1))
        rfl rfl rfl (by decide)
    have h0 : skinLoop exLongFinger.skeleton exCombined2.names 0 (some 0) = some (.ok (some 0)) := by
      simp [skinLoop, exLongFinger, bareCharacter, bareJoint, exCombined2, List.lookup]
    have h1 : skinLoop exLongFinger.skeleton exCombined2.names 1 (some 1) = some (.ok (some 1)) := by
      simp [skinLoop, exLongFinger, bareCharacter, bareJoint, exCombined2, List.lookup]
    have h2 : skinLoop exLongFinger.skeleton exCombined2.names 2 (some 2) = some (.ok (some 1)) := by
      simp [skinLoop, exLongFinger, bareCharacter, bareJoint, exCombined2, List.lookup]
    simp [skinMap, l2, r, thenStep, skinStep, h0, h1, h2, h3]
  unfold replaceSkeletonHierarchy
  rw [if_neg (by simp [exHand, bareCharacter])]
  rw [show exLongFinger.skeleton.getJointIdByName "hand" = some 1 by decide +kernel,
    show exHand.skeleton.getJointIdByName "hand" = some 1 by decide +kernel]
  simp only [exLong_combined, thenStep, hc', hs]

/-- Two joints with the same name below each other. -/
def exTwice : Character ℚ := bareCharacter [bareJoint "h" none, bareJoint "h" (some 0)]
def exPlain : Character ℚ := bareCharacter [bareJoint "hand" none]

/-- **C23** (defect).  A source joint with the same name as its parent, the source root, becomes its own
parent in the result. -/
theorem C23_own_parent : ∃ c, replaceSkeletonHierarchy exTwice exPlain "h" "hand" = some (.ok c) ∧
    c.skeleton.joints[1]? = some (bareJoint "h" (some 1)) ∧ ¬ c.skeleton.Valid := by
  have ha : exTwice.skeleton.isAncestor 1 0 = some true := by
    simp [exTwice, bareCharacter, bareJoint, isAncestor, isAncestorLoop, parentOf]
  have hcomb : combineSkeletons exTwice.skeleton exPlain.skeleton 0 0 = .ok
      ⟨[bareJoint "hand" none, bareJoint "h" (some 1)], [("hand", 0), ("h", 1)], [none, some 1], [some 0]⟩ := by
    have l1 : exTwice.skeleton.joints.length = 2 := rfl
    have l2 : exPlain.skeleton.joints.length = 1 := rfl
    have r : List.range 1 = [0] := rfl
    have r2 : List.range' (0 + 1) (2 - (0 + 1)) = [1] := rfl
    simp only [combineSkeletons, l1, l2, r, List.foldl_cons, List.foldl_nil, Outcome.bind_ok, addTgtStep, if_true,
      addSrcLoop, r2, addSrcStep, ha, ofOption]
    simp [addJoint, exTwice, exPlain, bareCharacter, bareJoint, combinedParent, List.lookup]
  obtain ⟨c', hc'⟩ := okay_iff (o := combineRest exTwice exPlain
    ⟨[bareJoint "hand" none, bareJoint "h" (some 1)], [("hand", 0), ("h", 1)], [none, some 1], [some 0]⟩)
    (by decide +kernel)
  have hs : skinMap exPlain.skeleton [("hand", 0), ("h", 1)] = some (.ok [some 0]) := by
    have l2 : exPlain.skeleton.joints.length = 1 := rfl
    have r : List.range 1 = [0] := rfl
    simp [skinMap, l2, r, thenStep, skinStep, skinLoop, exPlain, bareCharacter, bareJoint, List.lookup]
  have i1 : exPlain.skeleton.getJointIdByName "hand" = some 0 := by decide +kernel
  have i2 : exTwice.skeleton.getJointIdByName "h" = some 0 := by decide +kernel
  have h : ∃ c, replaceSkeletonHierarchy exTwice exPlain "h" "hand" = some (.ok c) := by
    unfold replaceSkeletonHierarchy
    rw [if_neg (by simp [exTwice, bareCharacter]), i1, i2]
    simp only [hcomb, thenStep, hc', hs]
    exact ⟨_, rfl⟩
  obtain ⟨c, h⟩ := h
  obtain ⟨rt, rs, st, jm, h1, h2, h3, h4, -⟩ := replace_ok h
  rw [i1] at h1; rw [i2] at h2
  cases h1; cases h2
  rw [hcomb] at h3
  cases h3
  have e : c.skeleton.joints[1]? = some (bareJoint "h" (some 1)) := by rw [h4]; rfl
  exact ⟨c, h, e, fun hv => absurd (hv 1 _ 1 e rfl) (lt_irrefl _)⟩

end Momentum
