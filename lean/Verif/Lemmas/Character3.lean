import Verif.Lemmas.Character2
import Verif.Lemmas.SkeletonState

/-! # Lemmas for `removeJoints`: the whole function -/

namespace Momentum
open Classical ParameterTransform Skeleton

section
variable {K : Type}

theorem filterMap_if {α β : Type} (l : List α) (P : α → Prop) [DecidablePred P] (f : α → β) :
    (l.filterMap fun a => if P a then some (f a) else none) = (l.filter (P ·)).map f := by
  induction l with
  | nil => rfl
  | cons a l ih => by_cases h : P a <;> simp [h, ih]

theorem mapParents_of {α : Type} {parent : α → Nat} {withParent : α → Nat → α} {objs : List α}
    {P : Nat → Prop} {n : Nat} (h : ∀ o ∈ objs, parent o < n) :
    mapParents parent withParent objs (rankMap P n) =
      some ((objs.filter (fun o => P (parent o))).map fun o => withParent o (rankIn P (parent o))) := by
  unfold mapParents
  rw [mapM_of_forall (g := fun o => if P (parent o) then some (withParent o (rankIn P (parent o))) else none)]
  · simp only [Option.bind_eq_bind, Option.bind_some]
    rw [filterMap_id_map, filterMap_if]
  · intro o ho
    rw [rankMap_get (h o ho)]
    simp only [Option.bind_eq_bind, Option.bind_some]
    split_ifs <;> rfl

theorem mapLimit_of {P Q : Nat → Prop} {n m : Nat} {l : ParameterLimit K}
    (hj : ∀ j ∈ l.data.joints, j < n) (hp : ∀ p ∈ l.data.params, p < m) :
    mapLimit (rankMap P n) (rankMap Q m) l = some (
      if (∀ j ∈ l.data.joints, P j) ∧ (∀ p ∈ l.data.params, Q p)
      then some ⟨(l.data.renameJoints (rankIn P)).rename (rankIn Q), l.weight⟩ else none) := by
  obtain ⟨data, weight⟩ := l
  cases data with
  | minMax i lo hi =>
    simp only [LimitData.joints, LimitData.params, List.mem_singleton, forall_eq, List.not_mem_nil,
      false_implies, implies_true] at hj hp
    simp only [mapLimit, rankMap_get hp, LimitData.joints, LimitData.params, Option.bind_eq_bind,
      Option.bind_some, List.mem_singleton, forall_eq, List.not_mem_nil, false_implies, implies_true, true_and]
    by_cases h : Q i <;> simp [h, LimitData.renameJoints, LimitData.rename]
  | minMaxJoint j d lo hi =>
    simp only [LimitData.joints, LimitData.params, List.mem_singleton, forall_eq, List.not_mem_nil,
      false_implies, implies_true] at hj hp
    simp only [mapLimit, rankMap_get hj, LimitData.joints, LimitData.params, Option.bind_eq_bind,
      Option.bind_some, List.mem_singleton, forall_eq, List.not_mem_nil, false_implies, implies_true, and_true]
    by_cases h : P j <;> simp [h, LimitData.renameJoints, LimitData.rename]
  | minMaxJointPassive j d lo hi =>
    simp only [LimitData.joints, LimitData.params, List.mem_singleton, forall_eq, List.not_mem_nil,
      false_implies, implies_true] at hj hp
    simp only [mapLimit, rankMap_get hj, LimitData.joints, LimitData.params, Option.bind_eq_bind,
      Option.bind_some, List.mem_singleton, forall_eq, List.not_mem_nil, false_implies, implies_true, and_true]
    by_cases h : P j <;> simp [h, LimitData.renameJoints, LimitData.rename]
  | linear r t a b c d =>
    have h1 := hp r (by simp [LimitData.params])
    have h2 := hp t (by simp [LimitData.params])
    simp only [mapLimit, rankMap_get h1, rankMap_get h2, LimitData.joints, LimitData.params,
      Option.bind_eq_bind, Option.bind_some, List.mem_cons, List.not_mem_nil, or_false, forall_eq_or_imp,
      forall_eq, false_implies, implies_true, true_and]
    by_cases h : Q r <;> by_cases h' : Q t <;> simp [h, h', LimitData.renameJoints, LimitData.rename]
  | halfPlane r t a b c =>
    have h1 := hp r (by simp [LimitData.params])
    have h2 := hp t (by simp [LimitData.params])
    simp only [mapLimit, rankMap_get h1, rankMap_get h2, LimitData.joints, LimitData.params,
      Option.bind_eq_bind, Option.bind_some, List.mem_cons, List.not_mem_nil, or_false, forall_eq_or_imp,
      forall_eq, false_implies, implies_true, true_and]
    by_cases h : Q r <;> by_cases h' : Q t <;> simp [h, h', LimitData.renameJoints, LimitData.rename]
  | ellipsoid r t =>
    have h1 := hj r (by simp [LimitData.joints])
    have h2 := hj t (by simp [LimitData.joints])
    simp only [mapLimit, rankMap_get h1, rankMap_get h2, LimitData.joints, LimitData.params,
      Option.bind_eq_bind, Option.bind_some, List.mem_cons, List.not_mem_nil, or_false, forall_eq_or_imp,
      forall_eq, false_implies, implies_true, and_true]
    by_cases h : P r <;> by_cases h' : P t <;> simp [h, h', LimitData.renameJoints, LimitData.rename]

theorem mapParameterLimits_of {P Q : Nat → Prop} {n m : Nat} {ls : List (ParameterLimit K)}
    (hj : ∀ l ∈ ls, ∀ j ∈ l.data.joints, j < n) (hp : ∀ l ∈ ls, ∀ p ∈ l.data.params, p < m) :
    mapParameterLimits ls (rankMap P n) (rankMap Q m) = some (
      (ls.filter fun l => (∀ j ∈ l.data.joints, P j) ∧ (∀ p ∈ l.data.params, Q p)).map fun l =>
        ⟨(l.data.renameJoints (rankIn P)).rename (rankIn Q), l.weight⟩) := by
  unfold mapParameterLimits
  rw [mapM_of_forall (g := fun l => if (∀ j ∈ l.data.joints, P j) ∧ (∀ p ∈ l.data.params, Q p)
      then some ⟨(l.data.renameJoints (rankIn P)).rename (rankIn Q), l.weight⟩ else none)]
  · simp only [Option.bind_eq_bind, Option.bind_some]
    rw [filterMap_id_map, filterMap_if]
  · intro l hl
    exact mapLimit_of (hj l hl) (hp l hl)

/-- What happens to one slot of the skin weights. -/
def SlotMoved [Zero K] (s : Skeleton K) (P : Nat → Prop) (iw iw' : Nat × K) : Prop :=
  iw'.2 = iw.2 ∧ (iw.2 = 0 → iw'.1 = iw.1) ∧
    (iw.2 ≠ 0 → ∃ a, s.NearestUp P iw.1 a ∧ iw'.1 = rankIn P a)

theorem mapSkin_inv [Zero K] [DecidableEq K] {s : Skeleton K} {P : Nat → Prop} {jmUp : List (Option Nat)}
    {w r : List (List (Nat × K))}
    (hup : ∀ (j k : Nat), jmUp[j]? = some (some k) → ∃ a, s.NearestUp P j a ∧ k = rankIn P a)
    (h : mapSkinWeights w jmUp = some r) :
    List.Forall₂ (List.Forall₂ (SlotMoved s P)) w r := by
  have key : ∀ (f : Nat × K → Option (Nat × K)) (R : Nat × K → Nat × K → Prop),
      (∀ a b, f a = some b → R a b) → ∀ (l r : List (Nat × K)), l.mapM f = some r → List.Forall₂ R l r := by
    intro f R hR l
    induction l with
    | nil => intro r h; simp at h; subst h; exact .nil
    | cons a l ih =>
      intro r h
      obtain ⟨b, r', h1, h2, rfl⟩ := mapM_cons_some.mp h
      exact .cons (hR _ _ h1) (ih _ h2)
  have key2 : ∀ (f : List (Nat × K) → Option (List (Nat × K))) (R : List (Nat × K) → List (Nat × K) → Prop),
      (∀ a b, f a = some b → R a b) → ∀ (l r : List (List (Nat × K))), l.mapM f = some r →
        List.Forall₂ R l r := by
    intro f R hR l
    induction l with
    | nil => intro r h; simp at h; subst h; exact .nil
    | cons a l ih =>
      intro r h
      obtain ⟨b, r', h1, h2, rfl⟩ := mapM_cons_some.mp h
      exact .cons (hR _ _ h1) (ih _ h2)
  refine key2 _ _ ?_ _ _ h
  intro row row' hrow
  refine key _ _ ?_ _ _ hrow
  intro iw iw' hiw
  by_cases hz : iw.2 = 0
  · rw [if_pos hz] at hiw
    cases hiw
    exact ⟨rfl, fun _ => rfl, fun h => absurd hz h⟩
  · rw [if_neg hz] at hiw
    cases hm : jmUp[iw.1]? with
    | none => rw [hm] at hiw; simp at hiw
    | some m =>
      cases m with
      | none => rw [hm] at hiw; simp at hiw
      | some k =>
        rw [hm] at hiw
        simp only [Option.bind_eq_bind, Option.bind_some, Option.some.injEq] at hiw
        subst hiw
        exact ⟨rfl, fun h => absurd h hz, fun _ => hup _ _ hm⟩

theorem mapSkin_of [Zero K] [DecidableEq K] {s : Skeleton K} {P : Nat → Prop} {jmUp : List (Option Nat)}
    {w : List (List (Nat × K))} (h : ∀ row ∈ w, ∀ iw ∈ row, iw.2 ≠ 0 → ∃ k, jmUp[iw.1]? = some (some k)) :
    ∃ r, mapSkinWeights w jmUp = some r := by
  have key : ∀ {α β : Type} (f : α → Option β) (l : List α), (∀ a ∈ l, ∃ b, f a = some b) →
      ∃ r, l.mapM f = some r := by
    intro α β f l
    induction l with
    | nil => intro _; exact ⟨[], rfl⟩
    | cons a l ih =>
      intro h
      obtain ⟨b, hb⟩ := h a (by simp)
      obtain ⟨r, hr⟩ := ih (fun x hx => h x (by simp [hx]))
      exact ⟨b :: r, mapM_cons_some.mpr ⟨b, r, hb, hr, rfl⟩⟩
  apply key
  intro row hrow
  apply key
  intro iw hiw
  by_cases hz : iw.2 = 0
  · exact ⟨iw, by rw [if_pos hz]⟩
  · obtain ⟨k, hk⟩ := h row hrow iw hiw hz
    exact ⟨(k, iw.2), by rw [if_neg hz, hk]; rfl⟩

theorem mapped_iff {c : Character K} {P : Nat → Prop} {n : Nat}
    (h : ∀ e ∈ c.parameterTransform.transform.entries, e.row / 7 < n) (p : Nat) :
    Mapped (rankMap P n) c.parameterTransform.transform.entries p ↔ c.Influences P p := by
  unfold Mapped Character.Influences
  constructor
  · rintro ⟨e, he, h1, t, ht⟩
    refine ⟨e, he, h1, ?_⟩
    obtain ⟨-, h2⟩ := rankMap_some ht
    by_contra hc
    rw [if_neg hc] at h2
    simp at h2
  · rintro ⟨e, he, h1, h2⟩
    refine ⟨e, he, h1, rankIn P (e.row / 7), ?_⟩
    rw [rankMap_get (h e he), if_pos h2]

/-- The array of nearest kept ancestors. -/
theorem upMap_of {s : Skeleton K} (hv : s.Valid) (P : Nat → Prop) :
    ∃ jmUp, (List.range s.joints.length).mapM
        (fun i => mappedLoop s (rankMap P s.joints.length) (some i)) = some jmUp ∧
      (∀ (j k : Nat), jmUp[j]? = some (some k) → ∃ a, s.NearestUp P j a ∧ k = rankIn P a) ∧
      ∀ j < s.joints.length, (∃ a, s.Anc j a ∧ P a) → ∃ k, jmUp[j]? = some (some k) := by
  have hc : ∀ i ∈ List.range s.joints.length, mappedLoop s (rankMap P s.joints.length) (some i) =
      some ((mappedLoop s (rankMap P s.joints.length) (some i)).getD none) := by
    intro i hi
    obtain ⟨m, h1, -⟩ := mappedLoop_spec hv (P := P) i (List.mem_range.1 hi)
    rw [h1]; rfl
  refine ⟨_, mapM_of_forall hc, ?_, ?_⟩
  · intro j k h
    have hj : j < s.joints.length := by
      have := (List.getElem?_eq_some_iff.1 h).1
      simpa using this
    obtain ⟨m, h1, h2, -⟩ := mappedLoop_spec hv (P := P) j hj
    rw [List.getElem?_map, List.getElem?_range hj] at h
    simp only [Option.map_some, h1, Option.getD_some, Option.some.injEq] at h
    exact h2 k h
  · rintro j hj ⟨a, ha, hP⟩
    obtain ⟨m, h1, h2, h3⟩ := mappedLoop_spec hv (P := P) j hj
    cases m with
    | none => exact absurd hP (h3 rfl a ha)
    | some k =>
      refine ⟨k, ?_⟩
      rw [List.getElem?_map, List.getElem?_range hj]
      simp [h1]

/-- The parts of the result of `removeJoints`. -/
structure Removed [Zero K] (c : Character K) (rem : List Nat) (r : Character K) : Prop where
  joints : r.skeleton.joints = (keptBelow (c.skeleton.Kept rem) c.skeleton.joints.length).filterMap
    fun j => (c.skeleton.joints[j]?).map (relabel c.skeleton rem)
  names : r.parameterTransform.name =
    (keptBelow (c.Influences (c.skeleton.Kept rem)) c.parameterTransform.transform.cols).filterMap
      (c.parameterTransform.name[·]?)
  matrix : r.parameterTransform.transform =
    ⟨rankIn (c.skeleton.Kept rem) c.skeleton.joints.length * 7,
      rankIn (c.Influences (c.skeleton.Kept rem)) c.parameterTransform.transform.cols,
      c.parameterTransform.transform.entries.filterMap (mapParamEntry
        (rankMap (c.skeleton.Kept rem) c.skeleton.joints.length)
        (rankMap (c.Influences (c.skeleton.Kept rem)) c.parameterTransform.transform.cols))⟩
  offsets : r.parameterTransform.offsets =
    List.replicate (rankIn (c.skeleton.Kept rem) c.skeleton.joints.length * 7) 0
  active : r.parameterTransform.activeJointParams =
    List.replicate (rankIn (c.skeleton.Kept rem) c.skeleton.joints.length * 7) false
  sets : ∀ a b, NamedMem r.parameterTransform.parameterSets a b ↔
    ∃ p < c.parameterTransform.transform.cols, NamedMem c.parameterTransform.parameterSets a p ∧
      c.Influences (c.skeleton.Kept rem) p ∧ b = rankIn (c.Influences (c.skeleton.Kept rem)) p
  limits : r.parameterLimits = (c.parameterLimits.filter fun l =>
      (∀ j ∈ l.data.joints, c.skeleton.Kept rem j) ∧
      (∀ p ∈ l.data.params, c.Influences (c.skeleton.Kept rem) p)).map fun l =>
    ⟨(l.data.renameJoints (rankIn (c.skeleton.Kept rem))).rename
      (rankIn (c.Influences (c.skeleton.Kept rem))), l.weight⟩
  locators : r.locators = (c.locators.filter fun l => c.skeleton.Kept rem l.parent).map fun l =>
    { l with parent := rankIn (c.skeleton.Kept rem) l.parent }
  collision : r.collision.getD [] =
    ((c.collision.getD []).filter fun k => c.skeleton.Kept rem k.parent).map fun k =>
      { k with parent := rankIn (c.skeleton.Kept rem) k.parent }
  skin : ∀ w', r.skinWeights = some w' → ∃ w, c.skinWeights = some w ∧
    List.Forall₂ (List.Forall₂ (SlotMoved c.skeleton (c.skeleton.Kept rem))) w w'
  skin_kept : r.skinWeights.isSome = (c.mesh.isSome && c.skinWeights.isSome)

theorem removeJoints_core [Zero K] [DecidableEq K] {c : Character K} (hv : c.Valid) {rem : List Nat}
    (hrem : ∀ j ∈ rem, j < c.skeleton.joints.length) :
    ∃ f : Option (List (List (Nat × K))) → Character K, ∃ jmUp,
      removeJoints c rem = (mapOptSkin c.skinWeights jmUp).map f ∧
      (∀ (j k : Nat), jmUp[j]? = some (some k) →
        ∃ a, c.skeleton.NearestUp (c.skeleton.Kept rem) j a ∧ k = rankIn (c.skeleton.Kept rem) a) ∧
      (∀ j < c.skeleton.joints.length, (∃ a, c.skeleton.Anc j a ∧ c.skeleton.Kept rem a) →
        ∃ k, jmUp[j]? = some (some k)) ∧
      ∀ skin, (skin.isSome = c.skinWeights.isSome) →
        (∀ w', skin = some w' → ∃ w, c.skinWeights = some w ∧
          List.Forall₂ (List.Forall₂ (SlotMoved c.skeleton (c.skeleton.Kept rem))) w w') →
        Removed c rem (f skin) := by
  obtain ⟨flags, hflags⟩ := markRemoved_of hrem
  obtain ⟨-, -, hf⟩ := markRemoved_some hflags
  have hfold := removeFold hv.skel hf
  set P := c.skeleton.Kept rem with hP
  set n := c.skeleton.joints.length with hn
  have hlen : ((keptBelow P n).filterMap fun j => (c.skeleton.joints[j]?).map (relabel c.skeleton rem)).length
      = rankIn P n := by
    rw [filterMap_lookup_length]
    · rfl
    · intro k hk; exact (mem_keptBelow.1 hk).1
  have hrow : ∀ e ∈ c.parameterTransform.transform.entries, e.row / 7 < n := by
    intro e he
    have := (hv.pt.wf e he).1
    rw [hv.rows] at this
    omega
  have hmap : Mapped (rankMap P n) c.parameterTransform.transform.entries = c.Influences P := by
    funext p; exact propext (mapped_iff hrow p)
  obtain ⟨pt, sets, hpt, hpt2, hsets⟩ := addMappedParameters_of (orig := c.parameterTransform)
    (res := ParameterTransform.emptyWith (K := K) (rankIn P n * 7)) (jm := rankMap P n)
    (by rw [rankMap_length, hv.rows]) hv.pt.wf hv.pt.names
    (by simpa [ParameterTransform.emptyWith] using hv.pt.bound)
    (by simp [ParameterTransform.emptyWith])
    (by
      intro j t h
      obtain ⟨hj, ht⟩ := rankMap_some h
      by_cases hPj : P j
      · rw [if_pos hPj] at ht
        have := rankIn_lt hj hPj
        simp only [Option.some.injEq] at ht
        simp only [ParameterTransform.emptyWith]
        omega
      · rw [if_neg hPj] at ht; simp at ht)
    (by simp [ParameterTransform.emptyWith])
  rw [hmap] at hpt hpt2 hsets
  have e0 : (ParameterTransform.emptyWith (K := K) (rankIn P n * 7)).name.length = 0 := rfl
  rw [e0, shiftedMap_zero] at hpt
  rw [e0, shiftedMap_zero] at hpt2
  obtain ⟨jmUp, hup1, hup2, hup3⟩ := upMap_of hv.skel P
  have hloc := mapParents_of (parent := fun l : Locator K => l.parent)
    (withParent := fun l p => { l with parent := p }) (P := P) (n := n) (objs := c.locators) hv.locs
  have hcap : mapOptCapsules c.collision (rankMap P n) =
      some (((c.collision.getD []).filter fun k => P k.parent).map fun k =>
        { k with parent := rankIn P k.parent }) := by
    cases hcol : c.collision with
    | none => rfl
    | some g =>
      exact mapParents_of (parent := fun l : TaperedCapsule K => l.parent)
        (withParent := fun l p => { l with parent := p }) (P := P) (n := n) (objs := g) (hv.caps g hcol)
  have hlim := mapParameterLimits_of (P := P) (Q := c.Influences P) (n := n)
    (m := c.parameterTransform.transform.cols) (ls := c.parameterLimits) hv.lims hv.pt.lims
  refine ⟨fun skin =>
    { skeleton := ⟨(keptBelow P n).filterMap fun j => (c.skeleton.joints[j]?).map (relabel c.skeleton rem)⟩
      parameterTransform := pt
      parameterLimits := (c.parameterLimits.filter fun l => (∀ j ∈ l.data.joints, P j) ∧
        (∀ p ∈ l.data.params, c.Influences P p)).map fun l =>
          ⟨(l.data.renameJoints (rankIn P)).rename (rankIn (c.Influences P)), l.weight⟩
      locators := (c.locators.filter fun l => P l.parent).map fun l => { l with parent := rankIn P l.parent }
      mesh := if c.mesh.isSome && skin.isSome then c.mesh else none
      skinWeights := if c.mesh.isSome && skin.isSome then skin else none
      collision := if (((c.collision.getD []).filter fun k => P k.parent).map fun k =>
          ({ k with parent := rankIn P k.parent } : TaperedCapsule K)).isEmpty then none
        else some (((c.collision.getD []).filter fun k => P k.parent).map fun k =>
          { k with parent := rankIn P k.parent })
      inverseBindPose := [] }, jmUp, ?_, hup2, hup3, ?_⟩
  · unfold removeJoints
    simp only [Option.bind_eq_bind]
    rw [hflags]
    simp only [Option.bind_some]
    rw [hfold]
    simp only [Option.bind_some]
    rw [hlen, hpt]
    simp only [Option.bind_some]
    rw [hup1]
    simp only [Option.bind_some]
    unfold mapLocatorParents
    rw [hloc, hcap, hlim]
    simp only [Option.bind_some]
    rw [Option.map_eq_bind]
    rfl
  · intro skin hs1 hs2
    refine ⟨rfl, ?_, ?_, ?_, ?_, ?_, rfl, rfl, ?_, ?_, ?_⟩
    · simp only [hpt2]; rfl
    · simp only [hpt2]; simp [ParameterTransform.emptyWith]; exact ⟨rfl, rfl, rfl⟩
    · simp only [hpt2]; rfl
    · simp only [hpt2]; rfl
    · intro a b
      simp only [hpt2]
      rw [hsets]
      have : ¬ NamedMem (ParameterTransform.emptyWith (K := K) (rankIn P n * 7)).parameterSets a b := by
        simp [NamedMem, ParameterTransform.emptyWith]
      simp only [this, false_or, e0, Nat.zero_add]
      exact Iff.rfl
    · simp only
      split_ifs with he
      · rw [List.isEmpty_iff] at he
        exact he.symm
      · rfl
    · intro w' hw'
      simp only at hw'
      split_ifs at hw' with hc
      exact hs2 w' hw'
    · simp only
      split_ifs with hc
      · rw [hs1] at hc
        rw [hs1]
        simp only [Bool.and_eq_true] at hc
        simp [hc]
      · rw [hs1] at hc
        simpa using hc

end
end Momentum
