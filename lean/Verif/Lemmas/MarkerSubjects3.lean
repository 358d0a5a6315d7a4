import Verif.Lemmas.MarkerSubjects2
import Mathlib.Data.List.Sort

/-! Helper lemmas for C90: the whole loader. -/

namespace Momentum.MarkerSubjects

open TrcText (TrcMarker UpVector toMomentum toUnit)

theorem not_mem_takeWhile_ne (c : Char) (l : List Char) : c ∉ l.takeWhile (· ≠ c) := by
  intro h
  have := List.mem_takeWhile_imp h
  simp at this

theorem takeWhile_ne_append (c : Char) (a b : List Char) (h : c ∉ a) : (a ++ c :: b).takeWhile (· ≠ c) = a := by
  rw [List.takeWhile_append_of_pos (fun x hx => by
    have : x ≠ c := fun e => h (e ▸ hx)
    simpa using this)]
  simp

theorem dropWhile_ne_append (c : Char) (a b : List Char) (h : c ∉ a) : (a ++ c :: b).dropWhile (· ≠ c) = c :: b := by
  rw [List.dropWhile_append_of_pos (fun x hx => by
    have : x ≠ c := fun e => h (e ▸ hx)
    simpa using this)]
  simp

theorem exists_first (c : Char) (l : List Char) (h : c ∈ l) : ∃ a b, l = a ++ c :: b ∧ c ∉ a := by
  obtain ⟨a, b, rfl, ha⟩ := List.append_of_mem h |>.elim fun s hs => hs.elim fun t ht => by
    exact List.eq_append_cons_of_mem (ht ▸ by simp : c ∈ l)
  exact ⟨a, b, rfl, ha⟩

theorem exists_last (c : Char) (l : List Char) (h : c ∈ l) : ∃ a b, l = a ++ c :: b ∧ c ∉ b := by
  obtain ⟨a, b, h1, h2⟩ := exists_first c l.reverse (by simpa using h)
  refine ⟨b.reverse, a.reverse, ?_, by simpa using h2⟩
  have := congrArg List.reverse h1
  simpa using this

theorem findSubjectName_underscore (a b : List Char) (ha : ':' ∉ a) (hb : ':' ∉ b) (hb' : '_' ∉ b) :
    findSubjectName (a ++ '_' :: b) = if a.map Char.toLower ∈ ["l".toList, "r".toList, "left".toList, "right".toList] then [] else a := by
  unfold findSubjectName
  have h1 : ':' ∉ a ++ '_' :: b := by simp [ha, hb]
  have h2 : '_' ∈ a ++ '_' :: b := by simp
  rw [if_neg h1, if_pos h2]
  have h3 : (a ++ '_' :: b).reverse = b.reverse ++ '_' :: a.reverse := by simp
  dsimp only
  rw [h3, dropWhile_ne_append '_' b.reverse a.reverse (by simpa using hb'), List.tail_cons, List.reverse_reverse]

theorem findSubjectName_of (l s : List Char) (h : SubjectOf l s) : findSubjectName l = s := by
  cases h with
  | colon a b ha =>
    unfold findSubjectName
    rw [if_pos (by simp), takeWhile_ne_append ':' s b ha]
  | underscore a b ha hb hb' hs =>
    rw [findSubjectName_underscore _ _ ha hb hb']
    exact if_neg hs
  | side a b ha hb hb' hs =>
    rw [findSubjectName_underscore _ _ ha hb hb']
    exact if_pos hs
  | plain _ h1 h2 =>
    unfold findSubjectName
    rw [if_neg h1, if_neg h2]

theorem subjectOf_find (l : List Char) : SubjectOf l (findSubjectName l) := by
  by_cases h1 : ':' ∈ l
  · obtain ⟨a, b, rfl, ha⟩ := exists_first ':' l h1
    have h := SubjectOf.colon a b ha
    rwa [findSubjectName_of _ _ h]
  · by_cases h2 : '_' ∈ l
    · obtain ⟨a, b, rfl, hb⟩ := exists_last '_' l h2
      have h3 : ':' ∉ a ∧ ':' ∉ b := by simpa using h1
      by_cases hs : IsSide a
      · have h := SubjectOf.side a b h3.1 h3.2 hb hs
        rwa [findSubjectName_of _ _ h]
      · have h := SubjectOf.underscore a b h3.1 h3.2 hb hs
        rwa [findSubjectName_of _ _ h]
    · have h := SubjectOf.plain l h1 h2
      rwa [findSubjectName_of _ _ h]

theorem subjectOf_iff (l s : List Char) : SubjectOf l s ↔ findSubjectName l = s :=
  ⟨findSubjectName_of l s, fun h => h ▸ subjectOf_find l⟩

theorem markerName_of (s l n : List Char) (h : MarkerOf s l n) : markerName s l = n := by
  unfold markerName
  rcases h with ⟨h1, rfl⟩ | ⟨h1, c, rfl⟩
  · rw [if_neg (by simpa using h1)]
  · rw [if_pos h1, List.drop_append]
    simp

theorem markerOf_name (s l : List Char) (h : SubjectOf l s) : MarkerOf s l (markerName s l) := by
  by_cases hs : s = []
  · left
    refine ⟨hs, ?_⟩
    unfold markerName
    rw [if_neg (by simpa using hs)]
  · right
    refine ⟨hs, ?_⟩
    have key : ∀ a c b, a ≠ [] → a ++ c :: b = a ++ c :: markerName a (a ++ c :: b) := by
      intro a c b ha
      rw [markerName_of a _ b (Or.inr ⟨ha, c, rfl⟩)]
    cases h with
    | colon a b ha => exact ⟨':', key _ _ _ hs⟩
    | underscore a b ha hb hb' hss => exact ⟨'_', key _ _ _ hs⟩
    | side => exact absurd rfl hs
    | plain => exact absurd rfl hs

theorem labelled_iff (labels : List (List Char)) (p : Nat) (s n : List Char) :
    Labelled labels p s n ↔ p < labels.length ∧ findSubjectName (labels.getD p []) = s ∧ markerName s (labels.getD p []) = n ∧ isDangling n = false := by
  unfold Labelled
  constructor
  · rintro ⟨l, h1, h2, h3, h4⟩
    have hl : labels.getD p [] = l := by rw [List.getD_eq_getElem?_getD, h1]; rfl
    rw [hl]
    refine ⟨(List.getElem?_eq_some_iff.mp h1).1, findSubjectName_of _ _ h2, markerName_of _ _ _ h3, ?_⟩
    rw [← isDangling_iff] at h4
    simpa using h4
  · rintro ⟨h1, h2, h3, h4⟩
    have hl : labels[p]? = some (labels.getD p []) := by
      rw [List.getD_eq_getElem?_getD, List.getElem?_eq_getElem h1]; rfl
    refine ⟨_, hl, (subjectOf_iff _ _).mpr h2, ?_, ?_⟩
    · rw [← h3]
      exact markerOf_name _ _ ((subjectOf_iff _ _).mpr h2)
    · rw [← isDangling_iff]
      simp [h4]

theorem mem_kept (labels : List (List Char)) (s : List Char) (p : Nat) :
    p ∈ kept labels (s, pointsWith labels s) ↔ ∃ name, Labelled labels p s name := by
  unfold kept pointsWith
  rw [List.mem_filter, List.mem_filter, List.mem_range]
  simp only [labelled_iff, decide_eq_true_eq, Bool.not_eq_true']
  constructor
  · rintro ⟨⟨h1, h2⟩, h3⟩
    exact ⟨_, h1, h2, rfl, h3⟩
  · rintro ⟨n, h1, h2, rfl, h3⟩
    exact ⟨⟨h1, h2⟩, h3⟩

theorem pointsWith_sorted (labels : List (List Char)) (s : List Char) : (pointsWith labels s).Pairwise (· < ·) :=
  List.Pairwise.filter _ List.pairwise_lt_range

theorem kept_sorted (labels : List (List Char)) (s : List Char) : (kept labels (s, pointsWith labels s)).Pairwise (· < ·) :=
  List.Pairwise.filter _ (pointsWith_sorted labels s)

theorem pointsOf_unique (labels : List (List Char)) (s : List Char) (ps : List Nat) (h : PointsOf labels s ps) :
    ps = kept labels (s, pointsWith labels s) :=
  h.1.eq_of_mem_iff (kept_sorted labels s) fun p => (h.2 p).trans (mem_kept labels s p).symm

theorem pointsOf_exists (labels : List (List Char)) (s : List Char) : ∃ ps, PointsOf labels s ps :=
  ⟨_, kept_sorted labels s, fun p => mem_kept labels s p⟩

section
variable {K : Type} [Field K] [LinearOrder K]

theorem pointPosition_iff (up : UpVector) (unit : List Char) (pt : C3dPoint K) (w : Vec3 K) :
    pointPosition up unit pt = some w ↔ ∃ v, IsSeen pt v ∧ w = toMomentum v up (toUnit unit) := by
  obtain ⟨x, y, z, r⟩ := pt
  unfold pointPosition IsSeen
  constructor
  · intro h
    rcases x with _ | x
    · simp at h
    rcases y with _ | y
    · simp at h
    rcases z with _ | z
    · simp at h
    rcases r with _ | r
    · simp at h
    dsimp only at h
    by_cases h0 : x = 0 ∧ y = 0 ∧ z = 0
    · rw [if_pos h0] at h
      simp at h
    · rw [if_neg h0] at h
      by_cases hr : r ≥ 0
      · rw [if_pos hr, Option.some.injEq] at h
        exact ⟨⟨x, y, z⟩, ⟨x, y, z, r, rfl, rfl, h0, hr⟩, h.symm⟩
      · rw [if_neg hr] at h
        simp at h
  · rintro ⟨v, ⟨x', y', z', r', he, rfl, h0, hr⟩, rfl⟩
    obtain ⟨rfl, rfl, rfl, rfl⟩ := C3dPoint.mk.injEq .. ▸ he
    dsimp only
    rw [if_neg h0, if_pos hr]

theorem shows_of (up : UpVector) (unit : List Char) (pt : C3dPoint K) (m : TrcMarker K) :
    Shows up unit m.pos pt (showMarker (pointPosition up unit pt) { m with occluded := true }) := by
  unfold Shows showMarker
  cases h : pointPosition up unit pt with
  | none =>
    right
    refine ⟨?_, rfl, rfl⟩
    rintro ⟨v, hv⟩
    have := (pointPosition_iff up unit pt _).mpr ⟨v, hv, rfl⟩
    rw [h] at this
    simp at this
  | some w =>
    obtain ⟨v, hv, rfl⟩ := (pointPosition_iff up unit pt w).mp h
    exact Or.inl ⟨v, hv, rfl, rfl⟩

theorem showMarker_name (o : Option (Vec3 K)) (m : TrcMarker K) : (showMarker o { m with occluded := true }).name = m.name := by
  unfold showMarker
  cases o <;> rfl

theorem allLabels_of (file : C3dFile K) (labels : List (List Char)) (h : LabelsOf file labels) : allLabels file = some labels := by
  obtain ⟨secs, h1, rfl, h3⟩ := h
  unfold allLabels
  have key : ∀ n, n + 1 ≤ secs.length → (List.range n).foldl (fun acc k => acc.bind fun l => (file.labels (k + 2)).map fun more => l ++ more) (file.labels 1) =
      some (secs.take (n + 1)).flatten := by
    intro n
    induction n with
    | zero =>
      intro hn
      have h0 := h3 0 secs[0] (List.getElem?_eq_getElem (by omega))
      rw [List.range_zero, List.foldl_nil]
      simp only [zero_add] at h0 ⊢
      rw [h0]
      cases secs with
      | nil => simp at hn
      | cons s secs => simp
    | succ n ih =>
      intro hn
      have h0 := h3 (n + 1) secs[n + 1] (List.getElem?_eq_getElem (by omega))
      rw [List.range_succ, List.foldl_append, ih (by omega), List.foldl_cons, List.foldl_nil, Option.bind_some, h0, Option.map_some,
        List.take_succ_eq_append_getElem (i := n + 1) (by omega), List.flatten_append]
      simp
  rw [key _ (by omega), ← h1, List.take_length]

theorem allLabels_missing (file : C3dFile K) (i : Nat) (hi : i ≤ file.numPoints / 255) (h : file.labels (i + 1) = none) : allLabels file = none := by
  unfold allLabels
  have key : ∀ n, i ≤ n → (List.range n).foldl (fun acc k => acc.bind fun l => (file.labels (k + 2)).map fun more => l ++ more) (file.labels 1) = none := by
    intro n hn
    induction n with
    | zero =>
      have : i = 0 := by omega
      subst this
      simpa using h
    | succ n ih =>
      rw [List.range_succ, List.foldl_append, List.foldl_cons, List.foldl_nil]
      by_cases hin : i ≤ n
      · rw [ih hin]; rfl
      · have : i = n + 1 := by omega
        subst this
        rw [h]
        cases (List.range n).foldl (fun acc k => acc.bind fun l => (file.labels (k + 2)).map fun more => l ++ more) (file.labels 1) <;> rfl
  exact key _ hi

/-- The loader after the checks. -/
theorem loadSubjects_spec (order : List (List Char × List Nat) → List (List Char × List Nat)) (perm : ∀ l, List.Perm (order l) l) (up : UpVector)
    (unit : List Char) (file : C3dFile K) (labels : List (List Char)) (hl : labels.length = file.numPoints) (complete : Complete file) :
    ∃ res, loadSubjects order up unit file labels = .ok res ∧
      ((¬ SomeSeen file labels ∧ res = []) ∨ (SomeSeen file labels ∧ (res.map SubjectSequence.name).Nodup ∧
        (∀ s, s ∈ res.map SubjectSequence.name ↔ ∃ l ∈ labels, SubjectOf l s) ∧ ∀ s ∈ res, Motion file labels up unit s)) := by
  obtain ⟨m1, m2, m3⟩ := subjectMap_spec labels
  set groups := order (subjectMap labels) with hg
  have hperm : groups.Perm (subjectMap labels) := perm _
  have gnodup : (groups.map Prod.fst).Nodup := (hperm.map Prod.fst).nodup_iff.mpr m1
  have gpts : ∀ g ∈ groups, g.2 = pointsWith labels g.1 := fun g h => m2 g (hperm.mem_iff.mp h)
  have gname : ∀ s, s ∈ groups.map Prod.fst ↔ ∃ l ∈ labels, findSubjectName l = s := fun s => by
    rw [(hperm.map Prod.fst).mem_iff]; exact m3 s
  have gk : ∀ g ∈ groups, kept labels g = kept labels (g.1, pointsWith labels g.1) := fun g h => by
    rw [← gpts g h]
  have gdisj : groups.Pairwise (fun g h => ∀ p ∈ g.2, p ∉ h.2) := by
    have hp : groups.Pairwise (fun g h => g.1 ≠ h.1) := by
      have := gnodup
      rw [List.Nodup, List.pairwise_map] at this
      exact this
    refine hp.imp_of_mem ?_
    intro g h hgm hhm hne p hpg hph
    rw [gpts g hgm] at hpg
    rw [gpts h hhm] at hph
    unfold pointsWith at hpg hph
    have e1 := (List.mem_filter.mp hpg).2
    have e2 := (List.mem_filter.mp hph).2
    simp only [decide_eq_true_eq] at e1 e2
    exact hne (e1.symm.trans e2)
  obtain ⟨p1, p2, p3, p4⟩ := placeSubject_fold (K := K) labels groups (List.replicate file.numPoints none) []
    (fun g h => by rw [gpts g h]; exact (pointsWith_sorted labels g.1).imp (fun h => ne_of_lt h)) gdisj
  set placed := groups.foldl (placeSubject (K := K) labels) (List.replicate file.numPoints none, []) with hplaced
  have klt : ∀ g ∈ groups, ∀ p ∈ kept labels g, p < file.numPoints := by
    intro g hgm p hp
    have : p ∈ g.2 := List.mem_of_mem_filter hp
    rw [gpts g hgm] at this
    have := List.mem_range.mp (List.mem_of_mem_filter this)
    omega
  have mapped : ∀ (p a k : Nat), placed.1[p]? = some (some (a, k)) ↔ ∃ g, groups[a]? = some g ∧ (kept labels g)[k]? = some p := by
    intro p a k
    constructor
    · intro h
      by_cases hk : ∀ g ∈ groups, p ∉ kept labels g
      · rw [p4 p hk, List.getElem?_replicate] at h
        split at h <;> simp at h
      · push Not at hk
        obtain ⟨g, hgm, hpk⟩ := hk
        obtain ⟨a', ha'⟩ := List.getElem?_of_mem hgm
        obtain ⟨k', hk'⟩ := List.getElem?_of_mem hpk
        have := p3 a' k' p g ha' hk' (by rw [List.length_replicate]; exact klt g hgm p hpk)
        rw [h] at this
        simp only [Option.some.injEq, Prod.mk.injEq, List.length_nil, zero_add] at this
        obtain ⟨rfl, rfl⟩ := this
        exact ⟨g, ha', hk'⟩
    · rintro ⟨g, ha, hk⟩
      have := p3 a k p g ha hk (by rw [List.length_replicate]; exact klt g (List.mem_of_getElem? ha) p (List.mem_of_getElem? hk))
      simpa using this
  have inj : ∀ (p q : Nat) (a : Nat × Nat), placed.1[p]? = some (some a) → placed.1[q]? = some (some a) → p = q := by
    rintro p q ⟨a, k⟩ hp hq
    obtain ⟨g, h1, h2⟩ := (mapped p a k).mp hp
    obtain ⟨g', h3, h4⟩ := (mapped q a k).mp hq
    rw [h1, Option.some.injEq] at h3
    subst h3
    rw [h2, Option.some.injEq] at h4
    exact h4
  have hlen : placed.1.length = file.numPoints := by rw [p2, List.length_replicate]
  have labelledOf : ∀ g ∈ groups, ∀ p, p ∈ kept labels g ↔ ∃ name, Labelled labels p g.1 name := by
    intro g hgm p
    rw [gk g hgm]
    exact mem_kept labels g.1 p
  obtain ⟨new, b', f1, f2, f3, f4⟩ := frameLoop_spec up unit placed.1 inj file.numPoints hlen file.numFrames file.frames placed.2 false []
    complete.1 complete.2
  have seen : b' = true ↔ SomeSeen file labels := by
    rw [f3]
    constructor
    · rintro (h | ⟨f, points, p, hf, hp, ⟨a, k⟩, pt, ha, hpt, hs⟩)
      · simp at h
      · obtain ⟨g, hga, hgk⟩ := (mapped p a k).mp ha
        obtain ⟨name, hn⟩ := (labelledOf g (List.mem_of_getElem? hga) p).mp (List.mem_of_getElem? hgk)
        obtain ⟨w, hw⟩ := Option.isSome_iff_exists.mp hs
        obtain ⟨v, hv, -⟩ := (pointPosition_iff up unit pt w).mp hw
        exact ⟨f, points, p, pt, g.1, name, v, hf, hp, hpt, hn, hv⟩
    · rintro ⟨f, points, p, pt, s, name, v, hf, hp, hpt, hn, hv⟩
      right
      have hin : s ∈ groups.map Prod.fst := by
        obtain ⟨l, h1, h2, -⟩ := hn
        exact (gname s).mpr ⟨l, List.mem_of_getElem? h1, findSubjectName_of _ _ h2⟩
      obtain ⟨g, hgm, rfl⟩ := List.mem_map.mp hin
      obtain ⟨a, ha⟩ := List.getElem?_of_mem hgm
      obtain ⟨k, hk⟩ := List.getElem?_of_mem ((labelledOf g hgm p).mpr ⟨name, hn⟩)
      refine ⟨f, points, p, hf, hp, (a, k), pt, (mapped p a k).mpr ⟨g, ha, hk⟩, hpt, ?_⟩
      rw [(pointPosition_iff up unit pt _).mpr ⟨v, hv, rfl⟩]
      rfl
  unfold loadSubjects
  dsimp only
  rw [← hg, ← hplaced]
  have hpl : (placed.2, false) = (placed.2, false) := rfl
  rw [f1]
  simp only [Outcome.bind, List.nil_append]
  cases hb : b' with
  | false =>
    refine ⟨[], by simp, Or.inl ⟨?_, rfl⟩⟩
    rw [← seen, hb]
    simp
  | true =>
    refine ⟨_, if_pos rfl, Or.inr ⟨seen.mp hb, ?_, ?_, ?_⟩⟩
    · rw [List.map_map]
      have : (SubjectSequence.name ∘ fun g : (List Char × List Nat) × Nat => (⟨g.1.1, new.map fun ts => ts.getD g.2 [], file.frameRate⟩ : SubjectSequence K)) =
          Prod.fst ∘ Prod.fst := rfl
      rw [this, ← List.map_map, List.zipIdx_map_fst]
      exact gnodup
    · intro s
      rw [List.map_map]
      have : (SubjectSequence.name ∘ fun g : (List Char × List Nat) × Nat => (⟨g.1.1, new.map fun ts => ts.getD g.2 [], file.frameRate⟩ : SubjectSequence K)) =
          Prod.fst ∘ Prod.fst := rfl
      rw [this, ← List.map_map, List.zipIdx_map_fst, gname]
      simp only [subjectOf_iff]
    · intro s hs
      obtain ⟨⟨g, a⟩, hga, rfl⟩ := List.mem_map.mp hs
      rw [List.mem_zipIdx_iff_getElem?] at hga
      have hgm : g ∈ groups := List.mem_of_getElem? hga
      have tmpl : placed.2[a]? = some (templates labels g) := by
        rw [p1, List.nil_append, List.getElem?_map, hga]; rfl
      -- all frames have the same shape and names
      have shape : ∀ (f : Nat) (ts : List (List (TrcMarker K))), f ≤ file.numFrames → (placed.2 :: new)[f]? = some ts →
          ∃ fr, ts[a]? = some fr ∧ fr.length = (kept labels g).length ∧
            ∀ (k : Nat) (p : Nat), (kept labels g)[k]? = some p → ∃ m, fr[k]? = some m ∧ m.name = markerName g.1 (labels.getD p []) := by
        intro f
        induction f with
        | zero =>
          intro ts _ h
          simp only [List.getElem?_cons_zero, Option.some.injEq] at h
          subst h
          refine ⟨_, tmpl, by simp [templates], ?_⟩
          intro k p hk
          refine ⟨_, by unfold templates; rw [List.getElem?_map, hk]; rfl, rfl⟩
        | succ f ih =>
          intro ts hf h
          rw [List.getElem?_cons_succ] at h
          obtain ⟨prev, hprev⟩ : ∃ prev, (placed.2 :: new)[f]? = some prev :=
            ⟨_, List.getElem?_eq_getElem (by simp only [List.length_cons]; omega)⟩
          obtain ⟨fr, e1, e2, e3⟩ := ih prev (by omega) hprev
          have hff : f < file.frames.length := by have := complete.1; omega
          obtain ⟨s1, s2⟩ := f4 f file.frames[f] prev ts (List.getElem?_eq_getElem hff) hprev h
          have hsl : (ts[a]?).map List.length = some fr.length := by
            rw [← List.getElem?_map, s1, List.getElem?_map, e1]; rfl
          obtain ⟨fr', hfr', hfl⟩ := Option.map_eq_some_iff.mp hsl
          refine ⟨fr', hfr', hfl.trans e2, ?_⟩
          intro k p hk
          obtain ⟨m, hm, hmn⟩ := e3 k p hk
          have hpn := klt g hgm p (List.mem_of_getElem? hk)
          have hpl : p < file.frames[f].length := lt_of_lt_of_le hpn (complete.2 _ (List.getElem_mem hff))
          have := s2 p a k _ ((mapped p a k).mpr ⟨g, hga, hk⟩) (List.getElem?_eq_getElem hpl)
          unfold markerAt at this
          rw [hfr', e1, Option.bind_some, Option.bind_some, hm, Option.map_some] at this
          exact ⟨_, this, (showMarker_name _ m).trans hmn⟩
      refine ⟨rfl, by simp [f2], ?_⟩
      intro ps hps f fr points hfr hpoints
      have hps' : ps = kept labels g := (pointsOf_unique labels g.1 ps hps).trans (gk g hgm).symm
      subst hps'
      dsimp only at hfr
      rw [List.getElem?_map] at hfr
      obtain ⟨ts, hts, rfl⟩ := Option.map_eq_some_iff.mp hfr
      have hfn : f < file.numFrames := by
        have := (List.getElem?_eq_some_iff.mp hts).1
        omega
      obtain ⟨fr, g1, g2, g3⟩ := shape (f + 1) ts (by omega) (by rw [List.getElem?_cons_succ]; exact hts)
      have hgd : ts.getD a [] = fr := by rw [List.getD_eq_getElem?_getD, g1]; rfl
      rw [hgd]
      refine ⟨g2, ?_⟩
      intro k p pt hk hpt
      obtain ⟨m, hm, hmn⟩ := g3 k p hk
      obtain ⟨prev, hprev⟩ : ∃ prev, (placed.2 :: new)[f]? = some prev :=
        ⟨_, List.getElem?_eq_getElem (by simp only [List.length_cons]; omega)⟩
      obtain ⟨s1, s2⟩ := f4 f points prev ts hpoints hprev hts
      have hstep := s2 p a k pt ((mapped p a k).mpr ⟨g, hga, hk⟩) hpt
      obtain ⟨frp, q1, q2, q3⟩ := shape f prev (by omega) hprev
      obtain ⟨mp, hmp, -⟩ := q3 k p hk
      unfold markerAt at hstep
      rw [g1, q1, Option.bind_some, Option.bind_some, hm, hmp, Option.map_some, Option.some.injEq] at hstep
      refine ⟨m, hm, ?_, ?_, ?_⟩
      · obtain ⟨n, hn⟩ := (labelledOf g hgm p).mp (List.mem_of_getElem? hk)
        have : n = m.name := by
          rw [hmn, ((labelled_iff labels p g.1 n).mp hn).2.2.1]
        rw [← this]
        exact hn
      · rintro rfl
        simp only [List.getElem?_cons_zero, Option.some.injEq] at hprev
        subst hprev
        rw [tmpl, Option.some.injEq] at q1
        subst q1
        unfold templates at hmp
        rw [List.getElem?_map, hk, Option.map_some, Option.some.injEq] at hmp
        subst hmp
        rw [hstep]
        exact shows_of up unit pt _
      · rintro j fr' m' rfl hfr' hm'
        dsimp only at hfr'
        rw [List.getElem?_map] at hfr'
        obtain ⟨ts', hts', rfl⟩ := Option.map_eq_some_iff.mp hfr'
        rw [List.getElem?_cons_succ, hts', Option.some.injEq] at hprev
        subst hprev
        rw [List.getD_eq_getElem?_getD, q1, Option.getD_some, hmp, Option.some.injEq] at hm'
        subst hm'
        rw [hstep]
        exact shows_of up unit pt _

end

end Momentum.MarkerSubjects
