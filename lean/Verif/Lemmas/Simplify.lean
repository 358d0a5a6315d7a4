import Verif.Spec.Simplify
import Verif.Lemmas.Skinning
import Verif.Lemmas.ReplaceHierarchy

/-! # Lemmas for skeleton simplification -/

namespace Momentum
open Skeleton

section
variable {K : Type} {s : Skeleton K} {en : List Bool}

theorem nearest_self {j : Nat} (h : EnabledAt en j) : s.Nearest en j j :=
  ⟨.refl, h, fun _ hb _ => hb⟩

theorem nearest_parent {j p x : Nat} (hp : s.ParentRel j p) (h : ¬ EnabledAt en j) :
    s.Nearest en j x ↔ s.Nearest en p x := by
  constructor
  · rintro ⟨h1, h2, h3⟩
    refine ⟨?_, h2, fun b hb he => h3 b ((anc_iff_parent hp).2 (Or.inr hb)) he⟩
    rcases (anc_iff_parent hp).1 h1 with rfl | h1
    · exact absurd h2 h
    · exact h1
  · rintro ⟨h1, h2, h3⟩
    refine ⟨(anc_iff_parent hp).2 (Or.inr h1), h2, fun b hb he => ?_⟩
    rcases (anc_iff_parent hp).1 hb with rfl | hb
    · exact absurd he h
    · exact h3 b hb he

theorem nearest_unique (hv : s.Valid) {j x y : Nat} (h1 : s.Nearest en j x) (h2 : s.Nearest en j y) : x = y := by
  have a := anc_le hv (h1.2.2 y h2.1 h2.2.1)
  have b := anc_le hv (h2.2.2 x h1.1 h1.2.1)
  omega

theorem nearest_root {j x : Nat} {jt : Joint K} (hj : s.joints[j]? = some jt) (hr : jt.parent = none)
    (h : s.Nearest en j x) : x = j ∧ EnabledAt en j := by
  have hlt := (List.getElem?_eq_some_iff.1 hj)
  have := (anc_iff_root (a := x) hlt.1 (by rw [hlt.2]; exact hr)).1 h.1
  subst this
  exact ⟨rfl, h.2.1⟩

theorem nearest_len (hv : s.Valid) {j x : Nat} (h : s.Nearest en j x) (hj : j < s.joints.length) :
    x < s.joints.length := lt_of_le_of_lt (anc_le hv h.1) hj

theorem newIndex_succ (a : Nat) (b : Bool) (h : en[a]? = some b) :
    newIndex en (a + 1) = newIndex en a + if b then 1 else 0 := by
  unfold newIndex
  rw [List.take_add_one, h]
  cases b <;> simp [List.count_append]

theorem newIndex_mono {a b : Nat} (h : a ≤ b) : newIndex en a ≤ newIndex en b := by
  unfold newIndex
  exact List.Sublist.count_le _ ((List.take_sublist_take_left h))

theorem newIndex_lt {a b : Nat} (h : a < b) (ha : EnabledAt en a) : newIndex en a < newIndex en b := by
  have h1 := newIndex_succ a true ha
  have h2 := newIndex_mono (en := en) (show a + 1 ≤ b from h)
  simp at h1
  omega

theorem newIndex_inj {a b : Nat} (ha : EnabledAt en a) (hb : EnabledAt en b)
    (h : newIndex en a = newIndex en b) : a = b := by
  rcases Nat.lt_trichotomy a b with h1 | h1 | h1
  · have := newIndex_lt h1 ha; omega
  · exact h1
  · have := newIndex_lt h1 hb; omega

/-- Table of the new indices of the enabled joints below `i`. -/
def IndexTable (en : List Bool) (i n : Nat) (l : List (Option Nat)) : Prop :=
  l.length = n ∧ ∀ j < n, (j < i → EnabledAt en j → l[j]? = some (some (newIndex en j))) ∧
    (¬ (j < i ∧ EnabledAt en j) → l[j]? = some none)

theorem parentSearch_spec (hv : s.Valid) {i : Nat} {last : List (Option Nat)}
    (hl : IndexTable en i s.joints.length last) : ∀ (a p x : Nat), s.ParentRel a p → a ≤ i →
      s.Nearest en p x → parentSearch s last a = some (.ok (newIndex en x, x)) := by
  intro a
  induction a using Nat.strong_induction_on with
  | _ a ih =>
    intro p x hp hai hn
    have hal := parentRel_len hp
    have hpa := parentRel_lt hv hp
    unfold parentSearch
    rw [parentOf_eq a hal, (parentRel_iff a p hal).1 hp]
    simp only
    by_cases he : EnabledAt en p
    · rw [(hl.2 p (by omega)).1 (by omega) he]
      have := nearest_unique hv hn (nearest_self he)
      subst this
      rfl
    · rw [(hl.2 p (by omega)).2 (fun h => he h.2)]
      simp only
      rcases root_or_parent (s := s) p (by omega) with hr | ⟨q, hq, -⟩
      · exact absurd (nearest_root (List.getElem?_eq_getElem (by omega)) hr hn).2 he
      · exact ih p hpa q x hq (by omega) ((nearest_parent hq he).1 hn)

theorem mapSearch_spec (hv : s.Valid) {i : Nat} {inter : List (Option Nat)}
    (hl : IndexTable en i s.joints.length inter) : ∀ (a : Nat), a < s.joints.length → a ≤ i →
      (EnabledAt en a → a < i) →
      (∀ x, s.Nearest en a x → mapSearch s inter (some a) = some (.ok (some (newIndex en x)))) ∧
      ((¬ ∃ x, s.Nearest en a x) → mapSearch s inter (some a) = some (.ok none)) := by
  intro a
  induction a using Nat.strong_induction_on with
  | _ a ih =>
    intro hal hai hea
    unfold mapSearch
    by_cases he : EnabledAt en a
    · rw [(hl.2 a hal).1 (hea he) he]
      refine ⟨fun x hx => ?_, fun h => absurd ⟨a, nearest_self he⟩ h⟩
      have := nearest_unique hv hx (nearest_self he)
      subst this
      rfl
    · rw [(hl.2 a hal).2 (fun h => he h.2)]
      rw [parentOf_eq a hal]
      simp only
      rcases root_or_parent (s := s) a hal with hr | ⟨q, hq, -⟩
      · rw [hr]
        refine ⟨fun x hx => absurd (nearest_root (List.getElem?_eq_getElem hal) hr hx).2 he, fun _ => ?_⟩
        unfold mapSearch; rfl
      · rw [(parentRel_iff a q hal).1 hq]
        have hqa := parentRel_lt hv hq
        obtain ⟨i1, i2⟩ := ih q hqa (by omega) (by omega) (by intro; omega)
        refine ⟨fun x hx => i1 x ((nearest_parent hq he).1 hx), fun h => i2 ?_⟩
        rintro ⟨x, hx⟩
        exact h ⟨x, (nearest_parent hq he).2 hx⟩

/-- `Q` is the product of the pre-rotations of the joints from just below `x` down to `p`. -/
inductive PreChain [CommRing K] (s : Skeleton K) (x : Nat) : Nat → Quat K → Prop
  | done : PreChain s x x Quat.one
  | step {p q : Nat} {pj : Joint K} {Q : Quat K} (h : s.joints[p]? = some pj) (hx : p ≠ x)
      (hq : pj.parent = some q) (hQ : PreChain s x q Q) : PreChain s x p (Q * pj.preRotation)

theorem preRotationLoop_spec [CommRing K] (hv : s.Valid) {x : Nat} : ∀ (p : Nat) (pre : Quat K),
    p < s.joints.length → s.Anc p x →
      ∃ Q, PreChain s x p Q ∧ preRotationLoop s x (some p) pre = some (.ok (Q * pre)) := by
  intro p
  induction p using Nat.strong_induction_on with
  | _ p ih =>
    intro pre hp ha
    unfold preRotationLoop
    by_cases hpx : p = x
    · subst hpx
      rw [if_pos rfl]
      exact ⟨_, .done, by rw [Quat.one_mul']⟩
    · rw [if_neg hpx, List.getElem?_eq_getElem hp]
      simp only
      rcases root_or_parent (s := s) p hp with hr | ⟨q, hq, -⟩
      · exact absurd ((anc_iff_root hp hr).1 ha).symm hpx
      · have hqp := (parentRel_iff p q hp).1 hq
        have hlt := parentRel_lt hv hq
        rw [hqp]
        obtain ⟨Q, h1, h2⟩ := ih q hlt (s.joints[p].preRotation * pre) (by omega)
          (((anc_iff_parent hq).1 ha).resolve_left (fun h => hpx h.symm))
        exact ⟨_, .step (List.getElem?_eq_getElem hp) hpx hqp h1, by rw [h2, Quat.mul_assoc']⟩

end

section
variable {K : Type} [Field K] {s : Skeleton K} {en : List Bool} {ref : List (Affine K)}

/-- What the simplified copy `jt'` of joint `j` looks like. -/
def NewJoint (s : Skeleton K) (en : List Bool) (ref : List (Affine K)) (j : Nat) (jt jt' : Joint K) : Prop :=
  jt'.name = jt.name ∧
  (jt.parent = none → jt' = jt) ∧
  ∀ p, jt.parent = some p → ∃ (x : Nat) (Q : Quat K) (tx ta : Affine K), s.Nearest en p x ∧ PreChain s x p Q ∧
    ref[x]? = some tx ∧ ref[j]? = some ta ∧
    jt'.parent = some (newIndex en x) ∧ jt'.preRotation = Q * jt.preRotation ∧
    jt'.translationOffset = tx.inverse.apply ta.translation

/-- The loop invariant. -/
structure SimplInv (s : Skeleton K) (en : List Bool) (ref : List (Affine K)) (i : Nat) (st : SimplifyState K) :
    Prop where
  len : st.joints.length = newIndex en i
  inter : IndexTable en i s.joints.length st.inter
  last : IndexTable en i s.joints.length st.last
  mapLen : st.map.length = s.joints.length
  map : ∀ j < i, ∃ x, s.Nearest en j x ∧ st.map[j]? = some (some (newIndex en x))
  joints : ∀ (j : Nat) (jt : Joint K), j < i → EnabledAt en j → s.joints[j]? = some jt →
    ∃ jt', st.joints[newIndex en j]? = some jt' ∧ NewJoint s en ref j jt jt'

theorem IndexTable.set {i n : Nat} {l : List (Option Nat)} (h : IndexTable en i n l) (he : EnabledAt en i) :
    IndexTable en (i + 1) n (l.set i (some (newIndex en i))) := by
  refine ⟨by simp [h.1], fun j hj => ⟨fun hji hej => ?_, fun hn => ?_⟩⟩
  · by_cases hij : i = j
    · subst hij; rw [List.getElem?_set_self (by rw [h.1]; exact hj)]
    · rw [List.getElem?_set_ne hij]; exact (h.2 j hj).1 (by omega) hej
  · by_cases hij : i = j
    · subst hij; exact absurd ⟨by omega, he⟩ hn
    · rw [List.getElem?_set_ne hij]; exact (h.2 j hj).2 fun hc => hn ⟨by omega, hc.2⟩

theorem IndexTable.skip {i n : Nat} {l : List (Option Nat)} (h : IndexTable en i n l) (he : ¬ EnabledAt en i) :
    IndexTable en (i + 1) n l := by
  refine ⟨h.1, fun j hj => ⟨fun hji hej => ?_, fun hn => ?_⟩⟩
  · by_cases hij : i = j
    · subst hij; exact absurd hej he
    · exact (h.2 j hj).1 (by omega) hej
  · exact (h.2 j hj).2 fun hc => hn ⟨by omega, hc.2⟩

theorem simplifyStep_ok (hv : s.Valid) (hen : en.length = s.joints.length)
    (href : ref.length = s.joints.length) {i : Nat} (hi : i < s.joints.length) {st : SimplifyState K}
    (hI : SimplInv s en ref i st) (hroot : ∀ jt, s.joints[i]? = some jt → jt.parent = none → EnabledAt en i) :
    ∃ st', simplifyStep s en ref st i = some (.ok st') ∧ SimplInv s en ref (i + 1) st' := by
  have hj := List.getElem?_eq_getElem hi
  have hb := List.getElem?_eq_getElem (l := en) (i := i) (by omega)
  -- the parent information
  have hpar : ∃ x : Option Nat × Nat × Vec3 K, simplifyParent s ref st.last i s.joints[i] = some (.ok x) ∧
      (s.joints[i].parent = none → x = (none, i, s.joints[i].translationOffset)) ∧
      ∀ p, s.joints[i].parent = some p → ∃ y tx ta, s.Nearest en p y ∧ ref[y]? = some tx ∧ ref[i]? = some ta ∧
        x = (some (newIndex en y), y, tx.inverse.apply ta.translation) := by
    unfold simplifyParent
    cases hp : s.joints[i].parent with
    | none => exact ⟨_, rfl, fun _ => rfl, by simp⟩
    | some p =>
      have hrel : s.ParentRel i p := ⟨_, hj, hp⟩
      have hlt := parentRel_lt hv hrel
      obtain ⟨y, hy, -⟩ := hI.map p hlt
      have hyl := nearest_len hv hy (by omega)
      have e1 := List.getElem?_eq_getElem (l := ref) (i := y) (by omega)
      have e2 := List.getElem?_eq_getElem (l := ref) (i := i) (by omega)
      simp only
      rw [parentSearch_spec hv hI.last i p y hrel le_rfl hy]
      simp only [thenStep, newOffset, e1, e2, Outcome.bind_ok]
      refine ⟨_, rfl, by simp, ?_⟩
      intro p' hp'
      cases hp'
      exact ⟨y, _, _, hy, e1, rfl, rfl⟩
  obtain ⟨x, hx1, hx2, hx3⟩ := hpar
  unfold simplifyStep
  rw [hj, hb]
  simp only
  rw [hx1]
  simp only [thenStep]
  by_cases he : EnabledAt en i
  · have hbt : en[i] = true := by
      have : en[i]? = some true := he
      rw [hb] at this; simpa using this
    rw [if_pos hbt]
    have hpre : ∃ Q : Quat K, preRotationLoop s x.2.1 s.joints[i].parent s.joints[i].preRotation = some (.ok Q) ∧
        (s.joints[i].parent = none → Q = s.joints[i].preRotation) ∧
        ∀ p, s.joints[i].parent = some p → ∃ Q', PreChain s x.2.1 p Q' ∧ Q = Q' * s.joints[i].preRotation := by
      cases hp : s.joints[i].parent with
      | none => refine ⟨s.joints[i].preRotation, ?_, fun _ => rfl, by simp⟩; unfold preRotationLoop; rfl
      | some p =>
        obtain ⟨y, tx, ta, hy, -, -, hxy⟩ := hx3 p hp
        have hlt := parentRel_lt hv ⟨_, hj, hp⟩
        subst hxy
        obtain ⟨Q, q1, q2⟩ := preRotationLoop_spec hv p s.joints[i].preRotation (by omega) hy.1
        refine ⟨_, q2, by simp, ?_⟩
        intro p' hp'
        cases hp'
        exact ⟨Q, q1, rfl⟩
    obtain ⟨Q, q1, q2, q3⟩ := hpre
    unfold simplifyEnabled
    rw [q1]
    simp only [thenStep]
    refine ⟨_, rfl, ?_⟩
    have hnew : NewJoint s en ref i s.joints[i]
        { s.joints[i] with parent := x.1, translationOffset := x.2.2, preRotation := Q } := by
      refine ⟨rfl, fun hp => ?_, fun p hp => ?_⟩
      · rw [hx2 hp, q2 hp]
        cases hsj : s.joints[i]
        rw [hsj] at hp
        simp only at hp ⊢
        rw [hp]
      · obtain ⟨y, tx, ta, hy, e1, e2, hxy⟩ := hx3 p hp
        obtain ⟨Q', c1, c2⟩ := q3 p hp
        subst hxy
        exact ⟨y, Q', tx, ta, hy, c1, e1, e2, rfl, c2, rfl⟩
    have hlen := hI.len
    constructor
    · simp [hlen, newIndex_succ i true he]
    · simp only [hlen]; exact hI.inter.set he
    · simp only [hlen]; exact hI.last.set he
    · simp [hI.mapLen]
    · intro j hji
      simp only
      by_cases hij : i = j
      · subst hij
        refine ⟨i, nearest_self he, ?_⟩
        rw [List.getElem?_set_self (by rw [hI.mapLen]; exact hi), hlen]
      · rw [List.getElem?_set_ne hij]
        exact hI.map j (by omega)
    · intro j jt hji hej hjt
      simp only
      by_cases hij : i = j
      · subst hij
        rw [hj] at hjt
        cases hjt
        refine ⟨_, ?_, hnew⟩
        rw [← hlen, List.getElem?_append_right le_rfl, Nat.sub_self]
        rfl
      · obtain ⟨jt', g1, g2⟩ := hI.joints j jt (by omega) hej hjt
        exact ⟨jt', by rw [List.getElem?_append_left (getElem?_lt g1)]; exact g1, g2⟩
  · have hbf : en[i] = false := by
      cases hc : en[i] with
      | false => rfl
      | true => exact absurd (show en[i]? = some true by rw [hb, hc]) he
    rw [hbf]
    simp only [Bool.false_eq_true, if_false]
    have hnear : ∃ y, s.Nearest en i y := by
      rcases root_or_parent (s := s) i hi with hr | ⟨p, hp, -⟩
      · exact absurd (hroot _ hj hr) he
      · obtain ⟨y, hy, -⟩ := hI.map p (parentRel_lt hv hp)
        exact ⟨y, (nearest_parent hp he).2 hy⟩
    obtain ⟨y, hy⟩ := hnear
    unfold simplifyDisabled
    rw [((mapSearch_spec hv hI.inter i hi le_rfl (fun h => absurd h he)).1 y hy)]
    simp only [thenStep]
    refine ⟨_, rfl, ?_⟩
    have hs0 : newIndex en (i + 1) = newIndex en i := by
      have := newIndex_succ (en := en) i false (by rw [hb, hbf])
      simpa using this
    constructor
    · simp [hI.len, hs0]
    · exact hI.inter.skip he
    · exact hI.last.skip he
    · simp [hI.mapLen]
    · intro j hji
      simp only
      by_cases hij : i = j
      · subst hij
        exact ⟨y, hy, by rw [List.getElem?_set_self (by rw [hI.mapLen]; exact hi)]⟩
      · rw [List.getElem?_set_ne hij]
        exact hI.map j (by omega)
    · intro j jt hji hej hjt
      have hij : i ≠ j := fun h => he (h ▸ hej)
      exact hI.joints j jt (by omega) hej hjt

theorem simplifyStep_throws (hv : s.Valid) (hen : en.length = s.joints.length) {i : Nat}
    (hi : i < s.joints.length) {st : SimplifyState K} (hI : SimplInv s en ref i st)
    (hp : s.joints[i].parent = none) (he : ¬ EnabledAt en i) :
    simplifyStep s en ref st i = some .throws := by
  have hj := List.getElem?_eq_getElem hi
  have hb := List.getElem?_eq_getElem (l := en) (i := i) (by omega)
  have hbf : en[i] = false := by
    cases hc : en[i] with
    | false => rfl
    | true => exact absurd (show en[i]? = some true by rw [hb, hc]) he
  unfold simplifyStep
  rw [hj, hb]
  simp only
  unfold simplifyParent
  rw [hp, hbf]
  simp only [thenStep, Bool.false_eq_true, if_false]
  unfold simplifyDisabled
  rw [((mapSearch_spec hv hI.inter i hi le_rfl (fun h => absurd h he)).2 ?_)]
  · rfl
  · rintro ⟨x, hx⟩
    exact he (nearest_root hj hp hx).2

theorem simplifyFold (hv : s.Valid) (hen : en.length = s.joints.length) (href : ref.length = s.joints.length) :
    ∀ i, i ≤ s.joints.length →
      ((∀ (j : Nat) (jt : Joint K), j < i → s.joints[j]? = some jt → jt.parent = none → EnabledAt en j) →
        ∃ st, (List.range i).foldl (fun (acc : Option (Outcome (SimplifyState K))) a =>
          thenStep acc fun st => simplifyStep s en ref st a)
          (some (.ok ⟨[], List.replicate s.joints.length none, List.replicate s.joints.length none,
            List.replicate s.joints.length none⟩)) = some (.ok st) ∧ SimplInv s en ref i st) ∧
      ((¬ ∀ (j : Nat) (jt : Joint K), j < i → s.joints[j]? = some jt → jt.parent = none → EnabledAt en j) →
        (List.range i).foldl (fun (acc : Option (Outcome (SimplifyState K))) a =>
          thenStep acc fun st => simplifyStep s en ref st a)
          (some (.ok ⟨[], List.replicate s.joints.length none, List.replicate s.joints.length none,
            List.replicate s.joints.length none⟩)) = some .throws) := by
  intro i
  induction i with
  | zero =>
    intro _
    refine ⟨fun _ => ⟨_, rfl, ⟨rfl, ?_, ?_, by simp, by omega, by omega⟩⟩, fun h => absurd (by omega) h⟩
    all_goals
      refine ⟨by simp, fun j hj => ⟨by omega, fun _ => ?_⟩⟩
      rw [List.getElem?_replicate, if_pos hj]
  | succ i ih =>
    intro hi
    obtain ⟨h1, h2⟩ := ih (by omega)
    rw [List.range_succ, List.foldl_append, List.foldl_cons, List.foldl_nil]
    constructor
    · intro hr
      obtain ⟨st, e, hI⟩ := h1 fun j jt hj => hr j jt (by omega)
      rw [e]
      exact simplifyStep_ok hv hen href (by omega) hI fun jt => hr i jt (by omega)
    · intro hr
      by_cases hr' : ∀ (j : Nat) (jt : Joint K), j < i → s.joints[j]? = some jt → jt.parent = none → EnabledAt en j
      · obtain ⟨st, e, hI⟩ := h1 hr'
        rw [e]
        simp only [thenStep]
        have hil : i < s.joints.length := by omega
        refine simplifyStep_throws hv hen hil hI ?_ ?_
        · by_contra hc
          apply hr
          intro j jt hj hjt hp
          by_cases hji : j = i
          · subst hji
            rw [List.getElem?_eq_getElem hil] at hjt; cases hjt
            exact absurd hp hc
          · exact hr' j jt (by omega) hjt hp
        · intro he
          apply hr
          intro j jt hj hjt hp
          by_cases hji : j = i
          · subst hji; exact he
          · exact hr' j jt (by omega) hjt hp
      · rw [h2 hr']; rfl

end
end Momentum
