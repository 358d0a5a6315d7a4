import Verif.Lemmas.JointDeriv

/-!
# C04-C10: skeletons and forward kinematics
-/

namespace Momentum
open Skeleton

/-- A forest with two roots: joint 0 with children 1 and 3, joint 2 a second root, joint 4 below 3.
Used as the concrete case for the theorems below. -/
noncomputable def exSkeleton : Skeleton ℝ where
  joints := [⟨"root", none, Quat.one, ⟨0, 0, 0⟩⟩, ⟨"a", some 0, Quat.one, ⟨1, 0, 0⟩⟩,
    ⟨"root2", none, Quat.one, ⟨5, 0, 0⟩⟩, ⟨"b", some 0, Quat.one, ⟨0, 1, 0⟩⟩,
    ⟨"c", some 3, ⟨3 / 5, 0, 0, 4 / 5⟩, ⟨0, 2, 0⟩⟩]

theorem exSkeleton_valid : exSkeleton.Valid := by
  intro i jt p h hp
  match i with
  | 0 | 1 | 2 | 3 | 4 => simp [exSkeleton] at h; subst h; simp_all <;> omega
  | n + 5 => simp [exSkeleton] at h

theorem exSkeleton_unit : ∀ jt ∈ exSkeleton.joints, jt.preRotation.normSq = 1 := by
  intro jt h
  simp [exSkeleton] at h
  rcases h with rfl | rfl | rfl | rfl | rfl <;> norm_num [Quat.normSq, Quat.one]

/-- Constructing a skeleton succeeds exactly on joint lists whose parents precede their children;
this is what `Skeleton.Valid` says. -/
theorem skeleton_construct_iff {K : Type*} (s : Skeleton K) :
    Skeleton.construct s.joints = some s ↔ s.Valid :=
  ⟨fun h => (construct_valid h).1, construct_of_valid⟩

/-- Every joint of a valid skeleton has exactly one chain down from a root. -/
theorem C04_chain_exists_unique {K : Type*} (s : Skeleton K) (hv : s.Valid) (j : Nat)
    (hj : j < s.joints.length) : ∃! l, s.ChainTo j l := by
  induction j using Nat.strong_induction_on with
  | _ j ih =>
    rcases root_or_parent j hj with hp | ⟨p, hr, hp⟩
    · refine ⟨[j], .root (List.getElem?_eq_getElem hj) hp, ?_⟩
      intro l hl
      cases hl with
      | root => rfl
      | step h hl => rw [parentRel_iff j _ hj, hp] at h; cases h
    · have hlt := parentRel_lt hv hr
      obtain ⟨l, h1, h2⟩ := ih p hlt (hlt.trans hj)
      refine ⟨l ++ [j], .step hr h1, ?_⟩
      intro l' hl'
      cases hl' with
      | root h' hp' =>
        rw [List.getElem?_eq_getElem hj] at h'; cases h'
        rw [hp'] at hp; cases hp
      | step h hl =>
        have := parentRel_unique h hr
        subst this
        rw [h2 _ hl]

/-- **C04** (success).  Computing a skeleton state succeeds exactly when the parameter vector has
seven entries per joint, and yields one state per joint. -/
theorem C04_state_defined (s : Skeleton ℝ) (hv : s.Valid) (params : List ℝ) (cd : Bool) :
    (params.length = s.joints.length * 7 ↔ ∃ states, skeletonState s params cd = some states) ∧
    ∀ states, skeletonState s params cd = some states → states.length = s.joints.length := by
  refine ⟨⟨fun h => ?_, ?_⟩, fun states h => (skeletonState_some hv h).2.1⟩
  · obtain ⟨r, h1, _⟩ := skeletonState_good hv cd h
    exact ⟨r, h1⟩
  · rintro ⟨states, h⟩
    exact (skeletonState_some hv h).2.2

/-- **C04**.  The world transform of joint `j` is the product of the local transforms of the joints
on the chain from its root down to `j`, in that order. -/
theorem C04_world_is_chain_product (s : Skeleton ℝ) (hv : s.Valid) (params : List ℝ) (cd : Bool)
    (states : List JointState) (h : skeletonState s params cd = some states)
    (j : Nat) (l : List Nat) (hl : s.ChainTo j l) :
    ∃ (st : JointState) (chain : List JointState), states[j]? = some st ∧
      l.mapM (fun i => states[i]?) = some chain ∧
      st.transform = (chain.map (·.localTransform)).foldl (· * ·) Transform.one := by
  obtain ⟨hg, hlen, _⟩ := skeletonState_some hv h
  induction hl with
  | @root j jt hj hp =>
    have hjl := getElem?_lt hj
    have hst : states[j]? = some states[j] := List.getElem?_eq_getElem (by omega)
    refine ⟨states[j], [states[j]], hst, by simp [hst], ?_⟩
    have := hg.world hj hst
    rw [this, hp]
    rfl
  | @step j p l hr hl ih =>
    obtain ⟨st, chain, h1, h2, h3⟩ := ih
    obtain ⟨jt, hj, hp⟩ := hr
    have hjl := getElem?_lt hj
    have hst : states[j]? = some states[j] := List.getElem?_eq_getElem (by omega)
    refine ⟨states[j], chain ++ [states[j]], hst, ?_, ?_⟩
    · rw [List.mapM_append, h2]; simp [hst]
    · have := hg.world hj hst
      rw [this, hp]
      simp only [Option.bind_some, h1, List.map_append, List.foldl_append, ← h3]
      rfl

/-- **C04** (point form).  A point of joint `j` is mapped to the world by applying the local
transforms one after another, from the joint up to its root. -/
theorem C04_world_point (s : Skeleton ℝ) (hv : s.Valid)
    (hpre : ∀ jt ∈ s.joints, jt.preRotation.normSq = 1) (params : List ℝ) (cd : Bool)
    (states : List JointState) (h : skeletonState s params cd = some states)
    (j : Nat) (l : List Nat) (hl : s.ChainTo j l) (x : Vec3 ℝ) :
    ∃ (st : JointState) (chain : List JointState), states[j]? = some st ∧
      l.mapM (fun i => states[i]?) = some chain ∧
      st.transform.transformPoint x =
        chain.foldr (fun js p => js.localTransform.transformPoint p) x := by
  obtain ⟨hg, hlen, _⟩ := skeletonState_some hv h
  induction hl generalizing x with
  | @root j jt hj hp =>
    have hjl := getElem?_lt hj
    have hst : states[j]? = some states[j] := List.getElem?_eq_getElem (by omega)
    refine ⟨states[j], [states[j]], hst, by simp [hst], ?_⟩
    have := hg.world hj hst
    rw [this, hp]
    simp [Transform.one_mul']
  | @step j p l hr hl ih =>
    obtain ⟨jt, hj, hp⟩ := hr
    have hjl := getElem?_lt hj
    have hst : states[j]? = some states[j] := List.getElem?_eq_getElem (by omega)
    obtain ⟨st, chain, h1, h2, h3⟩ := ih (states[j].localTransform.transformPoint x)
    refine ⟨states[j], chain ++ [states[j]], hst, ?_, ?_⟩
    · rw [List.mapM_append, h2]; simp [hst]
    · have hw := hg.world hj hst
      have hu := (hg.local_unit hpre hst).1
      have hup := (hg.worldOf_unit hv hpre (some p)).1
      simp only [worldOf, h1] at hup
      rw [hw, hp]
      simp only [Option.bind_some, h1, List.foldr_append, List.foldr_cons, List.foldr_nil]
      rw [Transform.transformPoint_mul hup hu, h3]

/-- **C04** (locality).  The local transform depends only on the joint itself and its own seven
parameters: offset plus translation parameters, pre-rotation times Rz Ry Rx, and two to the power
of the scale parameter. -/
theorem C04_local_transform (s : Skeleton ℝ) (hv : s.Valid) (params : List ℝ) (cd : Bool)
    (states : List JointState) (h : skeletonState s params cd = some states)
    (j : Nat) (jt : Joint ℝ) (hj : s.joints[j]? = some jt) :
    ∃ st p0 p1 p2 p6, states[j]? = some st ∧
      params[7 * j]? = some p0 ∧ params[7 * j + 1]? = some p1 ∧ params[7 * j + 2]? = some p2 ∧
      params[7 * j + 6]? = some p6 ∧
      st.localTransform.translation = jt.translationOffset + ⟨p0, p1, p2⟩ ∧
      st.localTransform.scale = (2 : ℝ) ^ p6 := by
  obtain ⟨hg, hlen, hpl⟩ := skeletonState_some hv h
  have hjl := getElem?_lt hj
  have hst : states[j]? = some states[j] := List.getElem?_eq_getElem (by omega)
  refine ⟨_, _, _, _, _, hst, List.getElem?_eq_getElem (by omega),
    List.getElem?_eq_getElem (by omega), List.getElem?_eq_getElem (by omega),
    List.getElem?_eq_getElem (by omega), ?_, ?_⟩
  · rw [hg.eq j jt _ hj hst, localTransform_of_parts]
    simp only [jointSlice]
    congr 1
    ext <;> simp <;> rw [List.getElem?_eq_getElem (by omega)] <;> rfl
  · rw [hg.eq j jt _ hj hst, localTransform_of_parts]
    simp only [jointSlice]
    congr 1
    simp; rw [List.getElem?_eq_getElem (by omega)]; rfl

example : exSkeleton.Valid ∧ (List.replicate 35 (1 : ℝ)).length = exSkeleton.joints.length * 7 ∧
    exSkeleton.ChainTo 4 [0, 3, 4] := by
  refine ⟨exSkeleton_valid, by simp [exSkeleton], ?_⟩
  refine .step (l := [0, 3]) (p := 3) ⟨_, rfl, rfl⟩ (.step (l := [0]) (p := 0) ⟨_, rfl, rfl⟩ ?_)
  exact .root rfl rfl

/-- **C05**.  `transformAtoB(a, b)` always returns, and returns the inverse of `b`'s world transform
times `a`'s world transform, for every pair of joints (whether or not they share a root). -/
theorem C05_transformAtoB (s : Skeleton ℝ) (hv : s.Valid)
    (hpre : ∀ jt ∈ s.joints, jt.preRotation.normSq = 1) (params : List ℝ) (cd : Bool)
    (states : List JointState) (h : skeletonState s params cd = some states) (a b : Nat)
    (sa sb : JointState) (ha : states[a]? = some sa) (hb : states[b]? = some sb) :
    transformAtoB (some a) (some b) s states = some (sb.transform.inverse * sa.transform) := by
  obtain ⟨hg, hlen, _⟩ := skeletonState_some hv h
  have hal := getElem?_lt ha
  have hbl := getElem?_lt hb
  have := transformAtoB_spec hv hg hlen hpre (a := some a) (b := some b)
    (by intro x hx; cases hx; omega) (by intro x hx; cases hx; omega)
  simpa [worldOf, ha, hb] using this

/-- **C05** (world frame).  With the invalid index standing for the world, `transformAtoB` gives the
joint's world transform or its inverse. -/
theorem C05_transformAtoB_world (s : Skeleton ℝ) (hv : s.Valid)
    (hpre : ∀ jt ∈ s.joints, jt.preRotation.normSq = 1) (params : List ℝ) (cd : Bool)
    (states : List JointState) (h : skeletonState s params cd = some states) (a : Nat)
    (sa : JointState) (ha : states[a]? = some sa) :
    transformAtoB (some a) none s states = some sa.transform ∧
    transformAtoB none (some a) s states = some sa.transform.inverse := by
  obtain ⟨hg, hlen, _⟩ := skeletonState_some hv h
  have hal := getElem?_lt ha
  have hone : (Transform.one : Transform ℝ).inverse = Transform.one := by
    have := Transform.mul_inverse (a := (Transform.one : Transform ℝ)) (by simp [Transform.one])
      (by simp [Transform.one])
    rwa [Transform.one_mul'] at this
  constructor
  · have := transformAtoB_spec hv hg hlen hpre (a := some a) (b := none)
      (by intro x hx; cases hx; omega) (by simp)
    rw [this]
    simp [worldOf, ha, hone, Transform.one_mul']
  · have := transformAtoB_spec hv hg hlen hpre (a := none) (b := some a)
      (by simp) (by intro x hx; cases hx; omega)
    rw [this]
    simp [worldOf, ha, Transform.mul_one']

/-- Joints 2 and 4 of the example skeleton live in different trees. -/
example : ∃ states sa sb, skeletonState exSkeleton (List.replicate 35 (1 : ℝ)) true = some states ∧
    states[2]? = some sa ∧ states[4]? = some sb ∧
    ¬ ∃ c, exSkeleton.Anc 2 c ∧ exSkeleton.Anc 4 c := by
  obtain ⟨r, h1, h2, h3⟩ := skeletonState_good exSkeleton_valid true
    (params := List.replicate 35 (1 : ℝ)) (by simp [exSkeleton])
  have hl : r.length = 5 := by simpa [exSkeleton] using h3
  refine ⟨r, r[2], r[4], h1, List.getElem?_eq_getElem _, List.getElem?_eq_getElem _, ?_⟩
  rintro ⟨c, hc1, hc2⟩
  have e2 : c = 2 := (anc_iff_root (s := exSkeleton) (j := 2) (by simp [exSkeleton]) rfl).mp hc1
  subst e2
  rw [anc_iff_parent (p := 3) ⟨_, rfl, rfl⟩, anc_iff_parent (p := 0) ⟨_, rfl, rfl⟩,
    anc_iff_root (s := exSkeleton) (j := 0) (by simp [exSkeleton]) rfl] at hc2
  omega

/-- **C06**.  `isAncestor(j, a)` returns exactly whether `a` is `j` or an ancestor of `j`. -/
theorem C06_isAncestor {K : Type*} (s : Skeleton K) (hv : s.Valid) (j a : Nat)
    (hj : j < s.joints.length) (ha : a < s.joints.length) :
    ∃ r, s.isAncestor j a = some r ∧ (r = true ↔ s.Anc j a) := by
  unfold isAncestor
  rw [if_pos hj, if_pos ha]
  exact isAncestorLoop_spec hv a j hj

/-- **C06** (out-of-range queries are rejected). -/
theorem C06_isAncestor_out_of_range {K : Type*} (s : Skeleton K) (j a : Nat)
    (h : ¬ (j < s.joints.length ∧ a < s.joints.length)) : s.isAncestor j a = none := by
  unfold isAncestor
  split_ifs with h1 h2
  · exact absurd ⟨h1, h2⟩ h
  · rfl
  · rfl

/-- **C06** (order).  As a relation on joints, `isAncestor` is reflexive, transitive and
antisymmetric. -/
theorem C06_isAncestor_order {K : Type*} (s : Skeleton K) (hv : s.Valid) (i j k : Nat)
    (hi : i < s.joints.length) (hj : j < s.joints.length) (hk : k < s.joints.length) :
    s.isAncestor i i = some true ∧
    (s.isAncestor i j = some true → s.isAncestor j k = some true → s.isAncestor i k = some true) ∧
    (s.isAncestor i j = some true → s.isAncestor j i = some true → i = j) := by
  have key : ∀ x y, x < s.joints.length → y < s.joints.length →
      (s.isAncestor x y = some true ↔ s.Anc x y) := by
    intro x y hx hy
    obtain ⟨r, h1, h2⟩ := C06_isAncestor s hv x y hx hy
    rw [h1, ← h2]; simp
  refine ⟨(key i i hi hi).mpr .refl, ?_, ?_⟩
  · rw [key i j hi hj, key j k hj hk, key i k hi hk]
    exact Relation.ReflTransGen.trans
  · rw [key i j hi hj, key j i hj hi]
    intro h1 h2
    exact le_antisymm (anc_le hv h2) (anc_le hv h1)

example : exSkeleton.isAncestor 4 0 = some true ∧ exSkeleton.isAncestor 4 1 = some false := by
  constructor <;> simp [isAncestor, exSkeleton, isAncestorLoop, parentOf]

/-- **C07** (partial).  If two joints have any common ancestor (in particular in any skeleton with a
single root), `commonAncestor` returns the lowest one: an ancestor of both of which every other
common ancestor is an ancestor.  Missing from the full property: the answer for joints of different
trees, see `C07_forest_counterexample`. -/
theorem C07_commonAncestor_partial {K : Type*} (s : Skeleton K) (hv : s.Valid) (a b : Nat)
    (ha : a < s.joints.length) (hb : b < s.joints.length) (hc : ∃ c, s.Anc a c ∧ s.Anc b c) :
    ∃ c, s.commonAncestor (some a) (some b) = some (some c) ∧ s.Anc a c ∧ s.Anc b c ∧
      ∀ d, s.Anc a d → s.Anc b d → s.Anc c d := by
  obtain ⟨r, h1, h2, _⟩ := commonAncestorLoop_spec hv _ a b le_rfl ha hb
  obtain ⟨c, rfl, g⟩ := h2 hc
  refine ⟨c, ?_, g⟩
  unfold commonAncestor
  rw [if_pos ⟨by intro x hx; cases hx; exact ha, by intro x hx; cases hx; exact hb⟩]
  exact h1

/-- **C07** (always returns).  For all joints of a valid skeleton the walk ends, and whatever joint
it returns is an ancestor of the first argument. -/
theorem C07_commonAncestor_returns {K : Type*} (s : Skeleton K) (hv : s.Valid) (a b : Nat)
    (ha : a < s.joints.length) (hb : b < s.joints.length) :
    ∃ r, s.commonAncestor (some a) (some b) = some r ∧ ∀ c, r = some c → s.Anc a c := by
  obtain ⟨r, h1, _, h3⟩ := commonAncestorLoop_spec hv _ a b le_rfl ha hb
  refine ⟨r, ?_, h3⟩
  unfold commonAncestor
  rw [if_pos ⟨by intro x hx; cases hx; exact ha, by intro x hx; cases hx; exact hb⟩]
  exact h1

/-- A two-root skeleton. -/
def forest2 : Skeleton ℚ where
  joints := [⟨"r0", none, Quat.one, 0⟩, ⟨"r1", none, Quat.one, 0⟩]

/-- **C07** (finding).  In a skeleton with two roots, `commonAncestor(0, 1)` returns joint 0 although
0 is not an ancestor of 1, so the full property is false of the code. -/
theorem C07_forest_counterexample :
    forest2.Valid ∧ forest2.commonAncestor (some 0) (some 1) = some (some 0) ∧
      ¬ forest2.Anc 1 0 ∧ ¬ ∃ c, forest2.Anc 0 c ∧ forest2.Anc 1 c := by
  have hn : ∀ c, forest2.Anc 1 c ↔ c = 1 := fun c =>
    anc_iff_root (s := forest2) (j := 1) (by simp [forest2]) rfl
  have h0 : ∀ c, forest2.Anc 0 c ↔ c = 0 := fun c =>
    anc_iff_root (s := forest2) (j := 0) (by simp [forest2]) rfl
  refine ⟨?_, ?_, ?_, ?_⟩
  · intro i jt p h hp
    match i with
    | 0 | 1 => simp [forest2] at h; subst h; simp_all
    | n + 2 => simp [forest2] at h
  · simp [commonAncestor, commonAncestorLoop, forest2, parentOf]
  · rw [hn]; omega
  · rintro ⟨c, h1, h2⟩
    rw [h0] at h1; rw [hn] at h2; omega

example : ∃ c, exSkeleton.Anc 4 c ∧ exSkeleton.Anc 1 c :=
  ⟨0, by
    rw [anc_iff_parent (p := 3) ⟨_, rfl, rfl⟩, anc_iff_parent (p := 0) ⟨_, rfl, rfl⟩]
    exact Or.inr (Or.inr .refl), by
    rw [anc_iff_parent (p := 0) ⟨_, rfl, rfl⟩]; exact Or.inr .refl⟩

/-- **C08**.  `getChildrenJoints(j, true)` returns the proper descendants of `j`, strictly increasing
(hence without repetition). -/
theorem C08_children_recursive {K : Type*} (s : Skeleton K) (hv : s.Valid) (j : Nat)
    (hj : j < s.joints.length) :
    ∃ l, s.getChildrenJoints j true = some l ∧ l.Pairwise (· < ·) ∧
      ∀ x, x ∈ l ↔ s.ProperAnc x j := by
  obtain ⟨l, h1, h2, h3⟩ := getChildrenJoints_spec hv true j hj
  refine ⟨l, h1, h2, fun x => ?_⟩
  rw [h3 x]
  simp only [ChildSpec, if_true]
  refine ⟨fun h => h.2, fun h => ⟨?_, h⟩⟩
  obtain ⟨c, hc, _⟩ := Relation.TransGen.head'_iff.mp h
  exact parentRel_len hc

/-- **C08** (direct children).  `getChildrenJoints(j, false)` returns the joints whose parent is `j`,
strictly increasing. -/
theorem C08_children_direct {K : Type*} (s : Skeleton K) (hv : s.Valid) (j : Nat)
    (hj : j < s.joints.length) :
    ∃ l, s.getChildrenJoints j false = some l ∧ l.Pairwise (· < ·) ∧
      ∀ x, x ∈ l ↔ s.ParentRel x j := by
  obtain ⟨l, h1, h2, h3⟩ := getChildrenJoints_spec hv false j hj
  refine ⟨l, h1, h2, fun x => ?_⟩
  rw [h3 x]
  simp only [ChildSpec, Bool.false_eq_true, if_false]
  exact ⟨fun h => h.2, fun h => ⟨parentRel_len h, h⟩⟩

/-- **C08** (out of range raises). -/
theorem C08_children_out_of_range {K : Type*} (s : Skeleton K) (j : Nat) (r : Bool)
    (hj : ¬ j < s.joints.length) : s.getChildrenJoints j r = none := by
  unfold getChildrenJoints
  rw [if_pos (by omega)]

example : exSkeleton.getChildrenJoints 0 true = some [1, 3, 4] ∧
    exSkeleton.getChildrenJoints 0 false = some [1, 3] := by
  constructor <;>
    simp [getChildrenJoints, exSkeleton, List.range', childrenStep, parentOf, List.replicate]

/-- **C09**.  For a point `x` attached to joint `j`, any joint `a` among `j`'s ancestors-or-self and
any of `a`'s seven parameters, the derivative reported by the state of joint `a` is the derivative of
the point's world position with respect to that parameter (all other parameters fixed). -/
theorem C09_reported_derivative (s : Skeleton ℝ) (hv : s.Valid)
    (hpre : ∀ jt ∈ s.joints, jt.preRotation.normSq = 1) (params : List ℝ)
    (hl : params.length = s.joints.length * 7) (j a : Nat) (hj : j < s.joints.length)
    (hanc : s.Anc j a) (k : Fin 7) (x : Vec3 ℝ) (t : ℝ) :
    ∃ (pos : ℝ → Vec3 ℝ) (d : Vec3 ℝ),
      (∀ u, ∃ states st sa, skeletonState s (params.set (7 * a + k) u) true = some states ∧
        states[j]? = some st ∧ states[a]? = some sa ∧
        st.transform.transformPoint x = pos u ∧
        (u = t → reportedDerivative sa k (pos t) = some d)) ∧
      HasVecDerivAt pos d t := by
  have haj := anc_le hv hanc
  have hal : a < s.joints.length := by omega
  have hk := k.isLt
  have hset : ∀ u, (params.set (7 * a + k) u).length = s.joints.length * 7 := by
    intro u; simp [hl]
  choose S hS hG hlen using fun u => skeletonState_good hv true (hset u)
  have hsl : ∀ u i, i ≠ a → jointSlice (params.set (7 * a + k) u) i =
      jointSlice (params.set (7 * a + k) t) i := by
    intro u i hi
    rw [jointSlice_set_ne _ hi, jointSlice_set_ne _ hi]
  obtain ⟨R, hR, hfac⟩ := world_factor hv hpre (hG t) (hlen t) j hj hanc
  have ea : s.joints[a]? = some s.joints[a] := List.getElem?_eq_getElem _
  have esa : ∀ u, (S u)[a]? = some ((S u)[a]'(by rw [hlen]; exact hal)) := fun u =>
    List.getElem?_eq_getElem _
  have esj : ∀ u, (S u)[j]? = some ((S u)[j]'(by rw [hlen]; exact hj)) := fun u =>
    List.getElem?_eq_getElem _
  -- the parent's state does not depend on the parameter
  let ps : Option JointState := s.joints[a].parent.bind ((S t)[·]?)
  have hps : ∀ u, s.joints[a].parent.bind ((S u)[·]?) = ps := by
    intro u
    show _ = s.joints[a].parent.bind ((S t)[·]?)
    rcases root_or_parent a hal with hp | ⟨p, hr, hp⟩
    · rw [hp]; rfl
    · rw [hp]
      simp only [Option.bind_some]
      refine state_eq_of_not_anc hv (hG t) (hG u) (hlen t) (hlen u) (hsl u) p ?_
      intro hc
      have := anc_le hv hc
      have := parentRel_lt hv hr
      omega
  have hpsu : (parentT ps).rotation.normSq = 1 := by
    have hh := (hG t).worldOf_unit hv hpre s.joints[a].parent
    show (parentT (s.joints[a].parent.bind ((S t)[·]?))).rotation.normSq = 1
    rcases root_or_parent a hal with hp | ⟨p, hr, hp⟩
    · rw [hp]; simp [parentT, Transform.one]
    · rw [hp] at hh ⊢
      have hpl := parentRel_lt hv hr
      have e : (S t)[p]? = some ((S t)[p]'(by rw [hlen]; omega)) := List.getElem?_eq_getElem _
      simp only [worldOf, e] at hh
      simp only [Option.bind_some, e, parentT]
      exact hh.1
  have hsa : ∀ u, (S u)[a]'(by rw [hlen]; exact hal) =
      JointState.set s.joints[a] (Function.update (jointSlice params a) k u) ps true := by
    intro u
    rw [(hG u).eq a _ _ ea (esa u), hps u, jointSlice_set_self params k u (by omega)]
  have hpos : ∀ u, ((S u)[j]'(by rw [hlen]; exact hj)).transform.transformPoint x =
      (JointState.set s.joints[a] (Function.update (jointSlice params a) k u) ps
        true).transform.transformPoint (R.transformPoint x) := by
    intro u
    have h1 := hfac _ (S u) (hG u) (hlen u) (hsl u)
    have h2 := (hG u).worldOf_unit hv hpre (some a)
    simp only [worldOf, esj u, esa u] at h1 h2
    rw [h1, Transform.transformPoint_mul h2.1 hR, hsa u]
  obtain ⟨d, hd1, hd2⟩ := joint_deriv (hpre _ (List.getElem_mem hal)) (jointSlice params a) ps hpsu
    (R.transformPoint x) k t
  refine ⟨_, d, fun u => ⟨S u, _, _, hS u, esj u, esa u, hpos u, ?_⟩, hd2⟩
  rintro rfl
  rw [hsa u]
  exact hd1

/-- **C09** (independence).  A point attached to joint `j` does not move when a parameter of a joint
that is not an ancestor-or-self of `j` changes. -/
theorem C09_unaffected (s : Skeleton ℝ) (hv : s.Valid) (params : List ℝ) (cd : Bool)
    (j a : Nat) (hanc : ¬ s.Anc j a) (k : Fin 7) (u : ℝ) (states states' : List JointState)
    (h : skeletonState s params cd = some states)
    (h' : skeletonState s (params.set (7 * a + k) u) cd = some states') :
    states'[j]? = states[j]? := by
  obtain ⟨g, l, _⟩ := skeletonState_some hv h
  obtain ⟨g', l', _⟩ := skeletonState_some hv h'
  exact state_eq_of_not_anc hv g g' l l' (fun i hi => jointSlice_set_ne params hi k u) j hanc

/-- **C09/C10** (guard).  Asking for rotation or translation derivatives of a state computed without
derivatives fails instead of returning stale numbers. -/
theorem C09_dirty_rejected (jt : Joint ℝ) (p : JointVec) (ps : Option JointState) (i : Fin 3)
    (ref : Vec3 ℝ) :
    (JointState.set jt p ps false).getRotationDerivative i ref = none ∧
    (JointState.set jt p ps false).getTranslationDerivative i = none := by
  cases ps <;> exact ⟨rfl, rfl⟩

example : exSkeleton.Valid ∧ (∀ jt ∈ exSkeleton.joints, jt.preRotation.normSq = 1) ∧
    exSkeleton.Anc 4 3 ∧ ¬ exSkeleton.Anc 4 2 := by
  refine ⟨exSkeleton_valid, exSkeleton_unit, ?_, ?_⟩
  · rw [anc_iff_parent (p := 3) ⟨_, rfl, rfl⟩]; exact Or.inr .refl
  · rw [anc_iff_parent (p := 3) ⟨_, rfl, rfl⟩, anc_iff_parent (p := 0) ⟨_, rfl, rfl⟩,
      anc_iff_root (s := exSkeleton) (j := 0) (by simp [exSkeleton]) rfl]
    omega

/-- **C10** (order).  The local rotation matrix of a joint is the matrix of its pre-rotation times
Rz(rz) Ry(ry) Rx(rx), with the three elementary rotation matrices. -/
theorem C10_rotation_order (s : Skeleton ℝ) (hv : s.Valid) (params : List ℝ) (cd : Bool)
    (states : List JointState) (h : skeletonState s params cd = some states)
    (j : Nat) (jt : Joint ℝ) (hj : s.joints[j]? = some jt) (hpre : jt.preRotation.normSq = 1) :
    ∃ st rx ry rz, states[j]? = some st ∧ params[7 * j + 3]? = some rx ∧
      params[7 * j + 4]? = some ry ∧ params[7 * j + 5]? = some rz ∧
      st.localTransform.toRotationMatrix =
        ((jt.preRotation.toMat.mul (rotZ rz)).mul (rotY ry)).mul (rotX rx) := by
  obtain ⟨hg, hlen, hpl⟩ := skeletonState_some hv h
  have hjl := getElem?_lt hj
  have hst : states[j]? = some states[j] := List.getElem?_eq_getElem (by omega)
  refine ⟨_, _, _, _, hst, List.getElem?_eq_getElem (by omega),
    List.getElem?_eq_getElem (by omega), List.getElem?_eq_getElem (by omega), ?_⟩
  rw [hg.eq j jt _ hj hst, localTransform_of_parts]
  have hx : ∀ a, (Quat.angleAxis a Vec3.unitX).normSq = 1 := fun a => normSq_rotationAxis a 0
  have hy : ∀ a, (Quat.angleAxis a Vec3.unitY).normSq = 1 := fun a => normSq_rotationAxis a 1
  have hz : ∀ a, (Quat.angleAxis a Vec3.unitZ).normSq = 1 := fun a => normSq_rotationAxis a 2
  have hmul : ∀ {a b : Quat ℝ}, a.normSq = 1 → b.normSq = 1 → (a * b).normSq = 1 := by
    intro a b ha hb; rw [Quat.normSq_mul, ha, hb, one_mul]
  simp only [Transform.toRotationMatrix]
  rw [Quat.toMat_mul (hmul (hmul hpre (hz _)) (hy _)) (hx _),
    Quat.toMat_mul (hmul hpre (hz _)) (hy _), Quat.toMat_mul hpre (hz _),
    toMat_angleAxis_x, toMat_angleAxis_y, toMat_angleAxis_z]
  have g3 : jointSlice params j 3 = params[7 * j + 3] := by
    simp [jointSlice]; rw [List.getElem?_eq_getElem (by omega)]; rfl
  have g4 : jointSlice params j 4 = params[7 * j + 4] := by
    simp [jointSlice]; rw [List.getElem?_eq_getElem (by omega)]; rfl
  have g5 : jointSlice params j 5 = params[7 * j + 5] := by
    simp [jointSlice]; rw [List.getElem?_eq_getElem (by omega)]; rfl
  rw [g3, g4, g5]

/-- **C10** (axes).  For every vector `v` carried by joint `j`, the derivative of the rotated vector
(the world displacement between two points of the joint) with respect to rotation parameter `i` is
the cross product of the reported world axis `i` with it. -/
theorem C10_rotation_axes (jt : Joint ℝ) (hpre : jt.preRotation.normSq = 1) (v : JointVec)
    (ps : Option JointState) (hps : ∀ p, ps = some p → p.transform.rotation.normSq = 1)
    (y : Vec3 ℝ) (t : ℝ) (i : Fin 3) :
    HasVecDerivAt (fun u => (JointState.set jt (Function.update v ⟨3 + i, by omega⟩ u) ps
        true).transform.transformPoint y)
      (((JointState.set jt (Function.update v ⟨3 + i, by omega⟩ t) ps true).rotationAxis i).cross
        ((JointState.set jt (Function.update v ⟨3 + i, by omega⟩ t) ps
            true).transform.transformPoint y -
          (JointState.set jt (Function.update v ⟨3 + i, by omega⟩ t) ps
            true).transform.translation)) t := by
  have hpu : (parentT ps).rotation.normSq = 1 := by
    cases ps with
    | none => simp [parentT, Transform.one]
    | some p => exact hps p rfl
  obtain ⟨d, h1, h2⟩ := joint_deriv hpre v ps hpu y ⟨3 + i, by omega⟩ t
  have hclean : ∀ u, (JointState.set jt u ps true).derivDirty = false := by cases ps <;> intro u <;> rfl
  fin_cases i <;>
    · simp only [reportedDerivative, JointState.getRotationDerivative, hclean] at h1
      cases h1
      exact h2

end Momentum
