import Verif.Props.TransformPose

/-!
# C74: examples, and where moving a pose goes wrong
-/

namespace Momentum
open Skeleton Transform

/-- The transform that moves along x. -/
def shiftX (x : ℝ) : Transform ℝ := ⟨⟨1, 0, 0, 0⟩, ⟨x, 0, 0⟩, 1⟩

theorem one_rotate (v : Vec3 ℝ) : (⟨1, 0, 0, 0⟩ : Quat ℝ).rotate v = v := by
  ext <;> simp [Quat.rotate, Vec3.cross, Quat.vec]

theorem shiftX_mul (x y : ℝ) : shiftX x * shiftX y = shiftX (x + y) := by
  show Transform.mul _ _ = _
  unfold Transform.mul shiftX
  simp only [one_rotate, Transform.mk.injEq]
  refine ⟨?_, ?_, by norm_num⟩
  · ext <;> simp
  · ext <;> simp

theorem set_shift (nm : String) (par : Option Nat) (p : JointVec) (ps : Option JointState) (h1 : p 1 = 0) (h2 : p 2 = 0)
    (h3 : p 3 = 0) (h4 : p 4 = 0) (h5 : p 5 = 0) (h6 : p 6 = 0) :
    (JointState.set ⟨nm, par, ⟨1, 0, 0, 0⟩, ⟨0, 0, 0⟩⟩ p ps false).localTransform = shiftX (p 0) := by
  ext1
  · rw [JointState.set_localRotation, h3, h4, h5]
    have : ∀ v, Quat.angleAxis 0 v = ⟨1, 0, 0, 0⟩ := by intro v; simp [Quat.angleAxis]
    rw [this, this, this]
    show _ = (⟨1, 0, 0, 0⟩ : Quat ℝ)
    ext <;> simp
  · show (⟨0, 0, 0⟩ : Vec3 ℝ) + ⟨p 0, p 1, p 2⟩ = ⟨p 0, 0, 0⟩
    rw [h1, h2]
    ext <;> simp
  · show (2 : ℝ) ^ p 6 = 1
    rw [h6]; simp

/-- A root, the hips below it, and an arm that is attached to the root. -/
def exPoseTree : Skeleton ℝ :=
  ⟨[⟨"root", none, ⟨1, 0, 0, 0⟩, ⟨0, 0, 0⟩⟩, ⟨"hips", some 0, ⟨1, 0, 0, 0⟩, ⟨0, 0, 0⟩⟩, ⟨"arm", some 0, ⟨1, 0, 0, 0⟩, ⟨0, 0, 0⟩⟩]⟩

/-- The root and the hips have a parameter each that moves them along x. -/
noncomputable def exPoseTreeTransform : ParameterTransform ℝ :=
  ⟨["root_tx", "hips_tx"], ⟨21, 2, [⟨0, 0, 1⟩, ⟨7, 1, 1⟩]⟩, List.replicate 21 0, [], [], [], [], []⟩

theorem exPoseTree_pose (a b : ℝ) :
    characterPose exPoseTree exPoseTreeTransform [a, b] = some [shiftX a, shiftX (a + b), shiftX a] := by
  have hap : exPoseTreeTransform.apply [a, b] =
      some [a, 0, 0, 0, 0, 0, 0, b, 0, 0, 0, 0, 0, 0, 0, 0, 0, 0, 0, 0, 0] := by
    simp [ParameterTransform.apply, exPoseTreeTransform, addVec, SparseMat.mulVec, rowSum, List.range_succ, List.replicate_succ]
  have hset : ∀ nm par (p : JointVec) ps, p 1 = 0 → p 2 = 0 → p 3 = 0 → p 4 = 0 → p 5 = 0 → p 6 = 0 →
      (JointState.set ⟨nm, par, ⟨1, 0, 0, 0⟩, ⟨0, 0, 0⟩⟩ p ps false).transform =
        (match ps with | some q => q.transform | none => Transform.one) * shiftX (p 0) := by
    intro nm par p ps h1 h2 h3 h4 h5 h6
    rw [← set_shift nm par p ps h1 h2 h3 h4 h5 h6]
    cases ps <;> rfl
  unfold characterPose
  rw [hap, Option.bind_some]
  unfold skeletonState exPoseTree
  rw [if_pos (by simp)]
  simp only [List.foldlM_cons, List.foldlM_nil, skeletonStep, Option.bind_eq_bind, Option.bind_some, List.nil_append,
    List.getElem?_cons_zero, Option.map_some, List.cons_append, Option.pure_def, List.map_cons, List.map_nil]
  have h0 := hset "root" none (jointSlice [a, 0, 0, 0, 0, 0, 0, b, 0, 0, 0, 0, 0, 0, 0, 0, 0, 0, 0, 0, 0] 0) none
    rfl rfl rfl rfl rfl rfl
  have e0 : Transform.one * shiftX a = shiftX a := one_mul' _
  refine congrArg some (List.cons_eq_cons.2 ⟨h0.trans e0, List.cons_eq_cons.2 ⟨?_, List.cons_eq_cons.2 ⟨?_, rfl⟩⟩⟩)
  · refine (hset "hips" (some 0) (jointSlice _ 1) (some _) rfl rfl rfl rfl rfl rfl).trans ?_
    exact (congrArg (· * shiftX b) (h0.trans e0)).trans (shiftX_mul a b)
  · refine (hset "arm" (some 0) (jointSlice _ 2) (some _) rfl rfl rfl rfl rfl rfl).trans ?_
    exact (congrArg (· * shiftX 0) (h0.trans e0)).trans (by rw [shiftX_mul, add_zero])

theorem infix_of_append {pat s : List Char} (a b : List Char) (h : s = a ++ (pat ++ b)) : pat <:+: s := ⟨a, b, by rw [h]; simp⟩

theorem exPoseTree_rigid (i : Nat) : RigidParameter exPoseTreeTransform i ↔ i < 2 := by
  unfold RigidParameter exPoseTreeTransform
  constructor
  · rintro ⟨nm, h, -⟩
    exact (List.getElem?_eq_some_iff.1 h).1
  · intro h
    match i, h with
    | 0, _ => exact ⟨"root_tx", rfl, .inl (by decide +kernel)⟩
    | 1, _ => exact ⟨"hips_tx", rfl, .inr (by decide +kernel)⟩

theorem exPoseTree_character : PoseCharacter exPoseTree exPoseTreeTransform where
  skeleton := by
    intro j jt p hj hp
    match j, hj with
    | 0, hj => cases hj; cases hp
    | 1, hj => cases hj; cases hp; decide
    | 2, hj => cases hj; cases hp; decide
    | j + 3, hj => cases hj
  unit := by
    intro jt hjt
    simp only [exPoseTree, List.mem_cons, List.not_mem_nil, or_false] at hjt
    rcases hjt with rfl | rfl | rfl <;> simp [Quat.normSq]
  valid := {
    names := rfl
    bound := by decide
    offs := by simp [exPoseTreeTransform]
    wf := by
      intro e he
      simp only [exPoseTreeTransform, List.mem_cons, List.not_mem_nil, or_false] at he
      rcases he with rfl | rfl <;> decide
    constraints := by simp [exPoseTreeTransform]
    blend := by simp [exPoseTreeTransform]
    face := by simp [exPoseTreeTransform]
    lims := by simp }
  rows := rfl
  names := by simp [exPoseTreeTransform]

theorem exPoseTree_last : LastRigidJoint exPoseTreeTransform 1 where
  moved := ⟨1, (exPoseTree_rigid 1).2 (by decide), ⟨7, 1, 1⟩, by simp [exPoseTreeTransform], rfl, rfl⟩
  last := by
    rintro i j - ⟨e, he, rfl, rfl⟩
    simp only [exPoseTreeTransform, List.mem_cons, List.not_mem_nil, or_false] at he
    rcases he with rfl | rfl <;> decide

/-- A solver for this character that moves the hips only. -/
noncomputable def exHipsSolver (target : Transform ℝ) (_ : Nat) (p : List ℝ) : List ℝ :=
  p.set 1 (target.translation.x - p.getD 0 0)

theorem exPoseTree_simplified {S : PoseTransformSolver} (h : PoseTransformSolver.make exPoseTree exPoseTreeTransform = some S) :
    S.numFull = 2 ∧ S.root = 1 ∧ S.toFull = [0, 1] ∧ S.transform.transform.cols = 2 ∧ (∀ k < 2, S.rigid.mem k = true) ∧
      ∀ a b, S.rootAt [a, b] = some (shiftX (a + b)) ∧
        ∃ tq, characterPose S.skeleton S.transform [a, b] = some tq ∧ tq[1]? = some (shiftX (a + b)) := by
  obtain ⟨n, keep, hS⟩ := make_spec exPoseTree_character h
  have hroot := lastRigid_root hS exPoseTree_last
  have hn : n = 2 := by have h1 := hS.root; have h2 := hS.pos; omega
  subst hn
  have hk0 : keep.mem 0 = true := (hS.keep_mem 0).2 ⟨⟨0, 0, 1⟩, by simp [exPoseTreeTransform], rfl, by decide⟩
  have hk1 : keep.mem 1 = true := (hS.keep_mem 1).2 ⟨⟨7, 1, 1⟩, by simp [exPoseTreeTransform], rfl, by decide⟩
  have hkept : keptParams keep 2 = [0, 1] := by simp [keptParams, List.range_succ, hk0, hk1]
  have hcols : exPoseTreeTransform.transform.cols = 2 := rfl
  refine ⟨hS.numFull, hroot, by rw [hS.toFull, hcols, hkept], by rw [hS.cols, hcols, hkept]; rfl, fun k hk => ?_, fun a b => ?_⟩
  · refine (hS.rigid k).2 ⟨k, ?_, (exPoseTree_rigid k).2 hk⟩
    rw [hcols, hkept]
    match k, hk with
    | 0, _ => rfl
    | 1, _ => rfl
  · obtain ⟨ts, T, h1, h2, h3, tq, h4, h5⟩ := hS.rootAt exPoseTree_character (p := [a, b]) rfl
    have hr : restrictTo keep [a, b] = [a, b] := by
      rw [restrictTo_map]
      show (keptParams keep 2).map _ = _
      rw [hkept]; rfl
    rw [exPoseTree_pose] at h1
    cases h1
    rw [hroot] at h2 h5
    cases h2
    rw [hr] at h3 h4
    exact ⟨h3, tq, h4, h5⟩

theorem exHips_finds {S : PoseTransformSolver} (h : PoseTransformSolver.make exPoseTree exPoseTreeTransform = some S) :
    FindsPlacement S.skeleton S.transform S.root (fun k => S.rigid.mem k = true) exHipsSolver := by
  obtain ⟨-, h1, -, h2, h3, h4⟩ := exPoseTree_simplified h
  intro target i p hp
  rw [h2] at hp
  obtain ⟨a, b, rfl⟩ := List.length_eq_two.1 hp
  refine ⟨⟨rfl, fun k hk => ?_⟩, ?_⟩
  · match k with
    | 0 => rfl
    | 1 => exact absurd (h3 1 (by decide)) hk
    | k + 2 => rfl
  · rintro ⟨q, hq, ts, T, g1, g2, g3, g4⟩
    obtain ⟨x, y, rfl⟩ := List.length_eq_two.1 (hq.1.trans hp)
    obtain ⟨-, tq, h5, h6⟩ := h4 x y
    rw [h5] at g1; cases g1
    rw [h1, h6] at g2; cases g2
    obtain ⟨-, tq', h7, h8⟩ := h4 a (target.translation.x - a)
    rw [h1]
    refine ⟨tq', _, h7, h8, ?_, g4⟩
    rw [← g3]
    show (⟨a + ((⟨x + y, 0, 0⟩ : Vec3 ℝ).x - a), 0, 0⟩ : Vec3 ℝ) = ⟨x + y, 0, 0⟩
    simp

theorem exTree_run (rng : Nat → Nat → Nat → ℝ) (cont : Bool) :
    transformPoses exPoseTree exPoseTreeTransform (fun _ => exHipsSolver) rng [[0, 0]] [shiftX 1] cont = some [[0, 1]] := by
  obtain ⟨S, hS⟩ := make_defined exPoseTree_character exPoseTree_last
  obtain ⟨h0, h1, h2, h3, h4, h5⟩ := exPoseTree_simplified hS
  unfold transformPoses
  rw [if_pos (.inl rfl), hS, Option.bind_some]
  show (List.range 1).foldlM _ _ = _
  have hrun : S.transformPose exHipsSolver (rng 0) [0, 0] (shiftX 1) [] = some [0, 1] := by
    unfold PoseTransformSolver.transformPose
    rw [if_pos ⟨by rw [h0]; rfl, .inr rfl⟩, h2]
    have e : List.mapM (fun i => ([0, 0] : List ℝ)[i]?) [0, 1] = some [0, 0] := rfl
    rw [e, Option.bind_some, (h5 0 0).1, Option.bind_some, if_pos (by rfl : ([] : List ℝ).length = 0), shiftX_mul]
    have e2 : exHipsSolver (shiftX (1 + (0 + 0))) 0 [0, 0] = [0, 1] := by
      simp [exHipsSolver, shiftX]
    rw [PoseTransformSolver.restartLoop, e2, (h5 0 1).1, Option.bind_some]
    have e3 : (shiftX (0 + 1)).rotation.toMat = (shiftX (1 + (0 + 0))).rotation.toMat := rfl
    rw [e3, matDistance_self, if_pos (by norm_num)]
    have t0 := PoseTransformSolver.test_true.2 (h4 0 (by decide))
    have t1 := PoseTransformSolver.test_true.2 (h4 1 (by decide))
    show some ((List.range 2).foldl _ _) = _
    simp [List.range_succ, PoseTransformSolver.writeStep, t0, t1, h2]
  have hstep : transformFrame S (fun _ => exHipsSolver) rng [[0, 0]] [shiftX 1] cont [] 0 = some [[0, 1]] := by
    simp [transformFrame, hrun]
  rw [show List.range 1 = [0] from rfl, List.foldlM_cons, hstep]; rfl

/-- The hypotheses of `C74_transformed_partial` hold for this character, and the theorem gives the pose of the joints below the hips. -/
example : ∃ (out : List (List ℝ)) (p' : List ℝ) (new : List (Transform ℝ)), transformPoses exPoseTree exPoseTreeTransform
    (fun _ => exHipsSolver) (fun _ _ _ => 0) [[0, 0]] [shiftX 1] true = some out ∧ out[0]? = some p' ∧
      characterPose exPoseTree exPoseTreeTransform p' = some new ∧ ∃ newJ, new[1]? = some newJ ∧
        ∀ v, newJ.transformPoint v = (shiftX 1).transformPoint v := by
  obtain ⟨p', new, h1, h2, h3⟩ := C74_transformed_partial (rng := fun _ _ _ => 0) (cont := true) exPoseTree_character exPoseTree_last
    (by
      intro e he _
      simp only [exPoseTreeTransform, List.mem_cons, List.not_mem_nil, or_false] at he
      rcases he with rfl | rfl <;> decide)
    (fun S hS f => exHips_finds hS) (exTree_run _ _) (f := 0) (p := [0, 0]) rfl (by simp) (t := shiftX 1) rfl
    (by simp [shiftX, Quat.normSq]) rfl (exPoseTree_pose 0 0) (oldRoot := shiftX (0 + 0)) rfl
    ⟨[1, 0], ⟨rfl, fun k hk => by
      match k with
      | 0 => exact absurd ((exPoseTree_rigid 0).2 (by decide)) hk
      | 1 => rfl
      | k + 2 => rfl⟩, _, _, exPoseTree_pose 1 0, rfl, by rw [shiftX_mul]; simp [SamePlacement, shiftX]⟩
  obtain ⟨oldJ, newJ, h4, h5, h6⟩ := h3 1 (by decide) .refl
  cases h4
  refine ⟨_, p', new, exTree_run _ _, h1, h2, newJ, h5, fun v => ?_⟩
  rw [h6]
  congr 1
  show (⟨0 + 0, 0, 0⟩ : Vec3 ℝ) + (⟨1, 0, 0, 0⟩ : Quat ℝ).rotate ((1 : ℝ) • v) = v
  rw [one_rotate]
  ext <;> simp

/-- The other theorems apply to this call too. -/
example : ∃ p' : List ℝ, [[(0 : ℝ), 1]][0]? = some p' ∧ p'.length = 2 :=
  let ⟨p', h1, h2, _⟩ := (C74_other_parameters_kept (rng := fun _ _ _ => 0) exPoseTree_character (exTree_run _ true)).2 0 [0, 0] rfl
  ⟨p', h1, h2⟩

example := C74_relative_pose_kept (rng := fun _ _ _ => 0) exPoseTree_character exPoseTree_last (exTree_run _ true) (f := 0)
  (p := [0, 0]) rfl (by simp) (j := 1) .refl (by decide)

example := C74_defined (solve := fun _ _ _ p => p) exPoseTree_character exPoseTree_last (ts := [shiftX 1]) (ps := [[0, 0], [], [1, 2]])
  (.inl rfl) (by simp [exPoseTreeTransform]) (fun _ _ _ _ => rfl) (fun _ _ _ => 0) true

/-- A character is not always moved as a whole.  Here the rigid parameters can move every joint by the requested transform, and the
solver finds a placement, but the arm stays where it was: it hangs from a joint above the last rigid one. -/
theorem C74_other_branch_wrong : ∃ (s : Skeleton ℝ) (pt : ParameterTransform ℝ) (solve : Transform ℝ → Nat → List ℝ → List ℝ)
    (p p' q : List ℝ) (t : Transform ℝ) (old new goal : List (Transform ℝ)), PoseCharacter s pt ∧
      (∀ S, PoseTransformSolver.make s pt = some S →
        FindsPlacement S.skeleton S.transform S.root (fun k => S.rigid.mem k = true) solve) ∧
      (∀ rng, transformPoses s pt (fun _ => solve) rng [p] [t] true = some [p']) ∧
      characterPose s pt p = some old ∧ characterPose s pt p' = some new ∧
      AgreeOutside (RigidParameter pt) p q ∧ characterPose s pt q = some goal ∧ goal = old.map (t * ·) ∧
      new[2]? = old[2]? ∧ new[2]? ≠ goal[2]? := by
  refine ⟨exPoseTree, exPoseTreeTransform, exHipsSolver, [0, 0], [0, 1], [1, 0], shiftX 1, _, _, _, exPoseTree_character,
    fun S hS => exHips_finds hS, fun rng => exTree_run rng true, exPoseTree_pose 0 0, exPoseTree_pose 0 1, ⟨rfl, fun k hk => ?_⟩,
    exPoseTree_pose 1 0, ?_, rfl, ?_⟩
  · match k with
    | 0 => exact absurd ((exPoseTree_rigid 0).2 (by decide)) hk
    | 1 => rfl
    | k + 2 => rfl
  · simp [shiftX_mul]
  · simp [shiftX]

/-- One joint with one parameter, that moves it along x. -/
def exPoseOne : Skeleton ℝ := ⟨[⟨"root", none, ⟨1, 0, 0, 0⟩, ⟨0, 0, 0⟩⟩]⟩

noncomputable def exPoseOneTransform : ParameterTransform ℝ :=
  ⟨["root_tx"], ⟨7, 1, [⟨0, 0, 1⟩]⟩, List.replicate 7 0, [], [], [], [], []⟩

theorem exPoseOne_pose (a : ℝ) : characterPose exPoseOne exPoseOneTransform [a] = some [shiftX a] := by
  have hap : exPoseOneTransform.apply [a] = some [a, 0, 0, 0, 0, 0, 0] := by
    simp [ParameterTransform.apply, exPoseOneTransform, addVec, SparseMat.mulVec, rowSum, List.range_succ, List.replicate_succ]
  unfold characterPose
  rw [hap, Option.bind_some]
  unfold skeletonState exPoseOne
  rw [if_pos (by simp)]
  simp only [List.foldlM_cons, List.foldlM_nil, skeletonStep, Option.bind_eq_bind, Option.bind_some, List.nil_append,
    Option.map_some, Option.pure_def, List.map_cons, List.map_nil]
  have h := set_shift "root" none (jointSlice [a, 0, 0, 0, 0, 0, 0] 0) none rfl rfl rfl rfl rfl rfl
  refine congrArg some (List.cons_eq_cons.2 ⟨?_, rfl⟩)
  exact (congrArg (Transform.one * ·) h).trans (one_mul' _)

theorem exPoseOne_rigid (i : Nat) : RigidParameter exPoseOneTransform i ↔ i < 1 := by
  unfold RigidParameter exPoseOneTransform
  constructor
  · rintro ⟨nm, h, -⟩
    exact (List.getElem?_eq_some_iff.1 h).1
  · intro h
    match i, h with
    | 0, _ => exact ⟨"root_tx", rfl, .inl (by decide +kernel)⟩

theorem exPoseOne_character : PoseCharacter exPoseOne exPoseOneTransform where
  skeleton := by
    intro j jt p hj hp
    match j, hj with
    | 0, hj => cases hj; cases hp
    | j + 1, hj => cases hj
  unit := by
    intro jt hjt
    simp only [exPoseOne, List.mem_cons, List.not_mem_nil, or_false] at hjt
    subst hjt; simp [Quat.normSq]
  valid := {
    names := rfl
    bound := by decide
    offs := by simp [exPoseOneTransform]
    wf := by
      intro e he
      simp only [exPoseOneTransform, List.mem_cons, List.not_mem_nil, or_false] at he
      subst he; decide
    constraints := by simp [exPoseOneTransform]
    blend := by simp [exPoseOneTransform]
    face := by simp [exPoseOneTransform]
    lims := by simp }
  rows := rfl
  names := by simp [exPoseOneTransform]

theorem exPoseOne_last : LastRigidJoint exPoseOneTransform 0 where
  moved := ⟨0, (exPoseOne_rigid 0).2 (by decide), ⟨0, 0, 1⟩, by simp [exPoseOneTransform], rfl, rfl⟩
  last := by
    rintro i j - ⟨e, he, rfl, rfl⟩
    simp only [exPoseOneTransform, List.mem_cons, List.not_mem_nil, or_false] at he
    subst he; decide

theorem exPoseOne_simplified {S : PoseTransformSolver} (h : PoseTransformSolver.make exPoseOne exPoseOneTransform = some S) :
    S.numFull = 1 ∧ S.toFull = [0] ∧ S.rigid.mem 0 = true ∧ ∀ a, S.rootAt [a] = some (shiftX a) := by
  obtain ⟨n, keep, hS⟩ := make_spec exPoseOne_character h
  have hroot := lastRigid_root hS exPoseOne_last
  have hn : n = 1 := by have h1 := hS.root; have h2 := hS.pos; omega
  subst hn
  have hk0 : keep.mem 0 = true := (hS.keep_mem 0).2 ⟨⟨0, 0, 1⟩, by simp [exPoseOneTransform], rfl, by decide⟩
  have hkept : keptParams keep 1 = [0] := by simp [keptParams, List.range_succ, hk0]
  have hcols : exPoseOneTransform.transform.cols = 1 := rfl
  refine ⟨hS.numFull, by rw [hS.toFull, hcols, hkept], ?_, fun a => ?_⟩
  · exact (hS.rigid 0).2 ⟨0, by rw [hcols, hkept]; rfl, (exPoseOne_rigid 0).2 (by decide)⟩
  · obtain ⟨ts, T, h1, h2, h3, -⟩ := hS.rootAt exPoseOne_character (p := [a]) rfl
    have hr : restrictTo keep [a] = [a] := by
      rw [restrictTo_map]
      show (keptParams keep 1).map _ = _
      rw [hkept]; rfl
    rw [exPoseOne_pose] at h1
    cases h1
    rw [hroot] at h2
    cases h2
    rw [hr] at h3
    exact h3

theorem exPoseOne_loop {S : PoseTransformSolver} (hmem : S.rigid.mem 0 = true) (hroot : ∀ a, S.rootAt [a] = some (shiftX a))
    {solve : Transform ℝ → Nat → List ℝ → List ℝ} (hsolve : ∀ t i p, (solve t i p).length = p.length) (rng : Nat → Nat → ℝ)
    {target : Transform ℝ} (ht : target.rotation = ⟨0, 0, 0, 1⟩) (fuel : Nat) :
    ∀ (i : Nat) (a : ℝ), S.restartLoop solve rng target (fuel + 1) i [a] = some [rng (i + fuel) 0] := by
  have hbig : ∀ b, ¬PoseTransformSolver.matDistance (shiftX b).rotation.toMat target.rotation.toMat < 1 / 1000 := by
    intro b
    rw [ht, not_lt]
    have : PoseTransformSolver.matDistance (shiftX b).rotation.toMat (Quat.toMat ⟨0, 0, 0, 1⟩) = Real.sqrt 8 := by
      unfold PoseTransformSolver.matDistance
      congr 1
      simp [shiftX, Quat.toMat]
      norm_num
    rw [this]
    refine Real.le_sqrt_of_sq_le ?_
    norm_num
  have hr : ∀ (x : Nat → ℝ) (b : ℝ), S.randomize x [b] = [x 0] := by
    intro x b
    simp [PoseTransformSolver.randomize, PoseTransformSolver.test_true.2 hmem]
  induction fuel with
  | zero =>
    intro i a
    obtain ⟨b, hb⟩ := List.length_eq_one_iff.1 (show (solve target i [a]).length = 1 from hsolve _ _ _)
    rw [PoseTransformSolver.restartLoop, hb, hroot, Option.bind_some, if_neg (hbig b), hr]; rfl
  | succ fuel ih =>
    intro i a
    obtain ⟨b, hb⟩ := List.length_eq_one_iff.1 (show (solve target i [a]).length = 1 from hsolve _ _ _)
    rw [PoseTransformSolver.restartLoop, hb, hroot, Option.bind_some, if_neg (hbig b), hr, ih]
    rw [show i + 1 + fuel = i + (fuel + 1) by omega]

/-- If no parameters give the requested orientation, the call returns a random placement, whatever the solver found: the joint here can
only move along x, and a half turn about z is requested. -/
theorem C74_gives_up_random (solve : Transform ℝ → Nat → List ℝ → List ℝ) (hsolve : ∀ t i p, (solve t i p).length = p.length)
    (rng : Nat → Nat → Nat → ℝ) (cont : Bool) (x : ℝ) :
    transformPoses exPoseOne exPoseOneTransform (fun _ => solve) rng [[x]] [⟨⟨0, 0, 0, 1⟩, ⟨0, 0, 0⟩, 1⟩] cont =
        some [[rng 0 10000 0]] ∧
      characterPose exPoseOne exPoseOneTransform [rng 0 10000 0] = some [shiftX (rng 0 10000 0)] := by
  refine ⟨?_, exPoseOne_pose _⟩
  obtain ⟨S, hS⟩ := make_defined exPoseOne_character exPoseOne_last
  obtain ⟨h0, h2, h4, h5⟩ := exPoseOne_simplified hS
  unfold transformPoses
  rw [if_pos (.inl rfl), hS, Option.bind_some]
  show (List.range 1).foldlM _ _ = _
  have hrun : S.transformPose solve (rng 0) [x] ⟨⟨0, 0, 0, 1⟩, ⟨0, 0, 0⟩, 1⟩ [] = some [rng 0 10000 0] := by
    unfold PoseTransformSolver.transformPose
    rw [if_pos ⟨by rw [h0]; rfl, .inr rfl⟩, h2]
    have e : List.mapM (fun i => ([x] : List ℝ)[i]?) [0] = some [x] := rfl
    rw [e, Option.bind_some, h5 x, Option.bind_some, if_pos (by rfl : ([] : List ℝ).length = 0),
      exPoseOne_loop h4 h5 hsolve (rng 0) (by
        show (⟨0, 0, 0, 1⟩ : Quat ℝ) * ⟨1, 0, 0, 0⟩ = _
        ext <;> simp) 10000 0 x]
    have t0 := PoseTransformSolver.test_true.2 h4
    show some ((List.range 1).foldl _ _) = _
    simp [List.range_succ, PoseTransformSolver.writeStep, t0, h2]
  have hstep : transformFrame S (fun _ => solve) rng [[x]] [⟨⟨0, 0, 0, 1⟩, ⟨0, 0, 0⟩, 1⟩] cont [] 0 = some [[rng 0 10000 0]] := by
    simp [transformFrame, hrun]
  rw [show List.range 1 = [0] from rfl, List.foldlM_cons, hstep]; rfl

/-- The position is never looked at: a translation that the parameters cannot make is ignored without notice.  Here the joint can only
move along x, and a translation along y is requested. -/
theorem C74_position_unchecked (rng : Nat → Nat → Nat → ℝ) (cont : Bool) (x : ℝ) :
    transformPoses exPoseOne exPoseOneTransform (fun _ _ _ p => p) rng [[x]] [⟨⟨1, 0, 0, 0⟩, ⟨0, 5, 0⟩, 1⟩] cont = some [[x]] := by
  obtain ⟨S, hS⟩ := make_defined exPoseOne_character exPoseOne_last
  obtain ⟨h0, h2, h4, h5⟩ := exPoseOne_simplified hS
  unfold transformPoses
  rw [if_pos (.inl rfl), hS, Option.bind_some]
  show (List.range 1).foldlM _ _ = _
  have hrun : S.transformPose (fun _ _ p => p) (rng 0) [x] ⟨⟨1, 0, 0, 0⟩, ⟨0, 5, 0⟩, 1⟩ [] = some [x] := by
    unfold PoseTransformSolver.transformPose
    rw [if_pos ⟨by rw [h0]; rfl, .inr rfl⟩, h2]
    have e : List.mapM (fun i => ([x] : List ℝ)[i]?) [0] = some [x] := rfl
    rw [e, Option.bind_some, h5 x, Option.bind_some, if_pos (by rfl : ([] : List ℝ).length = 0),
      PoseTransformSolver.restartLoop, h5 x, Option.bind_some]
    have e3 : ((⟨⟨1, 0, 0, 0⟩, ⟨0, 5, 0⟩, 1⟩ : Transform ℝ) * shiftX x).rotation = (shiftX x).rotation := by
      show (⟨1, 0, 0, 0⟩ : Quat ℝ) * ⟨1, 0, 0, 0⟩ = ⟨1, 0, 0, 0⟩
      ext <;> simp
    rw [e3, matDistance_self, if_pos (by norm_num)]
    have t0 := PoseTransformSolver.test_true.2 h4
    show some ((List.range 1).foldl _ _) = _
    simp [List.range_succ, PoseTransformSolver.writeStep, t0, h2]
  have hstep : transformFrame S (fun _ _ _ p => p) rng [[x]] [⟨⟨1, 0, 0, 0⟩, ⟨0, 5, 0⟩, 1⟩] cont [] 0 = some [[x]] := by
    simp [transformFrame, hrun]
  rw [show List.range 1 = [0] from rfl, List.foldlM_cons, hstep]; rfl

end Momentum
