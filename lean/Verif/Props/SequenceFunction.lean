import Verif.Lemmas.SequenceFunction

/-!
# C62: the objective of a sequence
-/

namespace Momentum
namespace SequenceFunction
open Finset

/-! ### Parameter sets -/

theorem sets_fold (un active : Nat → Bool) (n : Nat) :
    (∀ i, i ∈ ((List.range n).foldl (setsStep un active) ([], [])).1 ↔ i < n ∧ active i = true ∧ un i = false) ∧
    (∀ i, i ∈ ((List.range n).foldl (setsStep un active) ([], [])).2 ↔ i < n ∧ active i = true ∧ un i = true) ∧
    ((List.range n).foldl (setsStep un active) ([], [])).1.Pairwise (· < ·) ∧
    ((List.range n).foldl (setsStep un active) ([], [])).2.Pairwise (· < ·) := by
  induction n with
  | zero => simp
  | succ n ih =>
    obtain ⟨h1, h2, h3, h4⟩ := ih
    rw [List.range_succ, List.foldl_append, List.foldl_cons, List.foldl_nil]
    generalize (List.range n).foldl (setsStep un active) ([], []) = s at *
    unfold setsStep
    by_cases ha : active n = true
    · rw [if_pos ha]
      by_cases hu : un n = true
      · rw [if_pos hu]
        refine ⟨fun i => ?_, fun i => ?_, h3, ?_⟩
        · simp only [h1]
          constructor
          · rintro ⟨a, b⟩; exact ⟨by omega, b⟩
          · rintro ⟨a, b, c⟩
            have : i ≠ n := by rintro rfl; rw [hu] at c; exact Bool.noConfusion c
            exact ⟨by omega, b, c⟩
        · simp only [List.mem_append, h2, List.mem_singleton]
          constructor
          · rintro (⟨a, b⟩ | rfl)
            · exact ⟨by omega, b⟩
            · exact ⟨by omega, ha, hu⟩
          · rintro ⟨a, b⟩
            by_cases hi : i = n
            · exact Or.inr hi
            · exact Or.inl ⟨by omega, b⟩
        · simp only [List.pairwise_append, h4, List.pairwise_singleton, List.mem_singleton, true_and]
          intro a ha b hb
          rw [hb]; exact ((h2 a).1 ha).1
      · rw [if_neg hu]
        have hu' : un n = false := by simpa using hu
        refine ⟨fun i => ?_, fun i => ?_, ?_, h4⟩
        · simp only [List.mem_append, h1, List.mem_singleton]
          constructor
          · rintro (⟨a, b⟩ | rfl)
            · exact ⟨by omega, b⟩
            · exact ⟨by omega, ha, hu'⟩
          · rintro ⟨a, b⟩
            by_cases hi : i = n
            · exact Or.inr hi
            · exact Or.inl ⟨by omega, b⟩
        · simp only [h2]
          constructor
          · rintro ⟨a, b⟩; exact ⟨by omega, b⟩
          · rintro ⟨a, b, c⟩
            have : i ≠ n := by rintro rfl; exact hu c
            exact ⟨by omega, b, c⟩
        · simp only [List.pairwise_append, h3, List.pairwise_singleton, List.mem_singleton, true_and]
          intro a ha b hb
          rw [hb]; exact ((h1 a).1 ha).1
    · rw [if_neg ha]
      have hne : ∀ i, active i = true → i ≠ n := by rintro i hi rfl; exact ha hi
      refine ⟨fun i => ?_, fun i => ?_, h3, h4⟩
      · rw [h1]
        exact ⟨fun ⟨a, b⟩ => ⟨by omega, b⟩, fun ⟨a, b⟩ => ⟨by have := hne i b.1; omega, b⟩⟩
      · rw [h2]
        exact ⟨fun ⟨a, b⟩ => ⟨by omega, b⟩, fun ⟨a, b⟩ => ⟨by have := hne i b.1; omega, b⟩⟩

/-- **C62** (which parameters are solved for): after construction all parameters, and after `setEnabledParameters` the enabled
ones, each either once for all frames or once per frame. -/
theorem C62_sets : (∀ np un nFrames, (make np un nFrames).Sets fun _ => true) ∧
    ∀ (S : SequenceFunction) ps active activeSeq, (S.setEnabledParameters ps active activeSeq).Sets ps := by
  refine ⟨fun np un nFrames => ?_, fun S ps active activeSeq => ?_⟩
  · obtain ⟨h1, h2, h3, h4⟩ := sets_fold un (fun _ => true) np
    exact ⟨h1, h2, h3, h4⟩
  · obtain ⟨h1, h2, h3, h4⟩ := sets_fold S.universalParameters ps S.np
    exact ⟨h1, h2, h3, h4⟩

variable {S : SequenceFunction} {active : Nat → Bool}

/-! ### Joining and splitting -/

/-- **C62** (splitting): `setJoinedParameterVector` gives every parameter of a frame the entry that stands for it, in particular
a universal parameter the same value in all frames, and leaves the others. -/
theorem C62_split (h : S.Sets active) (v : Nat → ℝ) :
    (∀ j f i, S.StandsFor j f i → (S.setJoined v).frames f i = v j) ∧
    (∀ f i, active i = false → (S.setJoined v).frames f i = S.frames f i) ∧
    ∀ i < S.np, active i = true → S.universalParameters i = true → ∀ f < S.nFrames, ∀ f' < S.nFrames,
      (S.setJoined v).frames f i = (S.setJoined v).frames f' i := by
  refine ⟨fun j f i hj => (setJoined_frames h v f i).1 j hj, fun f i hi => (setJoined_frames h v f i).2 fun j hj => ?_, ?_⟩
  · obtain ⟨-, ⟨k, hk, -⟩ | ⟨k, hk, -⟩⟩ := hj
    · have := ((h.perFrame i).1 (List.mem_of_getElem? hk)).2.1
      rw [hi] at this; exact Bool.noConfusion this
    · have := ((h.universal i).1 (List.mem_of_getElem? hk)).2.1
      rw [hi] at this; exact Bool.noConfusion this
  · intro i hi ha hu f hf f' hf'
    obtain ⟨k, hk⟩ := List.getElem?_of_mem ((h.universal i).2 ⟨hi, ha, hu⟩)
    rw [(setJoined_frames h v f i).1 _ ⟨hf, Or.inr ⟨k, hk, rfl⟩⟩, (setJoined_frames h v f' i).1 _ ⟨hf', Or.inr ⟨k, hk, rfl⟩⟩]

/-- Every entry of the joined vector stands for something. -/
theorem standsFor_of_lt (hn : S.nFrames ≠ 0) {j : Nat} (hj : j < S.numParameters) : ∃ f i, S.StandsFor j f i := by
  unfold numParameters at hj
  by_cases h1 : j < S.perFrame.length * S.nFrames
  · have hP : 0 < S.perFrame.length := by
      rcases Nat.eq_zero_or_pos S.perFrame.length with e | e
      · rw [e, zero_mul] at h1; omega
      · exact e
    have hk : j % S.perFrame.length < S.perFrame.length := Nat.mod_lt _ hP
    refine ⟨j / S.perFrame.length, S.perFrame[j % S.perFrame.length], ?_, Or.inl ⟨j % S.perFrame.length,
      List.getElem?_eq_getElem hk, (Nat.div_add_mod j _).symm⟩⟩
    exact Nat.div_lt_of_lt_mul h1
  · have hk : j - S.perFrame.length * S.nFrames < S.universal.length := by omega
    exact ⟨0, S.universal[j - S.perFrame.length * S.nFrames], by omega, Or.inr ⟨_, List.getElem?_eq_getElem hk, by omega⟩⟩

/-- What `getJoinedParameterVectorFromFrameParameters` computes. -/
theorem joined_eq (frames : Nat → Nat → ℝ) (hn : S.nFrames ≠ 0) :
    ∃ res, S.joined frames = some res ∧
      (∀ f < S.nFrames, ∀ k i, S.perFrame[k]? = some i → res (S.perFrame.length * f + k) = frames f i) ∧
      (∀ k i, S.universal[k]? = some i → res (S.perFrame.length * S.nFrames + k) = frames 0 i) ∧
      ∀ j, S.numParameters ≤ j → res j = 0 := by
  have get : ∀ {l : List Nat} {k i : Nat}, l[k]? = some i → l.getD k 0 = i := by
    intro l k i hk
    rw [List.getD_eq_getElem?_getD, hk]; rfl
  have key : ∀ n ≤ S.nFrames,
      (∀ f < n, ∀ k i, S.perFrame[k]? = some i →
        (List.range n).foldl (fun res f => joinFrame S.perFrame (frames f) f res) (fun _ => 0) (S.perFrame.length * f + k) =
          frames f i) ∧
      ∀ j, S.perFrame.length * n ≤ j →
        (List.range n).foldl (fun res f => joinFrame S.perFrame (frames f) f res) (fun _ => 0) j = 0 := by
    intro n
    induction n with
    | zero => intro _; exact ⟨fun f hf => by omega, fun j _ => rfl⟩
    | succ n ih =>
      intro hle
      obtain ⟨h1, h2⟩ := ih (by omega)
      rw [List.range_succ, List.foldl_append, List.foldl_cons, List.foldl_nil]
      generalize (List.range n).foldl (fun res f => joinFrame S.perFrame (frames f) f res) (fun _ => 0) = r at *
      have hj : ∀ j, joinFrame S.perFrame (frames n) n r j =
          if S.perFrame.length * n ≤ j ∧ j < S.perFrame.length * n + S.perFrame.length then
            frames n (S.perFrame.getD (j - S.perFrame.length * n) 0) else r j := by
        intro j
        exact fold_shift (S.perFrame.length * n) S.perFrame.length (fun k _ => frames n (S.perFrame.getD k 0)) r j
      refine ⟨fun f hf k i hk => ?_, fun j hjn => ?_⟩
      · have hkl := (List.getElem?_eq_some_iff.1 hk).1
        rw [hj]
        by_cases hfn : f = n
        · subst hfn
          rw [if_pos (by omega), Nat.add_sub_cancel_left, get hk]
        · have := frame_range (P := S.perFrame.length) (show f < n by omega)
          rw [if_neg (by omega)]
          exact h1 f (by omega) k i hk
      · have : S.perFrame.length * (n + 1) = S.perFrame.length * n + S.perFrame.length := by ring
        rw [hj, if_neg (by omega), h2 j (by omega)]
  obtain ⟨h1, h2⟩ := key S.nFrames le_rfl
  have hu : ∀ r : Nat → ℝ, ∀ j, (List.range S.universal.length).foldl (fun res k =>
      Function.update res (S.perFrame.length * S.nFrames + k) (frames 0 (S.universal.getD k 0))) r j =
      if S.perFrame.length * S.nFrames ≤ j ∧ j < S.perFrame.length * S.nFrames + S.universal.length then
        frames 0 (S.universal.getD (j - S.perFrame.length * S.nFrames) 0) else r j := by
    intro r j
    exact fold_shift (S.perFrame.length * S.nFrames) S.universal.length (fun k _ => frames 0 (S.universal.getD k 0)) r j
  refine ⟨_, by unfold joined; exact if_neg fun hc => hn hc.1, fun f hf k i hk => ?_, fun k i hk => ?_, fun j hj => ?_⟩
  · have := slot_lt hf (List.getElem?_eq_some_iff.1 hk).1
    rw [hu, if_neg (by omega)]
    exact h1 f hf k i hk
  · have := (List.getElem?_eq_some_iff.1 hk).1
    rw [hu, if_pos (by omega), Nat.add_sub_cancel_left, get hk]
  · unfold numParameters at hj
    rw [hu, if_neg (by omega), h2 j (by omega)]

/-- **C62** (joining after splitting): the joined vector that was set is read back. -/
theorem C62_join_split (h : S.Sets active) (hn : S.nFrames ≠ 0) (v : Nat → ℝ) :
    ∃ w, (S.setJoined v).getJoinedParameterVector = some w ∧ ∀ j < S.numParameters, w j = v j := by
  obtain ⟨w, e, h1, h2, -⟩ := joined_eq (S := S.setJoined v) (S.setJoined v).frames hn
  refine ⟨w, e, fun j hj => ?_⟩
  obtain ⟨f, i, hs⟩ := standsFor_of_lt hn hj
  have := (C62_split h v).1 j f i hs
  obtain ⟨hf, ⟨k, hk, rfl⟩ | ⟨k, hk, rfl⟩⟩ := hs
  · rw [← this]; exact h1 f hf k i hk
  · rw [← (C62_split h v).1 _ 0 i ⟨by omega, Or.inr ⟨k, hk, rfl⟩⟩]; exact h2 k i hk

/-- **C62** (splitting after joining): frames that agree on the universal parameters are left as they are. -/
theorem C62_split_join (h : S.Sets active) (hn : S.nFrames ≠ 0)
    (hu : ∀ i ∈ S.universal, ∀ f < S.nFrames, S.frames f i = S.frames 0 i) :
    ∃ v, S.getJoinedParameterVector = some v ∧ ∀ f i, (S.setJoined v).frames f i = S.frames f i := by
  obtain ⟨v, e, h1, h2, -⟩ := joined_eq (S := S) S.frames hn
  refine ⟨v, e, fun f i => ?_⟩
  obtain ⟨a1, a2⟩ := setJoined_frames h v f i
  by_cases hx : ∃ j, S.StandsFor j f i
  · obtain ⟨j, hj⟩ := hx
    rw [a1 j hj]
    obtain ⟨hf, ⟨k, hk, rfl⟩ | ⟨k, hk, rfl⟩⟩ := hj
    · exact h1 f hf k i hk
    · rw [h2 k i hk, hu i (List.mem_of_getElem? hk) f hf]
  · exact a2 fun j hj => hx ⟨j, hj⟩

/-! ### Error, gradient and Jacobian -/

/-- **C62** (gradient): if every error function with positive weight reports its own derivative, the sequence reports the
derivative of its error in every entry of the joined vector. -/
theorem C62_gradient (h : S.Sets active) (hin : S.Inside) (v : Nat → ℝ) (j : Nat)
    (hF : ∀ f < S.nFrames, ∀ F ∈ S.frameErrors f, 0 < F.weight →
      ∀ i < S.np, active i = true → F.GradientIsDerivative ((S.setJoined v).frames f) i)
    (hact : ∃ i < S.np, active i = true)
    (hG : ∀ f < S.nFrames, ∀ F ∈ S.sequenceErrors f, 0 < F.weight →
      F.GradientIsDerivative S.np active (subspan (S.setJoined v).frames f F.numFrames)) :
    (S.getGradient v).1 = (S.getError v).1 ∧
      HasDerivAt (fun u => (S.getError (Function.update v j u)).1) ((S.getGradient v).2.1 j) (v j) := by
  have hT : ∀ T ∈ S.terms, (S.term T).GradientIsDerivative v j := by
    intro T hT
    rcases mem_terms.1 hT with ⟨F, e, hf, hm, hw⟩ | ⟨hf, hm, hw⟩
    · rw [e]
      obtain ⟨i0, hi0, ha0⟩ := hact
      exact term_gradient_frame h v j T.1 F (hF _ hf F hm hw i0 hi0 ha0).1 fun i hi =>
        hF _ hf F hm hw i (hi.lt h) (hi.enabled h)
    · exact term_gradient_seq h v j T (hG _ hf _ hm hw)
  obtain ⟨g1, g2⟩ := getGradient_eq h hin v
  rw [g1, g2, getError_eq]
  refine ⟨?_, ?_⟩
  · congr 1
    exact List.map_congr_left fun T hT' => (hT T hT').1
  · simp only [getError_eq]
    exact hasDerivAt_list_sum S.terms (fun T u => (S.term T).getError (Function.update v j u))
      (fun T => ((S.term T).getGradient v).2 j) (v j) fun T hT' => (hT T hT').2

theorem getJacobian_eq (h : S.Sets active) (hin : S.Inside) (v : Nat → ℝ) (b : Buffers) (hb : b.Fresh S) :
    let s := (S.terms.map S.term).foldl (fill v) ⟨0, 0, fun _ _ => 0, fun _ => 0⟩
    (S.getJacobian v b).1 = s.error ∧ (S.getJacobian v b).2.1 = S.jacobianSize ∧
      (S.getJacobian v b).2.2.1.e = s.e ∧ (S.getJacobian v b).2.2.1.residual = s.residual := by
  have hz : ((S.setJoined v).resizeBuffers b).e = (fun _ _ => 0) ∧ ((S.setJoined v).resizeBuffers b).residual = fun _ => 0 := by
    unfold resizeBuffers
    split_ifs with hc
    · exact ⟨rfl, rfl⟩
    · rcases hb with hb | hb
      · exact ⟨funext fun j => funext fun t => hb.1 j t, funext hb.2⟩
      · exact absurd hb hc
  have hc : (⟨0, 0, fun _ _ => 0, fun _ => 0⟩ : Fill).Clean := fun t _ => ⟨fun _ => rfl, rfl⟩
  have := jacFolds h hin v ⟨0, 0, fun _ _ => 0, fun _ => 0⟩ hc
  have hm : S.terms.foldl (fun s T => fill v s (S.term T)) ⟨0, 0, fun _ _ => 0, fun _ => 0⟩ =
      (S.terms.map S.term).foldl (fill v) ⟨0, 0, fun _ _ => 0, fun _ => 0⟩ := by rw [List.foldl_map]
  rw [hm] at this
  intro s
  unfold getJacobian
  simp only [hz.1, hz.2]
  simp only [show (S.setJoined v).nFrames = S.nFrames from rfl, show (S.setJoined v).frameErrors = S.frameErrors from rfl,
    show (S.setJoined v).sequenceErrors = S.sequenceErrors from rfl, this]
  exact ⟨rfl, rfl, rfl, rfl⟩

/-- **C62** (Jacobian): for fresh matrices, if every error function with positive weight is a sum of squares of residuals with
its Jacobian, the sequence has these properties as a function of the joined vector: the error is the squared length of the
residual, over the rows announced, and the columns of the Jacobian are the derivatives. -/
theorem C62_jacobian (h : S.Sets active) (hin : S.Inside) (v : Nat → ℝ) (j : Nat) (b : Buffers) (hb : b.Fresh S)
    (hF : ∀ f < S.nFrames, ∀ F ∈ S.frameErrors f, 0 < F.weight →
      ∀ i < S.np, active i = true → F.JacobianIsDerivative ((S.setJoined v).frames f) i)
    (hact : ∃ i < S.np, active i = true)
    (hG : ∀ f < S.nFrames, ∀ F ∈ S.sequenceErrors f, 0 < F.weight →
      F.JacobianIsDerivative S.np active (subspan (S.setJoined v).frames f F.numFrames)) :
    (S.getJacobian v b).1 = (S.getError v).1 ∧
    (∀ u, (S.getError (Function.update v j u)).1 = ∑ t ∈ range (S.getJacobian v b).2.1,
      (S.getJacobian (Function.update v j u) b).2.2.1.residual t ^ 2) ∧
    ∀ t < (S.getJacobian v b).2.1, HasDerivAt (fun u => (S.getJacobian (Function.update v j u) b).2.2.1.residual t)
      ((S.getJacobian v b).2.2.1.e j t) (v j) := by
  have hT : ∀ F ∈ S.terms.map S.term, F.JacobianIsDerivative v j := by
    intro G hG'
    obtain ⟨T, hT, rfl⟩ := List.mem_map.1 hG'
    rcases mem_terms.1 hT with ⟨F, e, hf, hm, hw⟩ | ⟨hf, hm, hw⟩
    · rw [e]
      obtain ⟨i0, hi0, ha0⟩ := hact
      have h0 := hF _ hf F hm hw i0 hi0 ha0
      refine term_jacobian_frame h v j T.1 F ⟨h0.error, h0.size, ?_⟩ fun i hi => hF _ hf F hm hw i (hi.lt h) (hi.enabled h)
      have := h0.squares ((S.setJoined v).frames T.1 i0)
      rwa [Function.update_eq_self] at this
    · exact term_jacobian_seq h v j T (hG _ hf _ hm hw)
  obtain ⟨f1, f2, f3, f4, f5⟩ := fills (S.terms.map S.term) v j hT
  obtain ⟨e1, e2, e3, e4⟩ := getJacobian_eq h hin v b hb
  have hsz : ((S.terms.map S.term).map ErrorFunction.jacobianSize).sum = S.jacobianSize := by
    rw [jacobianSize_eq, List.map_map]; rfl
  rw [hsz] at f2
  have clean : ∀ (w : Nat → ℝ), ((S.terms.map S.term).foldl (fill w) ⟨0, 0, fun _ _ => 0, fun _ => 0⟩).Clean := fun w =>
    (foldl_eq_of_inv Fill.Clean (fill w) (fill w) _ (fun _ _ _ _ => rfl) (fun s hs F => fill_clean hs F) _
      (fun t _ => ⟨fun _ => rfl, rfl⟩)).2
  have hres : ∀ u, (S.getJacobian (Function.update v j u) b).2.2.1.residual =
      ((S.terms.map S.term).foldl (fill (Function.update v j u)) ⟨0, 0, fun _ _ => 0, fun _ => 0⟩).residual := fun u =>
    (getJacobian_eq h hin (Function.update v j u) b hb).2.2.2
  have herr : ∀ w, (S.getError w).1 = ((S.terms.map S.term).map fun F => F.getError w).sum := by
    intro w; rw [getError_eq, List.map_map]; rfl
  rw [e1, e2, e3]
  refine ⟨by rw [f1, herr], fun u => ?_, fun t ht => ?_⟩
  · rw [herr, f4 u, hres]
    apply sum_subset (range_subset_range.2 f2)
    intro t _ ht
    rw [(clean (Function.update v j u) t (by rw [f3 u]; simpa using ht)).2]
    ring
  · simp only [hres]
    by_cases hp : t < ((S.terms.map S.term).foldl (fill v) ⟨0, 0, fun _ _ => 0, fun _ => 0⟩).position
    · exact f5 t hp
    · rw [(clean v t (by omega)).1]
      have : (fun u => ((S.terms.map S.term).foldl (fill (Function.update v j u)) ⟨0, 0, fun _ _ => 0, fun _ => 0⟩).residual t) =
          fun _ => 0 := by
        funext u
        exact (clean (Function.update v j u) t (by rw [f3 u]; omega)).2
      rw [this]
      exact hasDerivAt_const _ _

/-! ### Adding error functions -/

/-- **C62** (adding to one frame): a sequence error function that would reach past the end is refused; another one is added to
its frame, and what is added stays inside the sequence. -/
theorem C62_add_one (S : SequenceFunction) (f : Nat) (F : SeqErrorFunction) :
    (S.nFrames ≤ f ∨ S.nFrames < f + F.numFrames → S.addSequenceErrorFunction f F = none) ∧
    (f < S.nFrames → f + F.numFrames ≤ S.nFrames → ∃ S', S.addSequenceErrorFunction f F = some S' ∧
      S'.frameErrors = S.frameErrors ∧ S'.nFrames = S.nFrames ∧ (S.Inside → S'.Inside) ∧
      ∀ f', S'.sequenceErrors f' = S.sequenceErrors f' ++ if f' = f then [F] else []) := by
  unfold addSequenceErrorFunction
  refine ⟨fun h => if_neg (by omega), fun h1 h2 => ⟨_, if_pos ⟨h1, h2⟩, rfl, rfl, fun hin f' G hG => ?_, fun f' => ?_⟩⟩
  · by_cases hf : f' = f
    · subst hf
      simp only [Function.update_self, List.mem_append, List.mem_singleton] at hG
      rcases hG with hG | rfl
      · exact hin _ _ hG
      · exact h2
    · simp only [Function.update_of_ne hf] at hG
      exact hin _ _ hG
  · by_cases hf : f' = f
    · subst hf; simp
    · simp [Function.update_of_ne hf, hf]

/-- **C62** (adding): error functions added to all frames are added to each frame once; sequence error functions to every frame
from which on there are enough frames.  What is added stays inside the sequence. -/
theorem C62_add_all (S : SequenceFunction) :
    (∀ F, ∃ S', S.addErrorFunctionAll F = some S' ∧ S'.sequenceErrors = S.sequenceErrors ∧ S'.nFrames = S.nFrames ∧
      ∀ f, S'.frameErrors f = S.frameErrors f ++ if f < S.nFrames then [F] else []) ∧
    ∀ F, F.numFrames ≠ 0 → ∃ S', S.addSequenceErrorFunctionAll F = some S' ∧ S'.frameErrors = S.frameErrors ∧
      S'.nFrames = S.nFrames ∧ (S.Inside → S'.Inside) ∧
      ∀ f, S'.sequenceErrors f = S.sequenceErrors f ++ if f + F.numFrames ≤ S.nFrames then [F] else [] := by
  constructor
  · intro F
    have key : ∀ n ≤ S.nFrames, ∃ S', (List.range n).foldlM (fun S f => S.addErrorFunction f F) S = some S' ∧
        S'.sequenceErrors = S.sequenceErrors ∧ S'.nFrames = S.nFrames ∧
        ∀ f, S'.frameErrors f = S.frameErrors f ++ if f < n then [F] else [] := by
      intro n
      induction n with
      | zero => intro _; exact ⟨S, rfl, rfl, rfl, fun f => by simp⟩
      | succ n ih =>
        intro hn
        obtain ⟨S', e, h1, h2, h3⟩ := ih (by omega)
        rw [List.range_succ, List.foldlM_append, e]
        refine ⟨{ S' with frameErrors := Function.update S'.frameErrors n (S'.frameErrors n ++ [F]) }, ?_, h1, h2, fun f => ?_⟩
        · simp [addErrorFunction, h2, show n < S.nFrames by omega]
        · by_cases hf : f = n
          · subst hf; simp [h3]
          · simp only [Function.update_of_ne hf, h3]
            congr 1
            exact if_congr (by omega) rfl rfl
    exact key _ le_rfl
  · intro F hF
    unfold addSequenceErrorFunctionAll
    by_cases hle : F.numFrames ≤ S.nFrames
    · rw [if_pos hle]
      have key : ∀ n ≤ S.nFrames - F.numFrames + 1,
          ∃ S', (List.range n).foldlM (fun S f => S.addSequenceErrorFunction f F) S = some S' ∧
          S'.frameErrors = S.frameErrors ∧ S'.nFrames = S.nFrames ∧
          ∀ f, S'.sequenceErrors f = S.sequenceErrors f ++ if f < n then [F] else [] := by
        intro n
        induction n with
        | zero => intro _; exact ⟨S, rfl, rfl, rfl, fun f => by simp⟩
        | succ n ih =>
          intro hn
          obtain ⟨S', e, h1, h2, h3⟩ := ih (by omega)
          rw [List.range_succ, List.foldlM_append, e]
          refine ⟨{ S' with sequenceErrors := Function.update S'.sequenceErrors n (S'.sequenceErrors n ++ [F]) }, ?_, h1, h2,
            fun f => ?_⟩
          · simp [addSequenceErrorFunction, h2, show n < S.nFrames by omega, show n + F.numFrames ≤ S.nFrames by omega]
          · by_cases hf : f = n
            · subst hf; simp [h3]
            · simp only [Function.update_of_ne hf, h3]
              congr 1
              exact if_congr (by omega) rfl rfl
      obtain ⟨S', e, h1, h2, h3⟩ := key _ le_rfl
      have h4 : ∀ f, S'.sequenceErrors f = S.sequenceErrors f ++ if f + F.numFrames ≤ S.nFrames then [F] else [] := by
        intro f
        rw [h3 f]
        congr 1
        exact if_congr (by omega) rfl rfl
      refine ⟨S', e, h1, h2, fun hin f G hG => ?_, h4⟩
      rw [h4] at hG
      rw [h2]
      rcases List.mem_append.1 hG with hG | hG
      · exact hin f G hG
      · split_ifs at hG with hc
        · rw [List.mem_singleton.1 hG]; exact hc
        · simp at hG
    · rw [if_neg hle]
      refine ⟨S, rfl, rfl, rfl, id, fun f => ?_⟩
      rw [if_neg (by omega), List.append_nil]

/-! ### An example -/

/-- The square of the sum of the only parameter in two frames, less one. -/
def exSum : SeqErrorFunction where
  weight := 1
  numFrames := 2
  jacobianSize := 1
  getError p := (p 0 0 + p 1 0 - 1) ^ 2
  getGradient p := ((p 0 0 + p 1 0 - 1) ^ 2, fun _ => 2 * (p 0 0 + p 1 0 - 1))
  getJacobian p := ⟨(p 0 0 + p 1 0 - 1) ^ 2, 1, fun _ _ => 1, fun _ => p 0 0 + p 1 0 - 1⟩

/-- The square of a parameter. -/
def exSq : ErrorFunction where
  weight := 1
  jacobianSize := 1
  getError p := p 0 ^ 2
  getGradient p := (p 0 ^ 2, fun i => if i = 0 then 2 * p 0 else 0)
  getJacobian p := ⟨p 0 ^ 2, 1, fun i _ => if i = 0 then 1 else 0, fun _ => p 0⟩

theorem exSum_gradient (p : Nat → Nat → ℝ) : exSum.GradientIsDerivative 1 (fun _ => true) p := by
  refine ⟨rfl, fun w _ => ?_⟩
  have h : HasDerivAt (fun u : ℝ => p 0 0 + u * w 0 0 + (p 1 0 + u * w 1 0) - 1) (1 * w 0 0 + 1 * w 1 0) 0 :=
    ((((hasDerivAt_id' (0 : ℝ)).mul_const _).const_add _).add (((hasDerivAt_id' (0 : ℝ)).mul_const _).const_add _)).sub_const _
  have := h.pow 2
  simp only [exSum, sum_range_succ, sum_range_zero]
  refine this.congr_deriv ?_
  simp only [zero_mul, add_zero]
  push_cast
  ring

theorem exSum_jacobian (p : Nat → Nat → ℝ) : exSum.JacobianIsDerivative 1 (fun _ => true) p := by
  refine ⟨rfl, le_rfl, fun _ _ _ => rfl, fun w _ u => ?_, fun w _ t _ => ?_⟩
  · simp [exSum]
  · have h : HasDerivAt (fun u : ℝ => p 0 0 + u * w 0 0 + (p 1 0 + u * w 1 0) - 1) (1 * w 0 0 + 1 * w 1 0) 0 :=
      ((((hasDerivAt_id' (0 : ℝ)).mul_const _).const_add _).add (((hasDerivAt_id' (0 : ℝ)).mul_const _).const_add _)).sub_const _
    simp only [exSum, sum_range_succ, sum_range_zero]
    convert h using 1
    ring

theorem exSq_gradient (p : Nat → ℝ) (i : Nat) : exSq.GradientIsDerivative p i := by
  refine ⟨rfl, ?_⟩
  by_cases hi : i = 0
  · subst hi
    simpa [exSq] using hasDerivAt_pow 2 (p 0)
  · simpa [exSq, hi, Function.update_of_ne (Ne.symm hi)] using hasDerivAt_const (p i) (p 0 ^ 2)

theorem exSq_jacobian (p : Nat → ℝ) (i : Nat) : exSq.JacobianIsDerivative p i := by
  refine ⟨rfl, le_rfl, fun _ => rfl, fun u => by simp [exSq], fun t _ => ?_⟩
  by_cases hi : i = 0
  · subst hi
    simpa [exSq] using hasDerivAt_id' (p 0)
  · simpa [exSq, hi, Function.update_of_ne (Ne.symm hi)] using hasDerivAt_const (p i) (p 0)

/-- Two frames of one parameter; `un` says whether it is universal. -/
def exSequence (un : Bool) : SequenceFunction :=
  { make 1 (fun _ => un) 2 with
    frameErrors := fun f => if f = 1 then [exSq] else []
    sequenceErrors := fun f => if f = 0 then [exSum] else [] }

theorem exSequence_sets (un : Bool) : (exSequence un).Sets fun _ => true := by
  obtain ⟨h1, h2, h3, h4⟩ := C62_sets.1 1 (fun _ => un) 2
  exact ⟨h1, h2, h3, h4⟩

theorem exSequence_inside (un : Bool) : (exSequence un).Inside := by
  intro f F hF
  by_cases hf : f = 0
  · subst hf
    have : F = exSum := by simpa [exSequence] using hF
    subst this; exact le_rfl
  · simp [exSequence, hf] at hF

/-- The hypotheses hold in the example, and there are two terms: the error of the joined vector `(3, 5)` is `49 + 25`. -/
example : (exSequence false).Sets (fun _ => true) ∧ (exSequence false).Inside ∧ (exSequence false).nFrames ≠ 0 ∧
    0 < (exSequence false).np ∧ (exSequence false).numParameters = 2 ∧ (exSequence true).numParameters = 1 ∧
    (∀ v j, HasDerivAt (fun u => ((exSequence false).getError (Function.update v j u)).1)
      (((exSequence false).getGradient v).2.1 j) (v j)) ∧
    ((exSequence false).getError fun j => if j = 0 then 3 else 5).1 = 74 := by
  refine ⟨exSequence_sets _, exSequence_inside _, by decide, by decide, by decide, by decide, fun v j => ?_, ?_⟩
  · refine (C62_gradient (exSequence_sets _) (exSequence_inside _) v j ?_ ⟨0, by decide, rfl⟩ ?_).2
    · intro f _ F hF _ i _ _
      have : F = exSq := by
        by_cases hf : f = 1
        · simpa [exSequence, hf] using hF
        · simp [exSequence, hf] at hF
      subst this; exact exSq_gradient _ _
    · intro f _ F hF _
      have : F = exSum := by
        by_cases hf : f = 0
        · simpa [exSequence, hf] using hF
        · simp [exSequence, hf] at hF
      subst this; exact exSum_gradient _
  · simp [getError, frameError, exSequence, make, updateParameterSets, setsStep, setJoined, setFrame, List.range_succ,
      weighted, weightedSeq, exSq, exSum, subspan]
    norm_num

/-! ### What is not true -/

/-- **C62** is false for matrices that are used a second time, as `GaussNewtonSolverT` does (gauss_newton_solver.cpp:76): the
columns of universal parameters are added to what the last call left.  All hypotheses but `Fresh` hold here. -/
theorem C62_jacobian_reused_counterexample : ∃ (S : SequenceFunction) (v : Nat → ℝ) (b : Buffers),
    S.Sets (fun _ => true) ∧ S.Inside ∧ S.np ≠ 0 ∧ (∀ f, S.frameErrors f = []) ∧
    (∀ f, ∀ F ∈ S.sequenceErrors f, ∀ p, F.JacobianIsDerivative S.np (fun _ => true) p) ∧ b.Fresh S ∧
    (S.getJacobian v (S.getJacobian v b).2.2.1).2.2.1.e 0 0 = 4 ∧
    HasDerivAt (fun u => (S.getJacobian (Function.update v 0 u) b).2.2.1.residual 0) 2 (v 0) := by
  let S : SequenceFunction := { exSequence true with frameErrors := fun _ => [] }
  have hS : S.Sets fun _ => true := by
    obtain ⟨h1, h2, h3, h4⟩ := exSequence_sets true
    exact ⟨h1, h2, h3, h4⟩
  have hin : S.Inside := exSequence_inside true
  have hF : ∀ f, ∀ F ∈ S.sequenceErrors f, ∀ p, F.JacobianIsDerivative S.np (fun _ => true) p := by
    intro f F hF p
    have : F = exSum := by
      by_cases hf : f = 0
      · simpa [S, exSequence, hf] using hF
      · simp [S, exSequence, hf] at hF
    subst this; exact exSum_jacobian p
  have hb : (⟨0, 0, fun _ _ => 0, fun _ => 0⟩ : Buffers).Fresh S := Or.inl ⟨fun _ _ => rfl, fun _ => rfl⟩
  refine ⟨S, fun _ => 0, ⟨0, 0, fun _ _ => 0, fun _ => 0⟩, hS, hin, by decide, fun _ => rfl, hF, hb, ?_, ?_⟩
  · simp [S, getJacobian, exSequence, make, updateParameterSets, setsStep, setJoined, setFrame, List.range_succ,
      weighted, weightedSeq, exSum, subspan, resizeBuffers, jacobianSize, jacSeqStep, jacSubframe, addColumn, numParameters]
    norm_num
  · have := (C62_jacobian hS hin (fun _ => 0) 0 _ hb (by intro f _ F hF; simp [S] at hF) ⟨0, by decide, rfl⟩
      (fun f _ F hm _ => hF f F hm _)).2.2 0 ?_
    · convert this using 1
      simp [S, getJacobian, exSequence, make, updateParameterSets, setsStep, setJoined, setFrame, List.range_succ,
        weighted, weightedSeq, exSum, subspan, resizeBuffers, jacobianSize, jacSeqStep, jacSubframe, addColumn, numParameters]
      norm_num
    · simp [S, getJacobian, exSequence, make, updateParameterSets, setsStep, setJoined, List.range_succ,
        weighted, weightedSeq, exSum, jacobianSize]

/-- Without frames the joined vector cannot be read if there are universal parameters: the first frame is accessed. -/
theorem C62_no_frames_counterexample : (make 1 (fun _ => true) 0).getJoinedParameterVector = none := by
  simp [getJoinedParameterVector, joined, make, updateParameterSets, setsStep]

end SequenceFunction
end Momentum
