import Verif.Lemmas.MarkerTracker

/-!
# C91: the frames of a tracked motion
-/

namespace Momentum.MarkerTracker

section
variable {K : Type} [Field K] [LinearOrder K] {solve : SolveCall K → List K → List K} {cfg : TrackConfig K} {P : TrackParameters}
  {locators : List (Locator K)} {data : List (List (Marker K))} {globals : List K} {stride : Nat}

/-- C91: for every solver, the motion has a column for each frame, each is written, and all frames of a stride have the same. -/
theorem C91_columns (good : GoodInput P data globals) (hs : 0 < stride) :
    ∃ motion, trackPosesPerframe solve cfg P locators data globals stride = some (.ok motion) ∧ motion.length = data.length ∧
      ∀ f, f < data.length → (∃ c, motion[f]? = some (some c)) ∧ motion[f]? = motion[f / stride * stride]? := by
  obtain ⟨motion, h1, h2, h3⟩ := track_run (solve := solve) (cfg := cfg) (locators := locators) good hs
  refine ⟨motion, h1, h2, fun f hf => ⟨⟨_, h3 f hf⟩, ?_⟩⟩
  have hle : f / stride * stride ≤ f := Nat.div_mul_le_self f stride
  rw [h3 f hf, h3 _ (by omega), Nat.mul_div_cancel _ hs]

theorem columns_unique {motion : List (Option (List K))} (good : GoodInput P data globals) (hs : 0 < stride)
    (h : trackPosesPerframe solve cfg P locators data globals stride = some (.ok motion)) :
    motion.length = data.length ∧ ∀ f, f < data.length → motion[f]? = some (some (keyState solve cfg P locators data globals stride (f / stride + 1)).dof) := by
  obtain ⟨m, h1, h2, h3⟩ := track_run (solve := solve) (cfg := cfg) (locators := locators) good hs
  rw [h, Option.some.injEq, Outcome.ok.injEq] at h1
  subst h1
  exact ⟨h2, h3⟩

/-- C91: with a solver that changes enabled parameters only, each parameter that is neither rigid nor a pose parameter outside the locators
has its given value in all frames. -/
theorem C91_identity (keeps : Keeps solve) (good : GoodInput P data globals) (hs : 0 < stride) {motion : List (Option (List K))}
    (h : trackPosesPerframe solve cfg P locators data globals stride = some (.ok motion)) (f : Nat) (c : List K) (hc : motion[f]? = some (some c)) :
    c.length = P.count ∧ ∀ i, P.rigid i = false → P.pose i = false ∨ P.locators i = true → c[i]? = globals[i]? := by
  obtain ⟨h2, h3⟩ := columns_unique good hs h
  have key : ∀ k, (keyState solve cfg P locators data globals stride k).dof.length = globals.length ∧
      ∀ i, P.rigid i = false → P.pose i = false ∨ P.locators i = true → (keyState solve cfg P locators data globals stride k).dof[i]? = globals[i]? := by
    intro k
    induction k with
    | zero => exact ⟨rfl, fun _ _ _ => rfl⟩
    | succ k ih =>
      rw [keyState]
      unfold poseFrame
      dsimp only
      set dof := if decide (stride < 5) = true then (keyState solve cfg P locators data globals stride k).dof else globals with hdof
      have hd : dof.length = globals.length ∧ ∀ i, P.rigid i = false → P.pose i = false ∨ P.locators i = true → dof[i]? = globals[i]? := by
        rw [hdof]
        split
        · exact ih
        · exact ⟨rfl, fun _ _ _ => rfl⟩
      split
      · set start := if (keyState solve cfg P locators data globals stride k).needsInit = true then
            solve ⟨P.rigid, 50, visible locators (data.getD (k * stride) []), 0, (keyState solve cfg P locators data globals stride k).target⟩ dof
          else dof with hstart
        have hst : start.length = globals.length ∧ ∀ i, P.rigid i = false → P.pose i = false ∨ P.locators i = true → start[i]? = globals[i]? := by
          rw [hstart]
          split
          · refine ⟨(keeps _ _).1.trans hd.1, fun i h1 h2 => ((keeps _ _).2 i h1).trans (hd.2 i h1 h2)⟩
          · exact hd
        refine ⟨(keeps _ _).1.trans hst.1, fun i h1 h2 => ((keeps _ _).2 i ?_).trans (hst.2 i h1 h2)⟩
        show (P.pose i && !P.locators i) = false
        rcases h2 with h2 | h2 <;> simp [h2]
      · exact hd
  have hf : f < data.length := by
    have := (List.getElem?_eq_some_iff.mp hc).1
    omega
  rw [h3 f hf, Option.some.injEq, Option.some.injEq] at hc
  rw [← hc, ← good.2.1]
  exact key _

/-- C91: the pose of each frame that begins a stride.  It starts from the pose of the stride before, or from the given pose for the first
frame and when frames are far apart.  With too few visible markers it is that pose.  Otherwise it is what the solver makes of it, with
the pose parameters outside the locators and the visible markers of this frame, kept near its start, after a solve with the rigid
parameters when one is needed. -/
theorem C91_frame (good : GoodInput P data globals) (hs : 0 < stride) {motion : List (Option (List K))}
    (h : trackPosesPerframe solve cfg P locators data globals stride = some (.ok motion)) (f : Nat) (frame : List (Marker K))
    (hf : data[f]? = some frame) (begins : stride ∣ f) (prev : List K)
    (hprev : if f = 0 ∨ 5 ≤ stride then prev = globals else motion[f - stride]? = some (some prev)) :
    (¬ EnoughSeen cfg locators data f → motion[f]? = some (some prev)) ∧
    (EnoughSeen cfg locators data f → ∃ start, motion[f]? =
        some (some (solve ⟨fun i => P.pose i && !P.locators i, cfg.maxIter, visible locators frame, cfg.smoothing, start⟩ start)) ∧
      (NeedsRigid cfg locators data globals stride f → ∃ t, start = solve ⟨P.rigid, 50, visible locators frame, 0, t⟩ prev) ∧
      (¬ NeedsRigid cfg locators data globals stride f → start = prev)) := by
  obtain ⟨h2, h3⟩ := columns_unique good hs h
  obtain ⟨k, rfl⟩ := begins
  have hlt : stride * k < data.length := (List.getElem?_eq_some_iff.mp hf).1
  rw [mul_comm] at hlt hf hprev ⊢
  have hn : 0 < data.length := by omega
  have hinit := keyState_needsInit (solve := solve) (cfg := cfg) (P := P) (locators := locators) (globals := globals) hs k
    (fun j hj => lt_of_le_of_lt (Nat.mul_le_mul_right _ (le_of_lt hj)) hlt)
  have hE := enoughSeen_iff (cfg := cfg) (locators := locators) hlt
  have hframe : data.getD (k * stride) [] = frame := by rw [List.getD_eq_getElem?_getD, hf]; rfl
  have hdof : (if decide (stride < 5) = true then (keyState solve cfg P locators data globals stride k).dof else globals) = prev := by
    by_cases h5 : 5 ≤ stride
    · rw [if_pos (Or.inr h5)] at hprev
      rw [if_neg (by simpa using h5), hprev]
    · rw [if_pos (by simpa using h5)]
      cases k with
      | zero =>
        rw [if_pos (Or.inl (by simp))] at hprev
        rw [hprev]
        rfl
      | succ k =>
        rw [if_neg (by rw [not_or]; exact ⟨by simpa using by omega, h5⟩), Nat.succ_mul, Nat.add_sub_cancel, h3 _ (by rw [Nat.succ_mul] at hlt; omega),
          Nat.mul_div_cancel _ hs, Option.some.injEq, Option.some.injEq] at hprev
        exact hprev
  rw [h3 _ hlt, Nat.mul_div_cancel _ hs, keyState]
  unfold poseFrame
  dsimp only
  rw [hdof, hframe]
  rw [hframe] at hE
  constructor
  · intro he
    rw [if_neg (fun h => he (hE.mpr h))]
  · intro he
    rw [if_pos (hE.mp he)]
    refine ⟨_, rfl, fun hr => ?_, fun hr => ?_⟩
    · rw [if_pos (hinit.mpr hr)]
      exact ⟨_, rfl⟩
    · rw [if_neg (fun h => hr (hinit.mp h))]

/-- C91: with frames far apart, the pose of a frame that begins a stride depends on the markers of this frame and the number of markers of
the first one only, for a solver that does not look at the target of a term without weight. -/
theorem C91_independent (weightless : Weightless solve) {data' : List (List (Marker K))} (good : GoodInput P data globals)
    (good' : GoodInput P data' globals) (far : 5 ≤ stride) {motion motion' : List (Option (List K))}
    (h : trackPosesPerframe solve cfg P locators data globals stride = some (.ok motion))
    (h' : trackPosesPerframe solve cfg P locators data' globals stride = some (.ok motion')) (f : Nat) (begins : stride ∣ f) (hf : f < data.length)
    (first : (data.getD 0 []).length = (data'.getD 0 []).length) (same : data[f]? = data'[f]?) : motion[f]? = motion'[f]? := by
  have hs : 0 < stride := by omega
  obtain ⟨-, h3⟩ := columns_unique good hs h
  obtain ⟨-, h3'⟩ := columns_unique good' hs h'
  obtain ⟨k, rfl⟩ := begins
  rw [mul_comm] at hf same ⊢
  have hf' : k * stride < data'.length := by
    rw [List.getElem?_eq_getElem hf] at same
    exact (List.getElem?_eq_some_iff.mp same.symm).1
  rw [h3 _ hf, h3' _ hf', Nat.mul_div_cancel _ hs, keyState, keyState]
  have hr : ∀ (d : List (List (Marker K))), k * stride < d.length → (keyState solve cfg P locators d globals stride k).needsInit = true := fun d hd =>
    (keyState_needsInit hs k (fun j hj => lt_of_le_of_lt (Nat.mul_le_mul_right _ (le_of_lt hj)) hd)).mpr (Or.inl far)
  unfold poseFrame
  dsimp only
  have e : data.getD (k * stride) [] = data'.getD (k * stride) [] := by
    rw [List.getD_eq_getElem?_getD, List.getD_eq_getElem?_getD, same]
  have hfar : ¬ decide (stride < 5) = true := by simpa using far
  rw [hr data hf, hr data' hf', ← first, ← e, if_pos rfl, if_pos rfl, if_neg hfar, if_neg hfar]
  rw [weightless _ _ _ (keyState solve cfg P locators data globals stride k).target (keyState solve cfg P locators data' globals stride k).target]
  split <;> rfl

/-- C91: the pose of a frame does not depend on the markers of later frames. -/
theorem C91_causal {data' : List (List (Marker K))} (good : GoodInput P data globals) (good' : GoodInput P data' globals) (hs : 0 < stride)
    {motion motion' : List (Option (List K))} (h : trackPosesPerframe solve cfg P locators data globals stride = some (.ok motion))
    (h' : trackPosesPerframe solve cfg P locators data' globals stride = some (.ok motion')) (f : Nat) (hf : f < data.length)
    (same : data.take (f + 1) = data'.take (f + 1)) : motion[f]? = motion'[f]? := by
  obtain ⟨-, h3⟩ := columns_unique good hs h
  obtain ⟨-, h3'⟩ := columns_unique good' hs h'
  have hget : ∀ i, i ≤ f → data[i]? = data'[i]? := by
    intro i hi
    have := congrArg (fun l => l[i]?) same
    simpa [List.getElem?_take, show i < f + 1 by omega] using this
  have hf' : f < data'.length := by
    have := hget f le_rfl
    rw [List.getElem?_eq_getElem hf] at this
    exact (List.getElem?_eq_some_iff.mp this.symm).1
  have hgetD : ∀ i, i ≤ f → data.getD i [] = data'.getD i [] := fun i hi => by
    rw [List.getD_eq_getElem?_getD, List.getD_eq_getElem?_getD, hget i hi]
  have key : ∀ k, k ≤ f / stride + 1 → keyState solve cfg P locators data globals stride k = keyState solve cfg P locators data' globals stride k := by
    intro k
    induction k with
    | zero => intro _; rfl
    | succ k ih =>
      intro hk
      have hkf : k * stride ≤ f := (Nat.le_div_iff_mul_le hs).mp (by omega)
      rw [keyState, keyState, ih (by omega), hgetD 0 (by omega), hgetD _ hkf]
  rw [h3 f hf, h3' f hf', key _ le_rfl]

/-- C91: a stride of zero is not refused: the loop never ends. -/
theorem C91_zero_stride_never_ends (good : GoodInput P data globals) :
    trackPosesPerframe solve cfg P locators data globals 0 = none := by
  obtain ⟨hne, hl, h6⟩ := good
  cases hd : data with
  | nil => exact absurd hd hne
  | cons first rest =>
    unfold trackPosesPerframe
    dsimp only
    rw [if_neg (by simpa using hl), if_neg (by omega), strideLoop_stuck]
    · rfl
    · simp
    · intro s k
      unfold poseStep
      rw [createConstraintData_get]
      exact ⟨_, rfl⟩

/-- C91: no frames, or parameters of the wrong number, are refused. -/
theorem C91_refused (h : data = [] ∨ globals.length ≠ P.count) : trackPosesPerframe solve cfg P locators data globals stride = some .throws := by
  unfold trackPosesPerframe
  cases data with
  | nil => rfl
  | cons first rest =>
    rcases h with h | h
    · simp at h
    · dsimp only
      rw [if_pos h]

end

section
variable {solve : SequenceFunction → (Nat → ℝ) → (Nat → ℝ)} {P : TrackParameters} {scaling globalParams : Nat → Bool} {numFrames : Nat}
  {initial : List (Nat → ℝ)} {stride : Nat}

theorem then_ok {α β : Type} (a : α) (f : α → Option (Outcome β)) : thenStep (some (.ok a)) f = f a := rfl

/-- C91: tracking a sequence, for every solver.  The solver is given one frame for each stride, each with the parameters of the first frame
of the stride in the given motion, and the motion has, for each frame of a stride, what the solver makes of it. -/
theorem C91_sequence (hn : 0 < numFrames) (hi : numFrames ≤ initial.length) (hs : 0 < stride) :
    ∃ (motion : List (Option (Nat → ℝ))) (S : SequenceFunction) (x : Nat → ℝ), trackSequence solve P scaling globalParams numFrames P.count initial stride = some (.ok motion) ∧ motion.length = numFrames ∧
      S.np = P.count ∧ S.nFrames = (numFrames - 1) / stride + 1 ∧ S.universalParameters = (fun i => scaling i || P.locators i) ∧
      S.Sets (fun i => (P.pose i && !P.locators i) || globalParams i) ∧
      (∀ k, k * stride < numFrames → initial[k * stride]? = some (S.frames k)) ∧ S.getJoinedParameterVector = some x ∧
      ∀ f, f < numFrames → f / stride < S.nFrames ∧ motion[f]? = some (some ((S.setJoined (solve S x)).frames (f / stride))) := by
  set S0 := SequenceFunction.make P.count (fun i => scaling i || P.locators i) ((numFrames - 1) / stride + 1) with hS0
  obtain ⟨S1, r1, i1⟩ := strideLoop_run (body := startStep initial) hs hn
    (fun k S => S.np = P.count ∧ S.nFrames = (numFrames - 1) / stride + 1 ∧ S.universalParameters = (fun i => scaling i || P.locators i) ∧
      ∀ j, j < k → initial[j * stride]? = some (S.frames j)) S0 ⟨rfl, rfl, rfl, fun j hj => by omega⟩
    (by
      rintro k S hk ⟨a1, a2, a3, a4⟩
      have hget : initial[k * stride]? = some (initial[k * stride]'(by omega)) := List.getElem?_eq_getElem (by omega)
      refine ⟨{ S with frames := Function.update S.frames k (initial[k * stride]'(by omega)) }, ?_, a1, a2, a3, ?_⟩
      · unfold startStep
        rw [hget]
        dsimp only
        unfold SequenceFunction.setFrameParameters
        rw [if_pos (by rw [a2]; exact (key_lt hs hn k).mpr hk)]
      · intro j hj
        by_cases hjk : j = k
        · subst hjk
          rw [hget]
          simp
        · rw [a4 j (by omega)]
          simp [Function.update_of_ne hjk])
  obtain ⟨a1, a2, a3, a4⟩ := i1
  set S := S1.updateParameterSets fun i => P.tracked i || globalParams i with hS
  have b2 : S.nFrames = (numFrames - 1) / stride + 1 := a2
  have hsets : S.Sets (fun i => (P.pose i && !P.locators i) || globalParams i) := by
    obtain ⟨c1, c2, c3, c4⟩ := SequenceFunction.sets_fold S1.universalParameters (fun i => P.tracked i || globalParams i) S1.np
    exact ⟨c1, c2, c3, c4⟩
  obtain ⟨x, hx⟩ : ∃ x, S.getJoinedParameterVector = some x := by
    unfold SequenceFunction.getJoinedParameterVector SequenceFunction.joined
    dsimp only
    have h0 : ¬ (S.nFrames = 0 ∧ S.universal ≠ []) := fun h => Nat.succ_ne_zero _ (b2.symm.trans h.1)
    rw [if_neg h0]
    exact ⟨_, rfl⟩
  set S2 := S.setJoined (solve S x) with hS2
  have d2 : S2.nFrames = (numFrames - 1) / stride + 1 := b2
  obtain ⟨motion, r2, i2⟩ := strideLoop_run (body := resultStep S2 stride numFrames) hs hn (fun k m => Written stride numFrames S2.frames k m)
    (List.replicate numFrames none) (written_zero _ _ _)
    (by
      intro k m hk h
      refine ⟨_, ?_, h.step hs⟩
      unfold resultStep
      rw [if_pos (by rw [d2]; exact (key_lt hs hn k).mpr hk)])
  obtain ⟨m1, m2⟩ := i2.all hs hn
  refine ⟨motion, S, x, ?_, m1, a1, b2, a3, hsets, fun k hk => a4 k ((key_lt hs hn k).mpr hk), hx, fun f hf => ⟨?_, m2 f hf⟩⟩
  · have hgood : ¬ (numFrames = 0 ∨ initial.length < numFrames ∨ P.count ≠ P.count) := by
      rintro (h | h | h)
      · omega
      · omega
      · exact h rfl
    unfold trackSequence
    rw [if_neg hgood, if_neg (by omega)]
    dsimp only
    rw [← hS0, r1]
    rw [then_ok]
    rw [← hS, hx]
    exact r2
  · rw [b2, key_lt hs hn]
    exact lt_of_le_of_lt (Nat.div_mul_le_self f stride) hf

/-- C91: after tracking a sequence, a parameter that is not solved for has in each frame the given value of the first frame of the stride; a
solved one that is universal, a scaling parameter or a locator, has the same value in all frames. -/
theorem C91_sequence_parameters (hn : 0 < numFrames) (hi : numFrames ≤ initial.length) (hs : 0 < stride) {motion : List (Option (Nat → ℝ))}
    (h : trackSequence solve P scaling globalParams numFrames P.count initial stride = some (.ok motion)) (f : Nat) (hf : f < numFrames) :
    ∃ c : Nat → ℝ, motion[f]? = some (some c) ∧
      (∀ (i : Nat) (c0 : Nat → ℝ), ((P.pose i && !P.locators i) || globalParams i) = false → initial[f / stride * stride]? = some c0 → c i = c0 i) ∧
      ∀ i, i < P.count → ((P.pose i && !P.locators i) || globalParams i) = true → (scaling i || P.locators i) = true →
        ∀ (g : Nat) (d : Nat → ℝ), motion[g]? = some (some d) → d i = c i := by
  obtain ⟨m, S, x, h1, h2, h3, h4, h5, h6, h7, -, h8⟩ := C91_sequence (solve := solve) (P := P) (scaling := scaling) (globalParams := globalParams) hn hi hs
  rw [h, Option.some.injEq, Outcome.ok.injEq] at h1
  subst h1
  obtain ⟨hlt, hcol⟩ := h8 f hf
  refine ⟨_, hcol, ?_, ?_⟩
  · intro i c0 hen hc0
    rw [(SequenceFunction.setJoined_frames h6 (solve S x) (f / stride) i).2 (fun j hj => by
      have := SequenceFunction.StandsFor.enabled h6 hj
      rw [hen] at this
      exact Bool.noConfusion this)]
    have := h7 (f / stride) (lt_of_le_of_lt (Nat.div_mul_le_self f stride) hf)
    rw [hc0, Option.some.injEq] at this
    rw [this]
  · intro i hic hen hu g d hd
    have hg : g < numFrames := by
      have := (List.getElem?_eq_some_iff.mp hd).1
      omega
    obtain ⟨hlt', hcol'⟩ := h8 g hg
    rw [hcol', Option.some.injEq, Option.some.injEq] at hd
    subst hd
    have hmem : i ∈ S.universal := (h6.universal i).mpr ⟨by rw [h3]; exact hic, hen, by rw [h5]; exact hu⟩
    obtain ⟨k, hk⟩ := List.getElem?_of_mem hmem
    rw [(SequenceFunction.setJoined_frames h6 (solve S x) (g / stride) i).1 _ ⟨hlt', Or.inr ⟨k, hk, rfl⟩⟩,
      (SequenceFunction.setJoined_frames h6 (solve S x) (f / stride) i).1 _ ⟨hlt, Or.inr ⟨k, hk, rfl⟩⟩]

/-- C91: a stride of zero divides by zero. -/
theorem C91_sequence_zero_stride (hn : 0 < numFrames) (hi : numFrames ≤ initial.length) :
    trackSequence solve P scaling globalParams numFrames P.count initial 0 = some .ub := by
  have hgood : ¬ (numFrames = 0 ∨ initial.length < numFrames ∨ P.count ≠ P.count) := by
    rintro (h | h | h)
    · omega
    · omega
    · exact h rfl
  unfold trackSequence
  rw [if_neg hgood, if_pos rfl]

end

/-- C91: the frames that a calibration solves.  With fewer than the wanted number and one more it solves all; otherwise at least one more than
wanted, and at most twice as many, and twice as many occur. -/
theorem C91_calibration_frames (n c : Nat) (hn : 0 < n) (hc : 0 < c) :
    ∃ stride, calibrationStride n c = .ok stride ∧ 0 < stride ∧
      (n ≤ c → (n - 1) / stride + 1 = n) ∧ (c < n → c + 1 ≤ (n - 1) / stride + 1 ∧ (n - 1) / stride + 1 ≤ 2 * c) := by
  refine ⟨max 1 ((n - 1) / c), if_neg (by omega), by omega, ?_, ?_⟩
  · intro h
    have : (n - 1) / c = 0 := Nat.div_eq_of_lt (by omega)
    rw [this]
    simp
    omega
  · intro h
    set q := (n - 1) / c with hq
    have hq1 : 1 ≤ q := (Nat.le_div_iff_mul_le hc).mpr (by omega)
    have hmax : max 1 q = q := by omega
    rw [hmax]
    have h1 : c * q ≤ n - 1 := Nat.mul_div_le (n - 1) c
    have h2 : n - 1 < c * (q + 1) := by
      have := Nat.lt_div_mul_add (a := n - 1) hc
      rw [← hq] at this
      rw [Nat.mul_add, mul_comm c q]
      omega
    constructor
    · have : c ≤ (n - 1) / q := (Nat.le_div_iff_mul_le hq1).mpr h1
      omega
    · have : (n - 1) / q < 2 * c := by
        rw [Nat.div_lt_iff_lt_mul hq1]
        have : c * (q + 1) ≤ 2 * c * q := by nlinarith
        omega
      omega

/-- C91: twice as many frames as wanted are solved when the motion has twice as many. -/
theorem C91_calibration_twice_counterexample (c : Nat) (hc : 0 < c) :
    ∃ stride, calibrationStride (2 * c) c = .ok stride ∧ (2 * c - 1) / stride + 1 = 2 * c := by
  have h : (2 * c - 1) / c = 1 := by
    rw [Nat.div_eq_iff hc]
    omega
  refine ⟨1, ?_, by rw [Nat.div_one]; omega⟩
  unfold calibrationStride
  rw [if_neg (by omega), h]
  rfl

section
variable {K : Type} [Field K] [LinearOrder K] {solve : SolveCall K → List K → List K} {cfg : TrackConfig K} {P : TrackParameters}
  {locators : List (Locator K)} {data : List (List (Marker K))} {globals : List K}

/-- C91: the motion of a part of the frames is the motion tracked on that part; it has as many columns as wanted or as there are. -/
theorem C91_window_partial (first maxFrames : Nat) (hf : first < data.length) (hg : globals.length = P.count) (h6 : 6 ≤ P.count)
    (small : first + maxFrames < 2 ^ 64) :
    ∃ motion, processMarkers solve cfg P locators data globals first maxFrames = some (.ok motion) ∧
      motion.length = (if maxFrames = 0 then data.length - first else min maxFrames (data.length - first)) ∧
      trackPosesPerframe solve cfg P locators ((data.drop first).take motion.length) globals 1 = some (.ok motion) := by
  have hw : window data first maxFrames =
      .ok ((data.drop first).take (if maxFrames = 0 then data.length - first else min maxFrames (data.length - first))) := by
    unfold window
    rw [if_neg (by omega)]
    dsimp only
    by_cases h0 : maxFrames = 0
    · have hm : ¬ maxFrames > 0 := by omega
      rw [if_neg hm, if_neg (by omega), if_pos h0]
    · have hm : maxFrames > 0 := by omega
      rw [if_pos hm, Nat.mod_eq_of_lt small, if_neg (by omega), if_neg h0]
      congr 2
      omega
  set len := if maxFrames = 0 then data.length - first else min maxFrames (data.length - first) with hlen
  have hpos : 0 < len ∧ len ≤ data.length - first := by
    rw [hlen]
    split <;> omega
  have hl : ((data.drop first).take len).length = len := by
    rw [List.length_take, List.length_drop]
    omega
  have good : GoodInput P ((data.drop first).take len) globals := by
    refine ⟨?_, hg, h6⟩
    intro h
    rw [h] at hl
    simp at hl
    omega
  obtain ⟨motion, h1, h2, -⟩ := C91_columns (solve := solve) (cfg := cfg) (locators := locators) good Nat.one_pos
  refine ⟨motion, ?_, h2.trans hl, ?_⟩
  · unfold processMarkers
    rw [hw]
    exact h1
  · rw [h2, hl]
    exact h1

/-- C91: the sum of the first frame and the number of frames wraps around: a caller who asks for all frames after the first with the
largest number gets a span of a wrapped size. -/
theorem C91_window_wraps (first : Nat) (hf : 0 < first) (hd : first ≤ data.length) (hm : first ≤ 2 ^ 64) :
    processMarkers solve cfg P locators data globals first (2 ^ 64 - 1) = some .ub := by
  have key : ∀ m N : Nat, 0 < m → (first + m) % N = first - 1 → N = 2 ^ 64 →
      processMarkers solve cfg P locators data globals first m = some .ub := by
    intro m N hm this hN
    unfold processMarkers window
    rw [if_neg (by omega), ← hN]
    dsimp only
    rw [if_pos hm, this, if_pos (by omega)]
  exact key _ _ (by omega) (by omega) rfl

end

/-! ### Examples -/

/-- A solver that adds one to each enabled parameter. -/
def exSolve (call : SolveCall ℚ) (x : List ℚ) : List ℚ := x.zipIdx.map fun e => if call.enabled e.2 then e.1 + 1 else e.1

/-- It changes enabled parameters only and does not look at targets. -/
theorem exSolve_keeps : Keeps exSolve ∧ Weightless exSolve := by
  refine ⟨fun call x => ⟨by simp [exSolve], fun i hi => ?_⟩, fun _ _ _ _ _ _ => rfl⟩
  unfold exSolve
  rw [List.getElem?_map, List.getElem?_zipIdx]
  cases x[i]? <;> simp [hi]

/-- Eight parameters, of which the first six are rigid and the last is an identity. -/
def exParameters : TrackParameters := ⟨8, fun i => i < 7, fun i => i < 6, fun _ => false⟩

/-- Two frames with a marker, and one without. -/
def exData : List (List (Marker ℚ)) := [[⟨"a", ⟨0, 0, 0⟩, false⟩], [⟨"a", ⟨0, 0, 0⟩, true⟩], [⟨"a", ⟨1, 0, 0⟩, false⟩]]

/-- The input is good, with the marker seen in frames 0 and 2, not in frame 1. -/
example : GoodInput exParameters exData [0, 0, 0, 0, 0, 0, 0, 5] ∧ EnoughSeen ⟨0, 0, 3⟩ [⟨"a", 0, ⟨0, 0, 0⟩, ⟨0, 0, 0⟩, 1, ⟨0, 0, 0⟩, ⟨0, 0, 0⟩⟩] exData 0 ∧
    ¬ EnoughSeen ⟨0, 0, 3⟩ [⟨"a", 0, ⟨0, 0, 0⟩, ⟨0, 0, 0⟩, 1, ⟨0, 0, 0⟩, ⟨0, 0, 0⟩⟩] exData 1 := by
  refine ⟨⟨by decide, rfl, by decide⟩, ?_, ?_⟩
  · exact ⟨_, _, rfl, rfl, by decide +kernel⟩
  · rintro ⟨a, b, ha, hb, h⟩
    simp only [exData, List.getElem?_cons_zero, List.getElem?_cons_succ, Option.some.injEq] at ha hb
    subst ha hb
    revert h
    decide +kernel

/-- The state after three frames: a rigid solve in the first, no solve in the second, and the identity is kept. -/
example : (keyState exSolve ⟨0, 0, 3⟩ exParameters [⟨"a", 0, ⟨0, 0, 0⟩, ⟨0, 0, 0⟩, 1, ⟨0, 0, 0⟩, ⟨0, 0, 0⟩⟩] exData [0, 0, 0, 0, 0, 0, 0, 5] 1 3).dof =
    [3, 3, 3, 3, 3, 3, 2, 5] := by
  decide +kernel

/-- A sequence of three frames with two strides, and a part of the frames. -/
example : (∃ motion : List (Option (Nat → ℝ)), trackSequence (fun _ x => x) exParameters (fun i => i == 7) (fun i => i == 7) 3 8
      [fun _ => 0, fun _ => 1, fun _ => 2] 2 = some (.ok motion) ∧ motion.length = 3) ∧
    ∃ motion, processMarkers exSolve ⟨0, 0, 3⟩ exParameters [] exData [0, 0, 0, 0, 0, 0, 0, 5] 1 1 = some (.ok motion) ∧ motion.length = 1 := by
  constructor
  · obtain ⟨m, -, -, h1, h2, -⟩ := C91_sequence (solve := fun _ x => x) (P := exParameters) (scaling := fun i => i == 7)
      (globalParams := fun i => i == 7) (numFrames := 3) (initial := [fun _ => 0, fun _ => 1, fun _ => 2]) (stride := 2) (by decide) (by decide) (by decide)
    exact ⟨m, h1, h2⟩
  · obtain ⟨m, h1, h2, -⟩ := C91_window_partial (solve := exSolve) (cfg := ⟨0, 0, 3⟩) (P := exParameters) (locators := []) (data := exData)
      (globals := [0, 0, 0, 0, 0, 0, 0, 5]) 1 1 (by decide) rfl (by decide) (by norm_num)
    exact ⟨m, h1, h2⟩

end Momentum.MarkerTracker
