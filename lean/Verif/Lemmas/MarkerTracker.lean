import Verif.Spec.MarkerTracker
import Verif.Lemmas.TrackerUtils4
import Verif.Props.SequenceFunction

/-! Helper lemmas for C91. -/

namespace Momentum.MarkerTracker

section
variable {σ : Type} {stride n : Nat} {body : σ → Nat → Nat → Outcome σ}

theorem key_lt (hs : 0 < stride) (hn : 0 < n) (k : Nat) : k < (n - 1) / stride + 1 ↔ k * stride < n := by
  rw [Nat.lt_succ_iff, Nat.le_div_iff_mul_le hs]
  omega

/-- An invariant of the loop. -/
theorem strideLoop_inv (hs : 0 < stride) (hn : 0 < n) (I : Nat → σ → Prop)
    (step : ∀ k s, k * stride < n → I k s → ∃ t, body s (k * stride) k = .ok t ∧ I (k + 1) t) :
    ∀ (d k : Nat) (s : σ), k + d = (n - 1) / stride + 1 → I k s →
      ∃ t, strideLoop stride n body (k * stride) k s = some (.ok t) ∧ I ((n - 1) / stride + 1) t := by
  intro d
  induction d with
  | zero =>
    intro k s hk h
    have : ¬ k * stride < n := by rw [← key_lt hs hn]; omega
    unfold strideLoop
    rw [if_neg this]
    exact ⟨s, rfl, by rw [← hk]; exact h⟩
  | succ d ih =>
    intro k s hk h
    have hlt : k * stride < n := by rw [← key_lt hs hn]; omega
    obtain ⟨t, ht, hI⟩ := step k s hlt h
    unfold strideLoop
    rw [if_pos hlt, ht]
    dsimp only
    obtain ⟨u, hu, hI'⟩ := ih (k + 1) t (by omega) hI
    rw [show k * stride + stride = (k + 1) * stride by ring]
    exact ⟨u, hu, hI'⟩

theorem strideLoop_run (hs : 0 < stride) (hn : 0 < n) (I : Nat → σ → Prop) (s : σ) (h0 : I 0 s)
    (step : ∀ k s, k * stride < n → I k s → ∃ t, body s (k * stride) k = .ok t ∧ I (k + 1) t) :
    ∃ t, strideLoop stride n body 0 0 s = some (.ok t) ∧ I ((n - 1) / stride + 1) t := by
  have := strideLoop_inv hs hn I step ((n - 1) / stride + 1) 0 s (by omega) h0
  simpa using this

/-- Without a stride the loop does not end. -/
theorem strideLoop_stuck (i : Nat) (hi : i < n) (hb : ∀ s k, ∃ t, body s i k = .ok t) (k : Nat) (s : σ) :
    strideLoop 0 n body i k s = none := by
  have key : ∀ r : Outcome σ, strideLoop 0 n body i k s = some r → False := by
    intro r hr
    have := strideLoop.partial_correctness 0 n body (fun j _ _ _ => j ≠ i) ?_ i k s r hr
    · exact this rfl
    · intro f ih j k s r h hj
      subst hj
      rw [if_pos hi] at h
      obtain ⟨t, ht⟩ := hb s k
      rw [ht] at h
      exact ih (j + 0) (k + 1) t r h rfl
  cases h : strideLoop 0 n body i k s with
  | none => rfl
  | some r => exact (key r h).elim

end

theorem fillLoop_spec {α : Type} (n i : Nat) (c : α) (left : Nat) : ∀ (j : Nat) (motion : List (Option α)), motion.length = n →
    (fillLoop n i c left j motion).length = n ∧
      ∀ f, f < n → (fillLoop n i c left j motion)[f]? = if i + j ≤ f ∧ f < i + j + left then some (some c) else motion[f]? := by
  induction left with
  | zero =>
    intro j motion hm
    refine ⟨hm, fun f _ => ?_⟩
    rw [if_neg (by omega)]
    rfl
  | succ left ih =>
    intro j motion hm
    unfold fillLoop
    by_cases h : i + j < n
    · rw [if_pos h]
      obtain ⟨h1, h2⟩ := ih (j + 1) (motion.set (i + j) (some c)) (by rw [List.length_set]; exact hm)
      refine ⟨h1, fun f hf => ?_⟩
      rw [h2 f hf]
      by_cases hfe : f = i + j
      · subst hfe
        rw [if_neg (by omega), if_pos (by omega), List.getElem?_set_self (by omega)]
      · rw [List.getElem?_set_ne (fun e => hfe e.symm)]
        by_cases hr : i + j ≤ f ∧ f < i + j + (left + 1)
        · rw [if_pos (by omega), if_pos hr]
        · rw [if_neg (by omega), if_neg hr]
    · rw [if_neg h]
      refine ⟨hm, fun f hf => ?_⟩
      rw [if_neg (by omega)]

/-- The columns up to a stride are written. -/
def Written {α : Type} (stride n : Nat) (col : Nat → α) (k : Nat) (motion : List (Option α)) : Prop :=
  motion.length = n ∧ ∀ f, f < n → f < k * stride → motion[f]? = some (some (col (f / stride)))

theorem written_zero {α : Type} (stride n : Nat) (col : Nat → α) : Written stride n col 0 (List.replicate n none) :=
  ⟨List.length_replicate, fun f _ h => by simp at h⟩

theorem Written.step {α : Type} {stride n : Nat} (hs : 0 < stride) {col : Nat → α} {k : Nat} {motion : List (Option α)} (h : Written stride n col k motion) :
    Written stride n col (k + 1) (fillLoop n (k * stride) (col k) stride 0 motion) := by
  obtain ⟨h1, h2⟩ := fillLoop_spec n (k * stride) (col k) stride 0 motion h.1
  refine ⟨h1, fun f hf hlt => ?_⟩
  rw [h2 f hf]
  by_cases hr : k * stride ≤ f
  · rw [if_pos ⟨by omega, by rw [Nat.succ_mul] at hlt; omega⟩]
    have : f / stride = k := by
      rw [Nat.div_eq_iff hs]
      rw [Nat.succ_mul] at hlt
      constructor
      · exact hr
      · omega
    rw [this]
  · rw [if_neg (by omega)]
    exact h.2 f hf (by omega)

theorem Written.all {α : Type} {stride n : Nat} (hs : 0 < stride) (hn : 0 < n) {col : Nat → α} {motion : List (Option α)}
    (h : Written stride n col ((n - 1) / stride + 1) motion) : motion.length = n ∧ ∀ f, f < n → motion[f]? = some (some (col (f / stride))) := by
  refine ⟨h.1, fun f hf => h.2 f hf ?_⟩
  have h1 : ¬ ((n - 1) / stride + 1) * stride < n := by rw [← key_lt hs hn]; omega
  omega

section
variable {K : Type} [Field K] [LinearOrder K]

theorem createConstraintData_get (data : List (List (Marker K))) (locators : List (Locator K)) (i : Nat) :
    (createConstraintData data locators)[i]? = data[i]?.map (visible locators) := by
  unfold createConstraintData visible
  rw [List.getElem?_map, show (markerConstraint locators : Marker K → Option (MarkerConstraint K)) = expectedConstraint locators from
    funext fun m => markerConstraint_eq locators m]

/-- The state before the frame with number `k * stride`. -/
def keyState (solve : SolveCall K → List K → List K) (cfg : TrackConfig K) (P : TrackParameters) (locators : List (Locator K))
    (data : List (List (Marker K))) (globals : List K) (stride : Nat) : Nat → TrackState K
  | 0 => ⟨globals, (globals.take 6).all (fun x => x = 0) || !decide (stride < 5), List.replicate P.count 0⟩
  | k + 1 => poseFrame solve cfg P globals (stride < 5) (data.getD 0 []).length (keyState solve cfg P locators data globals stride k)
      (visible locators (data.getD (k * stride) []))

variable {solve : SolveCall K → List K → List K} {cfg : TrackConfig K} {P : TrackParameters} {locators : List (Locator K)}
  {data : List (List (Marker K))} {globals : List K} {stride : Nat}

theorem track_run (good : GoodInput P data globals) (hs : 0 < stride) :
    ∃ motion, trackPosesPerframe solve cfg P locators data globals stride = some (.ok motion) ∧ motion.length = data.length ∧
      ∀ f, f < data.length → motion[f]? = some (some (keyState solve cfg P locators data globals stride (f / stride + 1)).dof) := by
  obtain ⟨hne, hl, h6⟩ := good
  cases hd : data with
  | nil => exact absurd hd hne
  | cons first rest =>
    rw [← hd]
    have hn : 0 < data.length := by rw [hd]; simp
    have hfirst : (data.getD 0 []) = first := by rw [hd]; rfl
    obtain ⟨t, ht, hI⟩ := strideLoop_run (body := poseStep solve cfg P globals stride data.length first.length (createConstraintData data locators)) hs hn
      (fun k s => s.1 = keyState solve cfg P locators data globals stride k ∧
        Written stride data.length (fun k => (keyState solve cfg P locators data globals stride (k + 1)).dof) k s.2)
      (⟨globals, (globals.take 6).all (fun x => x = 0) || !decide (stride < 5), List.replicate P.count 0⟩, List.replicate data.length none)
      ⟨rfl, written_zero _ _ _⟩
      (by
        rintro k ⟨s1, s2⟩ hk ⟨rfl, h2⟩
        have hget : (createConstraintData data locators)[k * stride]? = some (visible locators (data.getD (k * stride) [])) := by
          rw [createConstraintData_get, List.getD_eq_getElem?_getD, List.getElem?_eq_getElem hk]
          rfl
        refine ⟨(keyState solve cfg P locators data globals stride (k + 1),
          fillLoop data.length (k * stride) (keyState solve cfg P locators data globals stride (k + 1)).dof stride 0 s2), ?_, rfl, h2.step hs⟩
        unfold poseStep
        rw [hget]
        dsimp only
        rw [keyState, hfirst])
    obtain ⟨m1, m2⟩ := hI.2.all hs hn
    refine ⟨t.2, ?_, m1, m2⟩
    unfold trackPosesPerframe
    rw [hd]
    dsimp only
    rw [if_neg (by simpa using hl), if_neg (by omega), ← hd, ht]
    rfl

theorem enoughSeen_iff (hf : f < data.length) : EnoughSeen cfg locators data f ↔
    ((visible locators (data.getD f [])).length : K) > ((data.getD 0 []).length : K) * cfg.minVisPercent := by
  unfold EnoughSeen
  have h0 : data[0]? = some (data.getD 0 []) := by
    rw [List.getD_eq_getElem?_getD, List.getElem?_eq_getElem (by omega)]; rfl
  have h1 : data[f]? = some (data.getD f []) := by
    rw [List.getD_eq_getElem?_getD, List.getElem?_eq_getElem hf]; rfl
  constructor
  · rintro ⟨a, b, ha, hb, h⟩
    rw [h0, Option.some.injEq] at ha
    rw [h1, Option.some.injEq] at hb
    rw [ha, hb]
    exact h
  · intro h
    exact ⟨_, _, h0, h1, h⟩

theorem keyState_needsInit (hs : 0 < stride) (k : Nat) (hk : ∀ j, j < k → j * stride < data.length) :
    (keyState solve cfg P locators data globals stride k).needsInit = true ↔ NeedsRigid cfg locators data globals stride (k * stride) := by
  induction k with
  | zero =>
    unfold keyState NeedsRigid
    simp only [Bool.or_eq_true, List.all_eq_true, decide_eq_true_eq, Bool.not_eq_true', decide_eq_false_iff_not, not_lt, zero_mul, Nat.not_lt_zero,
      false_implies, implies_true, and_true]
    exact or_comm
  | succ k ih =>
    have ih := ih fun j hj => hk j (by omega)
    have hkk := hk k (by omega)
    have hE := enoughSeen_iff (cfg := cfg) (locators := locators) hkk
    have keyiff : NeedsRigid cfg locators data globals stride ((k + 1) * stride) ↔
        NeedsRigid cfg locators data globals stride (k * stride) ∧ (5 ≤ stride ∨ ¬ EnoughSeen cfg locators data (k * stride)) := by
      unfold NeedsRigid
      constructor
      · rintro (h | ⟨h1, h2⟩)
        · exact ⟨Or.inl h, Or.inl h⟩
        · refine ⟨Or.inr ⟨h1, fun g hg => h2 g (by rw [Nat.succ_mul]; omega)⟩, Or.inr (h2 _ (by rw [Nat.succ_mul]; omega) (Nat.dvd_mul_left _ _))⟩
      · rintro ⟨h | ⟨h1, h2⟩, h3⟩
        · exact Or.inl h
        · rcases h3 with h3 | h3
          · exact Or.inl h3
          · refine Or.inr ⟨h1, fun g hg hd => ?_⟩
            obtain ⟨c, rfl⟩ := hd
            have hc : c < k + 1 := by
              rw [mul_comm] at hg
              exact Nat.lt_of_mul_lt_mul_right hg
            rcases Nat.lt_succ_iff_lt_or_eq.mp hc with hc | rfl
            · exact h2 _ (by rw [mul_comm]; exact Nat.mul_lt_mul_of_pos_right hc hs) (Nat.dvd_mul_right _ _)
            · rw [mul_comm]; exact h3
    rw [keyState, keyiff, ← ih]
    unfold poseFrame
    dsimp only
    by_cases he : EnoughSeen cfg locators data (k * stride)
    · rw [if_pos (hE.mp he)]
      simp only [Bool.and_eq_true, Bool.not_eq_true', decide_eq_false_iff_not, not_lt, he, not_true_eq_false, or_false]
    · rw [if_neg (fun h => he (hE.mpr h))]
      simp only [he, not_false_eq_true, or_true, and_true]

end

end Momentum.MarkerTracker
