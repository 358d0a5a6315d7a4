import Verif.Props.DiffConstraints

/-!
# C79: getting and setting inputs
-/

namespace Momentum
open Finset

theorem list_ext_getD {a b : List ℝ} (h : a.length = b.length) (h2 : ∀ i < a.length, a.getD i 0 = b.getD i 0) : a = b := by
  apply List.ext_getElem h
  intro i h1 h3
  have := h2 i h1
  simpa [h1, h3] using this

theorem mapIdx_flatMap_segments {α β : Type} {k : Nat} (f : Nat → α → β) (enc : β → List ℝ) (henc : ∀ b, (enc b).length = k)
    (l : List α) (y : List ℝ) (hy : y.length = k * l.length)
    (hf : ∀ i < l.length, ∀ a ∈ l, ∀ j < k, (enc (f i a)).getD j 0 = y.getD (k * i + j) 0) : (l.mapIdx f).flatMap enc = y := by
  have hlen : ((l.mapIdx f).flatMap enc).length = y.length := by rw [flatMap_length' enc henc, hy]; simp
  refine list_ext_getD hlen fun c hc => ?_
  rw [hlen, hy] at hc
  have hk : 0 < k := by
    rcases Nat.eq_zero_or_pos k with h0 | h0
    · subst h0; simp at hc
    · exact h0
  have hi : c / k < l.length := Nat.div_lt_of_lt_mul hc
  have hce : k * (c / k) + c % k = c := Nat.div_add_mod c k
  have e := flatMap_getD enc henc (c % k) (Nat.mod_lt _ hk) (l.mapIdx f) (c / k) (f (c / k) l[c / k]) (by
    rw [List.getElem?_mapIdx, List.getElem?_eq_getElem hi]; rfl)
  rw [hce] at e
  rw [e, hf _ hi _ (List.getElem_mem _) _ (Nat.mod_lt _ hk), hce]

theorem mapIdx_self {α : Type} (f : Nat → α → α) (l : List α) (h : ∀ i (hi : i < l.length), f i l[i] = l[i]) : l.mapIdx f = l := by
  apply List.ext_getElem (by simp)
  intro i h1 h2
  simp [h i h2]

theorem unit_normalized {r : Quat ℝ} (hr : r.normSq = 1) : r.normalized = r := by unfold Quat.normalized; simp [hr]

theorem segment3_enc {α : Type} (f : α → Vec3 ℝ) (l : List α) (i : Nat) (hi : i < l.length) :
    listSegment3 (l.flatMap fun c => [(f c).x, (f c).y, (f c).z]) i = f l[i] := by
  have e := fun j (hj : j < 3) => flatMap_getD (k := 3) (fun c => [(f c).x, (f c).y, (f c).z]) (fun _ => rfl) j hj l i l[i]
    (List.getElem?_eq_getElem hi)
  have e0 := e 0 (by omega)
  rw [add_zero] at e0
  unfold listSegment3
  rw [e0, e 1 (by omega), e 2 (by omega)]
  rfl

theorem segment4_enc {α : Type} (f : α → Quat ℝ) (l : List α) (i : Nat) (hi : i < l.length) :
    listSegment4 (l.flatMap fun c => (f c).coeffs) i = f l[i] := by
  have e := fun j (hj : j < 4) => flatMap_getD (k := 4) (fun c => (f c).coeffs) (fun _ => rfl) j hj l i l[i]
    (List.getElem?_eq_getElem hi)
  have e0 := e 0 (by omega)
  rw [add_zero] at e0
  unfold listSegment4
  rw [e0, e 1 (by omega), e 2 (by omega), e 3 (by omega)]
  rfl

theorem getD_map_self {α : Type} (f : α → ℝ) (l : List α) (i : Nat) (hi : i < l.length) : (l.map f).getD i 0 = f l[i] := by simp [hi]

theorem map_mapIdx_same {α β : Type} (f : Nat → α → α) (g : α → β) (h : ∀ i a, g (f i a) = g a) (l : List α) :
    (l.mapIdx f).map g = l.map g := by
  apply List.ext_getElem (by simp)
  intro i h1 h2
  simp [h]

theorem flatMap_mapIdx_same {α β : Type} (f : Nat → α → α) (g : α → List β) (h : ∀ i a, g (f i a) = g a) (l : List α) :
    (l.mapIdx f).flatMap g = l.flatMap g := by
  rw [List.flatMap_def, List.flatMap_def, map_mapIdx_same f g h]

theorem map_mapIdx_values {α : Type} (f : Nat → α → α) (g : α → ℝ) (y : List ℝ) (h : ∀ i a, g (f i a) = y.getD i 0) (l : List α)
    (hy : y.length = l.length) : (l.mapIdx f).map g = y := by
  apply List.ext_getElem (by simp [hy])
  intro i h1 h2
  simp [h, h2]

theorem three_cases {j : Nat} (h : j < 3) : j = 0 ∨ j = 1 ∨ j = 2 := by omega
theorem four_cases {j : Nat} (h : j < 4) : j = 0 ∨ j = 1 ∨ j = 2 ∨ j = 3 := by omega

/-- Position constraints keep every value as it is. -/
theorem C79_position_inputs (E : DiffPosition) : InputsConsistent DiffPosition.inputs DiffPosition.getInputSize DiffPosition.getInput
    DiffPosition.setInput (fun _ _ => True) E where
  unknown name h := by
    simp [DiffPosition.inputs] at h
    simp [DiffPosition.getInputSize, DiffPosition.getInput, DiffPosition.setInput, h]
  known name h := by
    rcases (by simpa [DiffPosition.inputs] using h : name = "weights" ∨ name = "offsets" ∨ name = "targets") with rfl | rfl | rfl
    · refine ⟨E.constraints.map (·.weight), rfl, by simp [DiffPosition.getInputSize], fun _ => ?_⟩
      unfold DiffPosition.setInput DiffPosition.getInputSize DiffPosition.setInputImp
      rw [if_pos rfl, Option.bind_some, if_pos (by simp), if_pos rfl]
      rw [mapIdx_self _ _ fun i hi => by rw [getD_map_self _ _ i hi]]
    · have hl := flatMap_length' (k := 3) (fun c : DiffPosConstraint => [c.offset.x, c.offset.y, c.offset.z]) (fun _ => rfl) E.constraints
      refine ⟨E.constraints.flatMap fun c => [c.offset.x, c.offset.y, c.offset.z], rfl, by rw [hl]; rfl, fun _ => ?_⟩
      unfold DiffPosition.setInput DiffPosition.getInputSize DiffPosition.setInputImp
      rw [if_neg (by decide), if_pos rfl, Option.bind_some, if_pos hl, if_neg (by decide), if_pos rfl]
      rw [mapIdx_self _ _ fun i hi => by rw [segment3_enc (fun c : DiffPosConstraint => c.offset) _ i hi]]
    · have hl := flatMap_length' (k := 3) (fun c : DiffPosConstraint => [c.target.x, c.target.y, c.target.z]) (fun _ => rfl) E.constraints
      refine ⟨E.constraints.flatMap fun c => [c.target.x, c.target.y, c.target.z], rfl, by rw [hl]; rfl, fun _ => ?_⟩
      unfold DiffPosition.setInput DiffPosition.getInputSize DiffPosition.setInputImp
      rw [if_neg (by decide), if_neg (by decide), if_pos rfl, Option.bind_some, if_pos hl, if_neg (by decide), if_neg (by decide),
        if_pos rfl]
      rw [mapIdx_self _ _ fun i hi => by rw [segment3_enc (fun c : DiffPosConstraint => c.target) _ i hi]]
  wrongSize name x y hx hy := by
    have hsz : E.getInputSize name = some x.length := by
      unfold DiffPosition.getInput at hx
      unfold DiffPosition.getInputSize
      split_ifs at hx ⊢ <;> cases hx <;> simp [flatMap_length' (k := 3)]
    unfold DiffPosition.setInput
    rw [hsz, Option.bind_some, if_neg hy]
  setGet name x y hx hy := by
    have hsz : E.getInputSize name = some x.length := by
      unfold DiffPosition.getInput at hx
      unfold DiffPosition.getInputSize
      split_ifs at hx ⊢ <;> cases hx <;> simp [flatMap_length' (k := 3)]
    unfold DiffPosition.setInput
    rw [hsz, Option.bind_some, if_pos hy]
    unfold DiffPosition.getInputSize at hsz
    unfold DiffPosition.setInputImp
    split_ifs at hsz ⊢ with h1 h2 h3
    · subst h1
      simp only [Option.some.injEq] at hsz
      refine ⟨_, rfl, fun _ => ?_, fun other ho hne => ?_⟩
      · exact congrArg some (map_mapIdx_values (fun i (c : DiffPosConstraint) => { c with weight := y.getD i 0 }) (fun c : DiffPosConstraint => c.weight) y (fun _ _ => rfl) _ (by omega))
      · rcases (by simpa [DiffPosition.inputs, hne] using ho : other = "offsets" ∨ other = "targets") with rfl | rfl
        · exact congrArg some (flatMap_mapIdx_same (fun i (c : DiffPosConstraint) => { c with weight := y.getD i 0 })
            (fun c : DiffPosConstraint => [c.offset.x, c.offset.y, c.offset.z]) (fun _ _ => rfl) _)
        · exact congrArg some (flatMap_mapIdx_same (fun i (c : DiffPosConstraint) => { c with weight := y.getD i 0 })
            (fun c : DiffPosConstraint => [c.target.x, c.target.y, c.target.z]) (fun _ _ => rfl) _)
    · subst h2
      simp only [Option.some.injEq] at hsz
      refine ⟨_, rfl, fun _ => ?_, fun other ho hne => ?_⟩
      · exact congrArg some (mapIdx_flatMap_segments (k := 3)
          (fun i (c : DiffPosConstraint) => { c with offset := listSegment3 y i }) (fun c : DiffPosConstraint => [c.offset.x, c.offset.y, c.offset.z])
          (fun _ => rfl) E.constraints y (by omega) (fun i hi a ha j hj => by
            rcases three_cases hj with rfl | rfl | rfl <;> rfl))
      · rcases (by simpa [DiffPosition.inputs, hne] using ho : other = "weights" ∨ other = "targets") with rfl | rfl
        · exact congrArg some (map_mapIdx_same (fun i (c : DiffPosConstraint) => { c with offset := listSegment3 y i })
            (fun c : DiffPosConstraint => c.weight) (fun _ _ => rfl) _)
        · exact congrArg some (flatMap_mapIdx_same (fun i (c : DiffPosConstraint) => { c with offset := listSegment3 y i })
            (fun c : DiffPosConstraint => [c.target.x, c.target.y, c.target.z]) (fun _ _ => rfl) _)
    · subst h3
      simp only [Option.some.injEq] at hsz
      refine ⟨_, rfl, fun _ => ?_, fun other ho hne => ?_⟩
      · exact congrArg some (mapIdx_flatMap_segments (k := 3)
          (fun i (c : DiffPosConstraint) => { c with target := listSegment3 y i }) (fun c : DiffPosConstraint => [c.target.x, c.target.y, c.target.z])
          (fun _ => rfl) E.constraints y (by omega) (fun i hi a ha j hj => by
            rcases three_cases hj with rfl | rfl | rfl <;> rfl))
      · rcases (by simpa [DiffPosition.inputs, hne] using ho : other = "weights" ∨ other = "offsets") with rfl | rfl
        · exact congrArg some (map_mapIdx_same (fun i (c : DiffPosConstraint) => { c with target := listSegment3 y i })
            (fun c : DiffPosConstraint => c.weight) (fun _ _ => rfl) _)
        · exact congrArg some (flatMap_mapIdx_same (fun i (c : DiffPosConstraint) => { c with target := listSegment3 y i })
            (fun c : DiffPosConstraint => [c.offset.x, c.offset.y, c.offset.z]) (fun _ _ => rfl) _)

/-- Orientation constraints keep weights and unit quaternions as they are; `y` has the coefficients in the order x, y, z, w. -/
theorem C79_orientation_inputs (E : DiffOrientation) : InputsConsistent DiffOrientation.inputs DiffOrientation.getInputSize DiffOrientation.getInput
    DiffOrientation.setInput (fun name y => name ≠ "weights" → ∀ i < E.constraints.length,
      (⟨y.getD (4 * i + 3) 0, y.getD (4 * i) 0, y.getD (4 * i + 1) 0, y.getD (4 * i + 2) 0⟩ : Quat ℝ).normSq = 1) E where
  unknown name h := by
    simp [DiffOrientation.inputs] at h
    simp [DiffOrientation.getInputSize, DiffOrientation.getInput, DiffOrientation.setInput, h]
  known name h := by
    rcases (by simpa [DiffOrientation.inputs] using h : name = "weights" ∨ name = "offsets" ∨ name = "targets") with rfl | rfl | rfl
    · refine ⟨E.constraints.map (·.weight), rfl, by simp [DiffOrientation.getInputSize], fun OK => ?_⟩
      unfold DiffOrientation.setInput DiffOrientation.getInputSize DiffOrientation.setInputImp
      rw [if_pos rfl, Option.bind_some, if_pos (by simp), if_pos rfl]
      rw [mapIdx_self _ _ fun i hi => by rw [getD_map_self _ _ i hi]]
    · have hl := flatMap_length' (k := 4) (fun c : DiffRotConstraint => c.offset.coeffs) (fun _ => rfl) E.constraints
      refine ⟨E.constraints.flatMap fun c => c.offset.coeffs, rfl, by rw [hl]; rfl, fun OK => ?_⟩
      unfold DiffOrientation.setInput DiffOrientation.getInputSize DiffOrientation.setInputImp
      rw [if_neg (by decide), if_pos rfl, Option.bind_some, if_pos hl, if_neg (by decide), if_pos rfl]
      rw [mapIdx_self _ _ fun i hi => by
        have := OK (by decide) i hi
        rw [show (⟨_, _, _, _⟩ : Quat ℝ) = listSegment4 _ i from rfl, segment4_enc (fun c : DiffRotConstraint => c.offset) _ i hi] at this
        rw [segment4_enc (fun c : DiffRotConstraint => c.offset) _ i hi, unit_normalized this]]
    · have hl := flatMap_length' (k := 4) (fun c : DiffRotConstraint => c.target.coeffs) (fun _ => rfl) E.constraints
      refine ⟨E.constraints.flatMap fun c => c.target.coeffs, rfl, by rw [hl]; rfl, fun OK => ?_⟩
      unfold DiffOrientation.setInput DiffOrientation.getInputSize DiffOrientation.setInputImp
      rw [if_neg (by decide), if_neg (by decide), if_pos rfl, Option.bind_some, if_pos hl, if_neg (by decide), if_neg (by decide),
        if_pos rfl]
      rw [mapIdx_self _ _ fun i hi => by
        have := OK (by decide) i hi
        rw [show (⟨_, _, _, _⟩ : Quat ℝ) = listSegment4 _ i from rfl, segment4_enc (fun c : DiffRotConstraint => c.target) _ i hi] at this
        rw [segment4_enc (fun c : DiffRotConstraint => c.target) _ i hi, unit_normalized this]]
  wrongSize name x y hx hy := by
    have hsz : E.getInputSize name = some x.length := by
      unfold DiffOrientation.getInput at hx
      unfold DiffOrientation.getInputSize
      split_ifs at hx ⊢ <;> cases hx <;> simp [Quat.coeffs, mul_comm]
    unfold DiffOrientation.setInput
    rw [hsz, Option.bind_some, if_neg hy]
  setGet name x y hx hy := by
    have hsz : E.getInputSize name = some x.length := by
      unfold DiffOrientation.getInput at hx
      unfold DiffOrientation.getInputSize
      split_ifs at hx ⊢ <;> cases hx <;> simp [Quat.coeffs, mul_comm]
    unfold DiffOrientation.setInput
    rw [hsz, Option.bind_some, if_pos hy]
    unfold DiffOrientation.getInputSize at hsz
    unfold DiffOrientation.setInputImp
    split_ifs at hsz ⊢ with h1 h2 h3
    · subst h1
      simp only [Option.some.injEq] at hsz
      refine ⟨_, rfl, fun OK => ?_, fun other ho hne => ?_⟩
      · exact congrArg some (map_mapIdx_values (fun i (c : DiffRotConstraint) => { c with weight := y.getD i 0 }) (fun c : DiffRotConstraint => c.weight) y (fun _ _ => rfl) _ (by omega))
      · rcases (by simpa [DiffOrientation.inputs, hne] using ho : other = "offsets" ∨ other = "targets") with rfl | rfl
        · exact congrArg some (flatMap_mapIdx_same (fun i (c : DiffRotConstraint) => { c with weight := y.getD i 0 })
            (fun c : DiffRotConstraint => c.offset.coeffs) (fun _ _ => rfl) _)
        · exact congrArg some (flatMap_mapIdx_same (fun i (c : DiffRotConstraint) => { c with weight := y.getD i 0 })
            (fun c : DiffRotConstraint => c.target.coeffs) (fun _ _ => rfl) _)
    · subst h2
      simp only [Option.some.injEq] at hsz
      refine ⟨_, rfl, fun OK => ?_, fun other ho hne => ?_⟩
      · exact congrArg some (mapIdx_flatMap_segments (k := 4)
          (fun i (c : DiffRotConstraint) => { c with offset := (listSegment4 y i).normalized }) (fun c : DiffRotConstraint => c.offset.coeffs)
          (fun _ => rfl) E.constraints y (by omega) (fun i hi a ha j hj => by
            rcases four_cases hj with rfl | rfl | rfl | rfl <;> rw [show (listSegment4 y i).normalized = listSegment4 y i from unit_normalized (OK (by decide) i hi)] <;> rfl))
      · rcases (by simpa [DiffOrientation.inputs, hne] using ho : other = "weights" ∨ other = "targets") with rfl | rfl
        · exact congrArg some (map_mapIdx_same (fun i (c : DiffRotConstraint) => { c with offset := (listSegment4 y i).normalized })
            (fun c : DiffRotConstraint => c.weight) (fun _ _ => rfl) _)
        · exact congrArg some (flatMap_mapIdx_same (fun i (c : DiffRotConstraint) => { c with offset := (listSegment4 y i).normalized })
            (fun c : DiffRotConstraint => c.target.coeffs) (fun _ _ => rfl) _)
    · subst h3
      simp only [Option.some.injEq] at hsz
      refine ⟨_, rfl, fun OK => ?_, fun other ho hne => ?_⟩
      · exact congrArg some (mapIdx_flatMap_segments (k := 4)
          (fun i (c : DiffRotConstraint) => { c with target := (listSegment4 y i).normalized }) (fun c : DiffRotConstraint => c.target.coeffs)
          (fun _ => rfl) E.constraints y (by omega) (fun i hi a ha j hj => by
            rcases four_cases hj with rfl | rfl | rfl | rfl <;> rw [show (listSegment4 y i).normalized = listSegment4 y i from unit_normalized (OK (by decide) i hi)] <;> rfl))
      · rcases (by simpa [DiffOrientation.inputs, hne] using ho : other = "weights" ∨ other = "offsets") with rfl | rfl
        · exact congrArg some (map_mapIdx_same (fun i (c : DiffRotConstraint) => { c with target := (listSegment4 y i).normalized })
            (fun c : DiffRotConstraint => c.weight) (fun _ _ => rfl) _)
        · exact congrArg some (flatMap_mapIdx_same (fun i (c : DiffRotConstraint) => { c with target := (listSegment4 y i).normalized })
            (fun c : DiffRotConstraint => c.offset.coeffs) (fun _ _ => rfl) _)

end Momentum
