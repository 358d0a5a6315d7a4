import Verif.Model.SimdCollision
import Verif.Lemmas.CollisionError5
import Verif.Lemmas.CollisionStateless

/-!
# Lemmas for the collision error function with SIMD packets: the closest points and the packets
-/

namespace Momentum

/-! ## The closest points -/

theorem drClamp01_eq (x : ℝ) : drClamp01 x = clamp01 x := by
  unfold drClamp01 clamp01
  split_ifs with h1 h2
  · rw [min_eq_left (by linarith), max_eq_right h1.le]
  · rw [min_eq_right h2.le, max_eq_left zero_le_one]
  · rw [min_eq_left (not_lt.1 h2), max_eq_left (not_lt.1 h1)]

theorem slopeMin_unique {p q s s' : ℝ} (hp : 0 < p) (h : SlopeMin p q s) (h' : SlopeMin p q s') : s = s' := by
  rcases lt_trichotomy s s' with hl | rfl | hl
  · have h1 := h.down (by linarith [h'.hi])
    have h2 := h'.up (by linarith [h.lo])
    nlinarith
  · rfl
  · have h1 := h'.down (by linarith [h.hi])
    have h2 := h.up (by linarith [h'.lo])
    nlinarith

theorem dot_comm3 (u v : Vec3 ℝ) : u.dot v = v.dot u := by simp only [Vec3.dot]; ring

theorem simdSegments_closest (p0 d0 p1 d1 : Vec3 ℝ) :
    IsClosestPair p0 d0 p1 d1 (simdSegments p0 d0 p1 d1).1 (simdSegments p0 d0 p1 d1).2 := by
  apply closest_of_kkt
  have hw : p1 - p0 = -(p0 - p1) := by abel
  have e0 : (p1 - p0).dot d0 = -(d0.dot (p0 - p1)) := by
    simp only [Vec3.dot, Vec3.sub_x, Vec3.sub_y, Vec3.sub_z]; ring
  have e1 : (p1 - p0).dot d1 = -(d1.dot (p0 - p1)) := by
    simp only [Vec3.dot, Vec3.sub_x, Vec3.sub_y, Vec3.sub_z]; ring
  have hzero : ∀ v : Vec3 ℝ, ¬ 0 < v.sqNorm → v = 0 := fun v h =>
    vec_eq_zero_of_sqNorm (le_antisymm (not_lt.1 h) (vec_sqNorm_nonneg v))
  have hD0 : 0 ≤ d0.sqNorm * d1.sqNorm - d0.dot d1 * d0.dot d1 := by
    rw [← lagrange]; exact vec_sqNorm_nonneg _
  have hpar : ¬ 0 < d0.sqNorm * d1.sqNorm - d0.dot d1 * d0.dot d1 →
      d1.sqNorm * d0.dot (p0 - p1) - d0.dot d1 * d1.dot (p0 - p1) = 0 := by
    intro h
    refine parallel_slope ?_ _
    rw [← lagrange] at h
    exact hzero _ h
  have ha := vec_sqNorm_nonneg d0
  have ha0 : ¬ 0 < d0.sqNorm → d0.sqNorm = 0 ∧ d0.dot d1 = 0 ∧ d0.dot (p0 - p1) = 0 := by
    intro h
    rw [hzero _ h]; simp [Vec3.sqNorm, Vec3.dot]
  have hc0 : ¬ 0 < d1.sqNorm → d1.sqNorm = 0 ∧ d0.dot d1 = 0 ∧ d1.dot (p0 - p1) = 0 := by
    intro h
    rw [hzero _ h]; simp [Vec3.sqNorm, Vec3.dot]
  have dd : ∀ v : Vec3 ℝ, v.dot v = v.sqNorm := fun _ => rfl
  simp only [simdSegments, dd, e0, e1, drClamp01_eq, gt_iff_lt]
  generalize d0.sqNorm = a at *
  generalize d1.sqNorm = c at *
  generalize d0.dot d1 = b at *
  generalize d0.dot (p0 - p1) = d at *
  generalize d1.dot (p0 - p1) = e at *
  -- the first stage
  have h0 : SlopeMin (a * c - b * b) (c * d - b * e)
      (clamp01 (if 0 < a * c - b * b then (-d * c - -e * b) / (a * c - b * b) else 0)) := by
    by_cases hD : 0 < a * c - b * b
    · rw [if_pos hD]
      have : (-d * c - -e * b) / (a * c - b * b) = -(c * d - b * e) / (a * c - b * b) := by congr 1; ring
      rw [this]
      exact clamp01_slope hD
    · rw [if_neg hD, hpar hD, le_antisymm (not_lt.1 hD) hD0]
      have : clamp01 (0 : ℝ) = 0 := by simp [clamp01]
      rw [this]; exact slope_zero
  generalize clamp01 (if 0 < a * c - b * b then (-d * c - -e * b) / (a * c - b * b) else 0) = s0 at *
  -- the last stage
  have hlast : ∀ t : ℝ, SlopeMin a (d - b * t) (clamp01 (if 0 < a then (t * b + -d) / a else s0)) := by
    intro t
    by_cases h : 0 < a
    · rw [if_pos h]
      have : (t * b + -d) / a = -(d - b * t) / a := by congr 1; ring
      rw [this]
      exact clamp01_slope h
    · obtain ⟨z1, z2, z3⟩ := ha0 h
      rw [if_neg h, z1, z2, z3]
      have := clamp01_range s0
      exact ⟨this.1, this.2, fun _ => by simp, fun _ => by simp⟩
  by_cases hc : 0 < c
  · rw [if_pos hc]
    have ht : (s0 * b - -e) / c = (b * s0 + e) / c := by congr 1; ring
    rw [ht]
    by_cases k1 : b * s0 + e < 0
    · have et : clamp01 ((b * s0 + e) / c) = 0 := by
        unfold clamp01; rw [if_pos (div_neg_of_neg_of_pos k1 hc)]
      rw [et]
      refine kkt_of_stages hc hD0 h0 (Or.inl ⟨k1, rfl, ?_⟩)
      have := hlast 0
      simpa using this
    by_cases k2 : c < b * s0 + e
    · have et : clamp01 ((b * s0 + e) / c) = 1 := by
        unfold clamp01
        have h1 : 1 < (b * s0 + e) / c := by rw [lt_div_iff₀ hc]; linarith
        rw [if_neg (by linarith), if_pos h1]
      rw [et]
      refine kkt_of_stages hc hD0 h0 (Or.inr (Or.inl ⟨k2, rfl, ?_⟩))
      have := hlast 1
      rwa [mul_one] at this
    · have k1 := not_lt.1 k1
      have k2 := not_lt.1 k2
      have et : clamp01 ((b * s0 + e) / c) = (b * s0 + e) / c := by
        unfold clamp01
        rw [if_neg (not_lt.2 (div_nonneg k1 hc.le)), if_neg (not_lt.2 (by rw [div_le_iff₀ hc]; linarith))]
      rw [et]
      have hk := kkt_of_stages (s := s0) (t := (b * s0 + e) / c) hc hD0 h0
        (Or.inr (Or.inr ⟨k1, k2, rfl, by rw [mul_div_cancel₀ _ hc.ne']⟩))
      exact ⟨hlast _, by
        by_cases h : 0 < a
        · rw [← slopeMin_unique h hk.hs (hlast _)]; exact hk.ht
        · have z2 := (ha0 h).2.1
          have := hk.ht
          rw [z2] at this ⊢
          simpa using this⟩
  · obtain ⟨z1, z2, z3⟩ := hc0 hc
    rw [if_neg hc, z1, z2, z3]
    have : clamp01 (0 : ℝ) = 0 := by simp [clamp01]
    rw [this]
    refine ⟨?_, ?_⟩
    · have := hlast 0
      rw [z2] at this; exact this
    · simpa using slope_zero (K := ℝ)

/-! ## The packets -/

/-- The pairs stored as candidates. -/
def flatPairs (L : List (List Nat)) (m : Nat) : List (Nat × Nat) := (L.zipIdx m).flatMap fun q => q.1.map fun j => (q.2, j)

theorem flatPairs_cons (l : List Nat) (L : List (List Nat)) (m : Nat) :
    flatPairs (l :: L) m = (l.map fun j => (m, j)) ++ flatPairs L (m + 1) := by
  simp [flatPairs, List.zipIdx_cons]

theorem flatPairs_modify (L : List (List Nat)) (a b : Nat) : ∀ m, a < L.length →
    (flatPairs (L.modify a (· ++ [b])) m).Perm ((m + a, b) :: flatPairs L m) := by
  induction L generalizing a with
  | nil => intro m h; simp at h
  | cons l L ih =>
    intro m h
    cases a with
    | zero =>
      rw [List.modify_zero_cons, flatPairs_cons, flatPairs_cons, List.map_append, List.map_singleton, List.append_assoc]
      exact List.perm_middle
    | succ a =>
      rw [List.modify_succ_cons, flatPairs_cons, flatPairs_cons]
      have := ih a (m + 1) (by simpa using h)
      refine (this.append_left _).trans ?_
      rw [show m + 1 + a = m + (a + 1) by omega]
      exact List.perm_middle

theorem flatPairs_replicate (n m : Nat) : flatPairs (List.replicate n []) m = [] := by
  induction n generalizing m with
  | zero => rfl
  | succ n ih => rw [List.replicate_succ, flatPairs_cons, ih]; rfl

/-- A fold that mirrors another. -/
theorem foldlM_mirror {σ τ α : Type} (R : σ → τ → Prop) (f : σ → α → Option σ) (g : τ → α → Option τ) :
    ∀ (l : List α), (∀ a ∈ l, ∀ s t t', R s t → g t a = some t' → ∃ s', f s a = some s' ∧ R s' t') →
    ∀ s t t', R s t → l.foldlM g t = some t' → ∃ s', l.foldlM f s = some s' ∧ R s' t' := by
  intro l
  induction l with
  | nil => intro _ s t t' h h'; exact ⟨s, rfl, (Option.some.inj h') ▸ h⟩
  | cons a l ih =>
    intro hs s t t' h h'
    rw [List.foldlM_cons] at h'
    simp only [Option.bind_eq_bind, Option.bind_eq_some_iff] at h'
    obtain ⟨t1, h1, h2⟩ := h'
    obtain ⟨s1, k1, k2⟩ := hs a (by simp) s t t1 h h1
    obtain ⟨s2, k3, k4⟩ := ih (fun a' ha' => hs a' (by simp [ha'])) s1 t1 t' k2 h2
    exact ⟨s2, by rw [List.foldlM_cons, k1]; exact k3, k4⟩

/-- A fold over packets as one over lane and candidate. -/
theorem packets_flat {σ : Type} (W : Nat) (hW : 0 < W) (l : List Nat) (f : σ → Nat → Nat → Option σ) (s : σ) :
    packets W l f s = (l.zipIdx).foldlM (fun s q => f s (q.2 % W) q.1) s := by
  -- all steps, with the lanes masked out
  have hall : ∀ (P : Nat) (s : σ), (List.range P).foldlM (packetStep W l f) s =
      (List.range (P * W)).foldlM (fun s q => match l[q]? with
        | none => some s
        | some j => f s (q % W) j) s := by
    intro P
    induction P with
    | zero => intro s; simp
    | succ P ih =>
      intro s
      rw [List.range_succ, List.foldlM_append, ih, Nat.succ_mul, List.range_add, List.foldlM_append]
      congr 1
      funext s'
      rw [List.foldlM_map]
      simp only [List.foldlM_cons, List.foldlM_nil, bind_pure]
      have key : ∀ (m : List Nat), (∀ k ∈ m, k < W) → ∀ s', m.foldlM (packetLane W l f P) s' =
          m.foldlM (fun s k => match l[P * W + k]? with
            | none => some s
            | some j => f s ((P * W + k) % W) j) s' := by
        intro m
        induction m with
        | nil => intro _ s'; rfl
        | cons k m ihm =>
          intro hm s'
          rw [List.foldlM_cons, List.foldlM_cons]
          have ek : (P * W + k) % W = k := by
            rw [Nat.add_comm, Nat.add_mul_mod_self_right, Nat.mod_eq_of_lt (hm k (by simp))]
          have e1 : packetLane W l f P s' k = match l[P * W + k]? with
            | none => some s'
            | some j => f s' ((P * W + k) % W) j := by rw [ek]; rfl
          rw [e1]
          congr 1
          funext s2
          exact ihm (fun k' hk' => hm k' (by simp [hk'])) s2
      exact key _ (fun k hk => List.mem_range.1 hk) s'
  unfold packets
  rw [hall]
  -- the candidates one by one
  have hcount : ∃ d, (l.length + W - 1) / W * W = l.length + d := by
    have h1 := Nat.div_add_mod (l.length + W - 1) W
    have h2 := Nat.mod_lt (l.length + W - 1) hW
    rw [Nat.mul_comm] at h1
    exact ⟨(l.length + W - 1) / W * W - l.length, by omega⟩
  obtain ⟨d, hd⟩ := hcount
  rw [hd]
  have key : ∀ (d : Nat) (l0 l : List Nat) (s : σ), (List.range' l0.length (l.length + d)).foldlM
      (fun s q => match (l0 ++ l)[q]? with
        | none => some s
        | some j => f s (q % W) j) s = (l.zipIdx l0.length).foldlM (fun s q => f s (q.2 % W) q.1) s := by
    intro d l0 l
    induction l generalizing l0 with
    | nil =>
      intro s
      simp only [List.length_nil, Nat.zero_add, List.append_nil, List.zipIdx_nil, List.foldlM_nil]
      have : ∀ (m : List Nat), (∀ q ∈ m, l0.length ≤ q) → m.foldlM
          (fun s q => match l0[q]? with
            | none => some s
            | some j => f s (q % W) j) s = some s := by
        intro m
        induction m with
        | nil => intro _; rfl
        | cons q m ihm =>
          intro hm
          rw [List.foldlM_cons, List.getElem?_eq_none (hm q (by simp))]
          exact ihm fun q' hq' => hm q' (by simp [hq'])
      exact this _ fun q hq => (List.mem_range'_1.1 hq).1
    | cons j l ih =>
      intro s
      rw [List.length_cons, show l.length + 1 + d = (l.length + d) + 1 by omega, List.range'_succ, List.foldlM_cons,
        List.zipIdx_cons, List.foldlM_cons]
      have e : (l0 ++ j :: l)[l0.length]? = some j := by simp
      rw [e]
      congr 1
      funext s'
      have := ih (l0 ++ [j]) s'
      simpa using this
  have := key d [] l s
  simpa [List.range_eq_range'] using this

theorem laneSum_addLane (W : Nat) (x : Nat → ℝ) {k : Nat} (hk : k < W) (v : ℝ) :
    laneSum W (SimdCollision.addLane x k v) = laneSum W x + v := by
  have key : ∀ (n : Nat), laneSum n (SimdCollision.addLane x k v) = laneSum n x + if k < n then v else 0 := by
    intro n
    induction n with
    | zero => simp [laneSum]
    | succ n ih =>
      simp only [laneSum] at ih ⊢
      rw [List.range_succ, List.map_append, List.sum_append, ih, List.map_append, List.sum_append]
      simp only [List.map_singleton, List.sum_singleton, SimdCollision.addLane, Function.update_apply]
      rcases lt_trichotomy k n with h | rfl | h
      · rw [if_pos h, if_neg (by omega), if_pos (by omega)]; ring
      · simp; ring
      · rw [if_neg (by omega), if_neg (by omega), if_neg (by omega)]; ring
  rw [key, if_pos hk]

namespace SimdCollision

/-- The loops mirror a fold over the stored pairs. -/
theorem forCandidates_mirror {σ τ : Type} (E : SimdCollision) (W : Nat) (hW : 0 < W) (R : σ → τ → Prop)
    (f : σ → Nat → Nat → Nat → OverlapInfo → Option σ) (g : τ → Nat × Nat → Option τ)
    (h : ∀ i j, (i, j) ∈ flatPairs E.candidates 0 → ∀ k < W, ∀ s t t', R s t → g t (i, j) = some t' →
      ∃ a b s', E.collisionState[i]? = some a ∧ E.collisionState[j]? = some b ∧ f s k i j (simdInfo a b) = some s' ∧ R s' t')
    (s : σ) (t t' : τ) (hR : R s t) (ht : (flatPairs E.candidates 0).foldlM g t = some t') :
    ∃ s', E.forCandidates W f s = some s' ∧ R s' t' := by
  unfold forCandidates
  have e : (flatPairs E.candidates 0).foldlM g t =
      E.candidates.zipIdx.foldlM (fun t q => q.1.zipIdx.foldlM (fun t p => g t (q.2, p.1)) t) t := by
    unfold flatPairs
    have : ∀ (Q : List (List Nat × Nat)) (t : τ), (Q.flatMap fun q => q.1.map fun j => (q.2, j)).foldlM g t =
        Q.foldlM (fun t q => q.1.zipIdx.foldlM (fun t p => g t (q.2, p.1)) t) t := by
      intro Q
      induction Q with
      | nil => intro t; rfl
      | cons q Q ih =>
        intro t
        rw [List.flatMap_cons, List.foldlM_append, List.foldlM_cons]
        have : ∀ (l : List Nat) (m : Nat) (t : τ), (l.map fun j => (q.2, j)).foldlM g t =
            (l.zipIdx m).foldlM (fun t p => g t (q.2, p.1)) t := by
          intro l
          induction l with
          | nil => intro m t; rfl
          | cons j l ihl =>
            intro m t
            rw [List.map_cons, List.zipIdx_cons, List.foldlM_cons, List.foldlM_cons]
            congr 1
            funext t'
            exact ihl _ t'
        rw [this q.1 0]
        congr 1
        funext t'
        exact ih t'
    exact this _ t
  rw [e] at ht
  refine foldlM_mirror R _ _ _ ?_ s t t' hR ht
  intro q hq s t t' hR ht
  rw [packets_flat W hW]
  refine foldlM_mirror R _ _ _ ?_ s t t' hR ht
  intro p hp s t t' hR ht
  have hmem : (q.2, p.1) ∈ flatPairs E.candidates 0 := by
    unfold flatPairs
    refine List.mem_flatMap.2 ⟨q, hq, List.mem_map.2 ⟨p.1, ?_, rfl⟩⟩
    have := List.mem_zipIdx' hp
    rw [this.2]
    exact List.getElem_mem _
  obtain ⟨a, b, s', k1, k2, k3, k4⟩ := h q.2 p.1 hmem (p.2 % W) (Nat.mod_lt _ hW) s t t' hR ht
  refine ⟨s', ?_, k4⟩
  simp only [Option.bind_eq_bind, k1, k2, Option.bind_some]
  exact k3

end SimdCollision
end Momentum
