import Verif.Lemmas.BvhQuery
import Verif.Lemmas.Slab
import Mathlib.Algebra.Order.Field.Rat
import Mathlib.Algebra.Order.Ring.Rat
import Mathlib.Tactic.Positivity
import Mathlib.Tactic.NormNum

/-! # Degenerate trees: the counterexamples to stack safety (C35, C36) -/

namespace Momentum

/-- A point box on the x axis. -/
def xBox (x : ℚ) (id : Nat) : Box ℚ := ⟨⟨x, 0, 0⟩, ⟨x, 0, 0⟩, id⟩

theorem xBox_center (x : ℚ) (id : Nat) : (xBox x id).center = ⟨x, 0, 0⟩ := by
  unfold xBox Box.center
  ext <;> simp

theorem nodeBoxes_line (prims : List (Box ℚ)) (x : Nat → ℚ) (s e : Nat) (hse : s < e)
    (hp : ∀ k, s ≤ k → k < e → prims[k]? = some (xBox (x k) k)) (hx : ∀ j k, s ≤ j → j ≤ k → k < e → x j ≤ x k) :
    nodeBoxes prims s e = .ok (⟨⟨x s, 0, 0⟩, ⟨x (e - 1), 0, 0⟩, s⟩, ⟨⟨x s, 0, 0⟩, ⟨x (e - 1), 0, 0⟩, 0⟩) := by
  unfold nodeBoxes
  have rd : ∀ k, s ≤ k → k < e → readAt prims k = .ok (xBox (x k) k) := by
    intro k h1 h2; unfold readAt; rw [hp k h1 h2]
  rw [rd s le_rfl hse, Outcome.bind_ok]
  have key : ∀ m ≤ e - (s + 1), (List.range m).foldl
      (fun (acc : Outcome (Box ℚ × Box ℚ)) k => acc.bind fun a => boxesStep prims a (s + 1 + k))
      (.ok (xBox (x s) s, Box.ofPoint (xBox (x s) s).center))
      = .ok (⟨⟨x s, 0, 0⟩, ⟨x (s + m), 0, 0⟩, s⟩, ⟨⟨x s, 0, 0⟩, ⟨x (s + m), 0, 0⟩, 0⟩) := by
    intro m hm
    induction m with
    | zero =>
      simp only [List.range_zero, List.foldl_nil, xBox_center, Nat.add_zero]
      unfold Box.ofPoint xBox
      simp only [Outcome.ok.injEq, Prod.mk.injEq, true_and]
      ext <;> simp
    | succ m ih =>
      rw [List.range_succ, List.foldl_append, List.foldl_cons, List.foldl_nil, ih (by omega), Outcome.bind_ok]
      unfold boxesStep
      rw [rd _ (by omega) (by omega), Outcome.bind_ok, xBox_center]
      have a1 : x s ≤ x (s + 1 + m) := hx _ _ le_rfl (by omega) (by omega)
      have a2 : x (s + m) ≤ x (s + 1 + m) := hx _ _ (by omega) (by omega) (by omega)
      rw [show s + (m + 1) = s + 1 + m by omega]
      simp only [Box.extend, Box.extendPoint, xBox, min_eq_left a1, max_eq_right a2, min_self, max_self]
  rw [key _ le_rfl, show s + (e - (s + 1)) = e - 1 by omega]

theorem partition_line (prims : List (Box ℚ)) (x : Nat → ℚ) (s e m : Nat) (hsm : s ≤ m) (hme : m ≤ e)
    (hp : ∀ k, s ≤ k → k < e → prims[k]? = some (xBox (x k) k)) (split : ℚ)
    (h1 : ∀ k, s ≤ k → k < m → x k ≤ split) (h2 : ∀ k, m ≤ k → k < e → split < x k) :
    partitionRange prims s e 0 split = .ok (prims, m) := by
  unfold partitionRange
  have rd : ∀ k, s ≤ k → k < e → readAt prims k = .ok (xBox (x k) k) := by
    intro k h1 h2; unfold readAt; rw [hp k h1 h2]
  have key : ∀ j ≤ e - s, (List.range j).foldl
      (fun (acc : Outcome (List (Box ℚ) × Nat)) k => acc.bind fun st => partitionStep 0 split st (s + k)) (.ok (prims, s))
      = .ok (prims, min (s + j) m) := by
    intro j hj
    induction j with
    | zero => simp [hsm]
    | succ j ih =>
      rw [List.range_succ, List.foldl_append, List.foldl_cons, List.foldl_nil, ih (by omega), Outcome.bind_ok]
      unfold partitionStep
      simp only
      rw [rd _ (by omega) (by omega), Outcome.bind_ok]
      have g1 : (xBox (x (s + j)) (s + j)).min.get 0 = x (s + j) := by simp [xBox, Vec3.get]
      have g2 : (xBox (x (s + j)) (s + j)).max.get 0 = x (s + j) := by simp [xBox, Vec3.get]
      rw [g1, g2]
      by_cases hc : s + j < m
      · rw [if_pos (Or.inl (h1 _ (by omega) hc)), if_neg (by simp; omega)]
        congr 2; omega
      · have := h2 (s + j) (by omega) (by omega)
        rw [if_neg (by rintro (h | h) <;> linarith [h])]
        congr 2; omega
  rw [key _ le_rfl, show min (s + (e - s)) m = m by omega]

theorem maxDim_line (a b : ℚ) (h : a < b) (id : Nat) : (⟨⟨a, 0, 0⟩, ⟨b, 0, 0⟩, id⟩ : Box ℚ).maxDimension = 0 := by
  unfold Box.maxDimension
  simp only [Vec3.sub_x, Vec3.sub_y, Vec3.sub_z]
  rw [if_pos (by linarith), if_pos (by linarith)]

/-- One build step on a line of points, with the split position given. -/
theorem buildStep_line (cap : Nat) (prims : List (Box ℚ)) (flat : List (BvhNode ℚ)) (parent : Nat) (rest : List BuildEntry)
    (x : Nat → ℚ) (s e m : Nat) (hsm : s < m) (hme : m < e)
    (hp : ∀ k, s ≤ k → k < e → prims[k]? = some (xBox (x k) k)) (hx : ∀ j k, s ≤ j → j ≤ k → k < e → x j ≤ x k)
    (hlt : x s < x (e - 1)) (h1 : ∀ k, s ≤ k → k < m → x k ≤ (x s + x (e - 1)) / 2)
    (h2 : ∀ k, m ≤ k → k < e → (x s + x (e - 1)) / 2 < x k) (hpar : parent = kRootParentIndex ∨ parent < flat.length) :
    buildStep 1 cap prims flat ⟨parent, s, e⟩ rest =
      if rest.length + 2 ≤ cap then
        .ok ⟨prims, touch flat parent ++ [⟨⟨⟨x s, 0, 0⟩, ⟨x (e - 1), 0, 0⟩, s⟩, s, e - s, kUntouched⟩],
          ⟨flat.length, s, m⟩ :: ⟨flat.length, m, e⟩ :: rest⟩
      else .ub := by
  unfold buildStep
  simp only [nodeBoxes_line prims x s e (by omega) hp hx, Outcome.bind_ok]
  rw [touchParent_eq _ _ _ hpar]
  have hul : kUntouched ≠ 0 := by unfold kUntouched; omega
  have hcap : ¬ e - s ≤ 1 := by omega
  simp only [Outcome.bind_ok, hcap, BvhNode.isLeaf, if_false, hul, decide_false, Bool.false_eq_true, maxDim_line _ _ hlt]
  rw [show (Vec3.get ⟨x s, 0, 0⟩ 0 : ℚ) = x s by simp [Vec3.get], show (Vec3.get ⟨x (e - 1), 0, 0⟩ 0 : ℚ) = x (e - 1) by simp [Vec3.get],
    partition_line prims x s e m hsm.le hme.le hp _ h1 h2]
  simp only [Outcome.bind_ok]
  rw [if_neg (show ¬ (m = s ∨ m = e) by omega)]
  simp [touch_length]

/-! ### left comb: the build stack overflows -/

/-- Points at 1, 2, 4, …, 2^(n-1). -/
def doubling (n : Nat) : List (Box ℚ) := (List.range n).map fun k => xBox (2 ^ k) k

theorem buildLoop_doubling (cap : Nat) (prims : List (Box ℚ)) : ∀ (n : Nat) (flat : List (BvhNode ℚ)) (parent : Nat)
    (rest : List BuildEntry), 2 ≤ n → cap < rest.length + n → (parent = kRootParentIndex ∨ parent < flat.length) →
    (∀ k < n, prims[k]? = some (xBox (2 ^ k) k)) →
    buildLoop 1 cap ⟨prims, flat, ⟨parent, 0, n⟩ :: rest⟩ = some .ub := by
  intro n
  induction n with
  | zero => intro _ _ _ h; omega
  | succ n ih =>
    intro flat parent rest hn hcap hpar hp
    have mono : ∀ j k : Nat, j ≤ k → (2 : ℚ) ^ j ≤ 2 ^ k := fun j k h => pow_le_pow_right₀ (by norm_num) h
    obtain ⟨q, rfl⟩ : ∃ q, n = q + 1 := ⟨n - 1, by omega⟩
    have hq : (1 : ℚ) ≤ 2 ^ q := by have := mono 0 q (by omega); simpa using this
    rw [buildLoop]
    simp only
    rw [buildStep_line cap prims flat parent rest (fun k => 2 ^ k) 0 (q + 1 + 1) (q + 1) (by omega) (by omega)
      (fun k _ h => hp k h) (fun j k _ h _ => mono j k h) ?_ ?_ ?_ hpar]
    · by_cases hst : rest.length + 2 ≤ cap
      · rw [if_pos hst]
        simp only
        refine ih _ _ _ ?_ ?_ ?_ fun k hk => hp k (by omega)
        · omega
        · simp only [List.length_cons]; omega
        · right; simp [touch_length]
      · rw [if_neg hst]
    · simp only [Nat.add_sub_cancel]; rw [pow_succ]; simp; linarith
    · intro k _ hk
      have := mono k q (by omega)
      simp only [Nat.add_sub_cancel]; rw [pow_succ]; simp; linarith
    · intro k hk1 hk2
      have : k = q + 1 := by omega
      subst this
      simp only [Nat.add_sub_cancel]; rw [pow_succ]; simp; linarith

/-! ### right comb: the query stack overflows -/

/-- Points at -2^(n-1), …, -2, -1. -/
def halving (n : Nat) : List (Box ℚ) := (List.range n).map fun k => xBox (-2 ^ (n - 1 - k)) k

/-- The nodes, in layout order, of the tree over the last `d + 1` points: each left child is a leaf. -/
def combNodes (n : Nat) : Nat → List (BvhNode ℚ)
  | 0 => [⟨xBox (-1) (n - 1), n - 1, 1, 0⟩]
  | d + 1 => ⟨⟨⟨-2 ^ (d + 1), 0, 0⟩, ⟨-1, 0, 0⟩, n - 1 - (d + 1)⟩, n - 1 - (d + 1), d + 2, 2⟩ ::
      ⟨xBox (-2 ^ (d + 1)) (n - 1 - (d + 1)), n - 1 - (d + 1), 1, 0⟩ :: combNodes n d

theorem buildStep_single (cap : Nat) (prims : List (Box ℚ)) (flat : List (BvhNode ℚ)) (parent : Nat) (rest : List BuildEntry)
    (y : ℚ) (s : Nat) (hp : prims[s]? = some (xBox y s)) (hpar : parent = kRootParentIndex ∨ parent < flat.length) :
    buildStep 1 cap prims flat ⟨parent, s, s + 1⟩ rest =
      .ok ⟨prims, touch flat parent ++ [⟨xBox y s, s, 1, 0⟩], rest⟩ := by
  unfold buildStep
  have hb := nodeBoxes_line prims (fun _ => y) s (s + 1) (by omega)
    (fun k h1 h2 => by rw [show k = s by omega]; exact hp) (fun _ _ _ _ _ => le_rfl)
  simp only [hb, Outcome.bind_ok, Nat.add_sub_cancel_left, le_refl, if_true]
  rw [touchParent_eq _ _ _ hpar]
  simp [BvhNode.isLeaf, xBox]

theorem buildLoop_comb (cap n : Nat) (prims : List (Box ℚ)) (hcap : 2 ≤ cap)
    (hp : ∀ k < n, prims[k]? = some (xBox (-2 ^ (n - 1 - k)) k)) (hn : 2 * n < kRootParentIndex) :
    ∀ (d : Nat) (flat : List (BvhNode ℚ)) (parent : Nat), d < n → (parent = kRootParentIndex ∨ parent < flat.length) →
    flat.length + 2 * d + 2 ≤ 2 * n →
    buildLoop 1 cap ⟨prims, flat, [⟨parent, n - 1 - d, n⟩]⟩ = buildLoop 1 cap ⟨prims, touch flat parent ++ combNodes n d, []⟩ := by
  intro d
  induction d with
  | zero =>
    intro flat parent hd hpar _
    rw [buildLoop]
    simp only
    have := buildStep_single cap prims flat parent [] (-1) (n - 1) (by simpa using hp (n - 1) (by omega)) hpar
    rw [show n - 1 + 1 = n by omega] at this
    rw [Nat.sub_zero, this]
    rfl
  | succ d ih =>
    intro flat parent hd hpar hlen
    have mono : ∀ j k : Nat, j ≤ k → (2 : ℚ) ^ j ≤ 2 ^ k := fun j k h => pow_le_pow_right₀ (by norm_num) h
    have hq : (1 : ℚ) ≤ 2 ^ d := by have := mono 0 d (by omega); simpa using this
    have e1 : n - 1 - (n - 1 - (d + 1)) = d + 1 := by omega
    rw [buildLoop]
    simp only
    rw [buildStep_line cap prims flat parent [] (fun k => -2 ^ (n - 1 - k)) (n - 1 - (d + 1)) n (n - 1 - d) (by omega) (by omega)
      (fun k _ h => hp k h) (fun j k _ h _ => by have := mono (n - 1 - k) (n - 1 - j) (by omega); linarith) ?_ ?_ ?_ hpar]
    · rw [if_pos (by simpa using hcap)]
      simp only
      -- left leaf
      rw [buildLoop]
      simp only
      set node0 : BvhNode ℚ := ⟨⟨⟨-2 ^ (n - 1 - (n - 1 - (d + 1))), 0, 0⟩, ⟨-2 ^ (n - 1 - (n - 1)), 0, 0⟩, n - 1 - (d + 1)⟩,
        n - 1 - (d + 1), n - (n - 1 - (d + 1)), kUntouched⟩ with hnode0
      set A := touch flat parent with hA
      have hAl : A.length = flat.length := touch_length flat parent
      have hne : A.length ≠ kRootParentIndex := by unfold kRootParentIndex at *; omega
      have hs := buildStep_single cap prims (A ++ [node0]) flat.length [⟨flat.length, n - 1 - d, n⟩] (-2 ^ (d + 1)) (n - 1 - (d + 1))
        (by rw [hp _ (by omega), e1]) (by right; simp [hAl])
      rw [show n - 1 - (d + 1) + 1 = n - 1 - d by omega] at hs
      rw [hs]
      simp only
      have ht1 : touch (A ++ [node0]) flat.length = A ++ [{ node0 with rightOffset := 2 ^ 32 - 2 }] := by
        rw [← hAl, touch_mid A [] _ hne]
        have : touchVal kUntouched (A.length + 1 + ([] : List (BvhNode ℚ)).length) A.length = 2 ^ 32 - 2 := by
          unfold touchVal
          rw [if_neg (by decide)]
          decide
        simp only [hnode0, this]
      rw [ht1, ih _ _ (by omega) (by right; simp [hAl]) (by simp [hAl]; omega)]
      have ht2 : touch (A ++ [{ node0 with rightOffset := 2 ^ 32 - 2 }] ++ [⟨xBox (-2 ^ (d + 1)) (n - 1 - (d + 1)), n - 1 - (d + 1), 1, 0⟩]) flat.length
          = A ++ { node0 with rightOffset := 2 } :: [⟨xBox (-2 ^ (d + 1)) (n - 1 - (d + 1)), n - 1 - (d + 1), 1, 0⟩] := by
        rw [← hAl, List.append_assoc, List.singleton_append, touch_mid A _ _ hne]
        have : touchVal (2 ^ 32 - 2) (A.length + 1 + 1) A.length = 2 := by
          unfold touchVal kTouchedTwice
          rw [if_pos (by decide), show A.length + 1 + 1 - A.length = 2 by omega]
          decide
        simp only [List.length_singleton, this]
      rw [ht2]
      congr 2
      rw [List.append_assoc, List.cons_append, List.singleton_append, combNodes, hnode0]
      simp only [e1, Nat.sub_self, pow_zero]
      rw [show n - (n - 1 - (d + 1)) = d + 2 by omega]
    · rw [e1, Nat.sub_self, pow_succ]; simp; linarith
    · intro k hk1 hk2
      have : k = n - 1 - (d + 1) := by omega
      subst this
      rw [e1, Nat.sub_self, pow_succ]; simp; linarith
    · intro k hk1 hk2
      have := mono (n - 1 - k) d (by omega)
      rw [e1, Nat.sub_self, pow_succ]; simp; linarith

/-- A query that hits everything runs out of stack on the comb. -/
theorem todoLoop_comb {σ : Type} (b : Bvh ℚ) (cap n : Nat) (leaf : σ → Box ℚ → Outcome σ)
    (visit : Box ℚ → Bool) (hv : ∀ nd ∈ b.flat, visit nd.bbox = true) :
    ∀ (d : Nat) (A : List (BvhNode ℚ)) (rest : List Nat) (x : σ), b.flat = A ++ combNodes n d → 1 ≤ d → cap ≤ rest.length + d →
    todoLoop b cap visit leaf (fun _ => false) (A.length :: rest) x = some .ub := by
  intro d
  induction d with
  | zero => intro _ _ _ _ h; omega
  | succ d ih =>
    intro A rest x hf _ hc
    rw [todoLoop]
    have g0 : readAt b.flat A.length = .ok ⟨⟨⟨-2 ^ (d + 1), 0, 0⟩, ⟨-1, 0, 0⟩, n - 1 - (d + 1)⟩, n - 1 - (d + 1), d + 2, 2⟩ := by
      unfold readAt; rw [hf, List.getElem?_append_right le_rfl, Nat.sub_self, combNodes]; rfl
    have g1 : readAt b.flat (A.length + 1) = .ok ⟨xBox (-2 ^ (d + 1)) (n - 1 - (d + 1)), n - 1 - (d + 1), 1, 0⟩ := by
      unfold readAt; rw [hf, List.getElem?_append_right (by omega), Nat.add_sub_cancel_left, combNodes]; rfl
    have g2 : ∃ nd, readAt b.flat (A.length + 2) = .ok nd := by
      unfold readAt; rw [hf, List.getElem?_append_right (by omega), Nat.add_sub_cancel_left, combNodes]
      cases d <;> exact ⟨_, rfl⟩
    obtain ⟨nd, g2⟩ := g2
    have memRead : ∀ i nd, readAt b.flat i = .ok nd → nd ∈ b.flat := by
      intro i nd h
      unfold readAt at h
      cases hi : b.flat[i]? with
      | none => rw [hi] at h; simp at h
      | some x => rw [hi] at h; simp only [Outcome.ok.injEq] at h; subst h; exact List.mem_of_getElem? hi
    have v1 := hv _ (memRead _ _ g1)
    have v2 := hv _ (memRead _ _ g2)
    simp only at v1
    simp only [todoStep, g0, g1, g2, Outcome.bind_ok, BvhNode.isLeaf]
    simp only [Bool.false_eq_true, if_false, OfNat.ofNat_ne_zero, decide_false, pushIf, if_true, v1, v2]
    by_cases c1 : rest.length < cap
    · simp only [c1, if_true, Outcome.bind_ok, List.length_cons]
      by_cases c2 : rest.length + 1 < cap
      · simp only [c2, if_true, Outcome.bind_ok]
        have := ih (A ++ [⟨⟨⟨-2 ^ (d + 1), 0, 0⟩, ⟨-1, 0, 0⟩, n - 1 - (d + 1)⟩, n - 1 - (d + 1), d + 2, 2⟩,
          ⟨xBox (-2 ^ (d + 1)) (n - 1 - (d + 1)), n - 1 - (d + 1), 1, 0⟩]) ((A.length + 1) :: rest) x
          (by rw [hf, combNodes]; simp) (by omega) (by simp only [List.length_cons]; omega)
        simpa using this
      · simp only [c2, if_false, Outcome.bind_ub]
    · simp only [c1, if_false, Outcome.bind_ub]

end Momentum
