import Verif.Props.BinaryIo
import Mathlib.Data.List.Nodup

/-!
# C61, continued: motion files and characters
-/

namespace Momentum
namespace BinaryIo

theorem get_eq {α : Type} {m : FMat α} {i j : Nat} (h : i < m.rows) : m.get i j = m.data[j * m.rows + i]? := if_pos h

theorem idx_inj {r i i' j j' : Nat} (hi : i < r) (hi' : i' < r) (h : j * r + i = j' * r + i') : i = i' ∧ j = j' := by
  have h1 : (j * r + i) % r = (j' * r + i') % r := by rw [h]
  rw [Nat.mul_add_mod', Nat.mul_add_mod', Nat.mod_eq_of_lt hi, Nat.mod_eq_of_lt hi'] at h1
  subst h1
  refine ⟨rfl, ?_⟩
  have : j * r = j' * r := by omega
  exact Nat.eq_of_mul_eq_mul_right (by omega) this

theorem setRow_spec {α : Type} {dst src : FMat α} {i k : Nat} (hd : dst.data.length = dst.rows * dst.cols)
    (hi : i < dst.rows) (hs : src.data.length = src.rows * src.cols) (hk : k < src.rows) (hc : dst.cols = src.cols) :
    ∃ d, dst.setRow i src k = some d ∧ d.rows = dst.rows ∧ d.cols = dst.cols ∧ d.data.length = dst.data.length ∧
      ∀ i' < dst.rows, ∀ j < dst.cols, d.get i' j = if i' = i then src.get k j else dst.get i' j := by
  have key : ∀ n ≤ dst.cols, ∃ d : FMat α, (List.range n).foldlM (init := dst) (fun d j => do
      let x ← src.get k j
      if i < d.rows then some { d with data := d.data.set (j * d.rows + i) x } else none) = some d ∧
      d.rows = dst.rows ∧ d.cols = dst.cols ∧ d.data.length = dst.data.length ∧
      ∀ i' < dst.rows, ∀ j < dst.cols, d.get i' j = if i' = i ∧ j < n then src.get k j else dst.get i' j := by
    intro n
    induction n with
    | zero => intro _; exact ⟨dst, rfl, rfl, rfl, rfl, fun i' _ j _ => by simp⟩
    | succ n ih =>
      intro hn
      obtain ⟨d, e, h1, h2, h3, h4⟩ := ih (by omega)
      have hlt : n * src.rows + k < src.data.length := by rw [hs]; nlinarith
      obtain ⟨x, hx⟩ : ∃ x, src.get k n = some x := by
        rw [get_eq hk, List.getElem?_eq_getElem hlt]; exact ⟨_, rfl⟩
      refine ⟨⟨d.rows, d.cols, d.data.set (n * d.rows + i) x⟩, ?_, h1, h2, ?_, fun i' hi' j hj => ?_⟩
      · rw [List.range_succ, List.foldlM_append, e]
        simp only [Option.bind_eq_bind, Option.bind_some, List.foldlM_cons, List.foldlM_nil, hx]
        rw [if_pos (by rw [h1]; exact hi)]
        rfl
      · rw [List.length_set]; exact h3
      · have hi2 : i' < d.rows := by rw [h1]; exact hi'
        have e1 : FMat.get ⟨d.rows, d.cols, d.data.set (n * d.rows + i) x⟩ i' j =
          (d.data.set (n * d.rows + i) x)[j * d.rows + i']? := if_pos hi2
        rw [e1, List.getElem?_set]
        by_cases he : n * d.rows + i = j * d.rows + i'
        · obtain ⟨rfl, rfl⟩ := idx_inj (by rw [h1]; exact hi) hi2 he
          rw [if_pos rfl, if_pos (by rw [h3, hd, h1]; nlinarith), if_pos ⟨rfl, by omega⟩, hx]
        · rw [if_neg he, ← get_eq hi2, h4 i' hi' j hj]
          by_cases hii : i' = i
          · subst hii
            have : j ≠ n := by rintro rfl; exact he rfl
            simp only [true_and, show (j < n + 1) ↔ j < n by omega]
          · rw [if_neg (by tauto), if_neg (by tauto)]
  obtain ⟨d, e, h1, h2, h3, h4⟩ := key _ le_rfl
  refine ⟨d, e, h1, h2, h3, fun i' hi' j hj => ?_⟩
  rw [h4 i' hi' j hj]
  simp only [hj, and_true]

theorem posesFold {α : Type} {zero : α} {src : FMat α} (hs : src.data.length = src.rows * src.cols) {N : Nat}
    {pMap : List (Option Nat)} (hp : ∀ i r, pMap[i]? = some (some r) → r < N ∧ i < src.rows) (n : Nat) :
    ∃ out : FMat α, (List.range n).foldlM (mapPoseStep src pMap) ⟨N, src.cols, List.replicate (N * src.cols) zero⟩ = some out ∧
      out.rows = N ∧ out.cols = src.cols ∧ out.data.length = N * src.cols ∧
      ∀ r < N, ∀ j < src.cols,
        (∀ i < n, pMap[i]? = some (some r) → (∀ i' < n, i < i' → pMap[i']? ≠ some (some r)) → out.get r j = src.get i j) ∧
        ((∀ i < n, pMap[i]? ≠ some (some r)) → out.get r j = some zero) := by
  induction n with
  | zero =>
    refine ⟨_, rfl, rfl, rfl, by simp, fun r hr j hj => ⟨fun i hi => absurd hi (by omega), fun _ => ?_⟩⟩
    have : FMat.get ⟨N, src.cols, List.replicate (N * src.cols) zero⟩ r j =
      (List.replicate (N * src.cols) zero)[j * N + r]? := if_pos hr
    rw [this, List.getElem?_replicate, if_pos (by nlinarith)]
  | succ n ih =>
    obtain ⟨out, e, h1, h2, h3, h4⟩ := ih
    rw [List.range_succ, List.foldlM_append, e]
    simp only [Option.bind_eq_bind, Option.bind_some, List.foldlM_cons, List.foldlM_nil, mapPoseStep]
    rcases hn : pMap[n]? with _ | _ | r0
    · refine ⟨out, rfl, h1, h2, h3, fun r hr j hj => ⟨fun i hi h hl => ?_, fun h => ?_⟩⟩
      · have : i ≠ n := by rintro rfl; rw [hn] at h; simp at h
        exact (h4 r hr j hj).1 i (by omega) h (fun i' hi' => hl i' (by omega))
      · exact (h4 r hr j hj).2 fun i hi => h i (by omega)
    · refine ⟨out, rfl, h1, h2, h3, fun r hr j hj => ⟨fun i hi h hl => ?_, fun h => ?_⟩⟩
      · have : i ≠ n := by rintro rfl; rw [hn] at h; simp at h
        exact (h4 r hr j hj).1 i (by omega) h (fun i' hi' => hl i' (by omega))
      · exact (h4 r hr j hj).2 fun i hi => h i (by omega)
    · obtain ⟨hr0, hn0⟩ := hp n r0 hn
      obtain ⟨d, e', k1, k2, k3, k4⟩ := setRow_spec (dst := out) (src := src) (i := r0) (k := n)
        (by rw [h3, h1, h2]) (by rw [h1]; exact hr0) hs hn0 h2
      simp only
      rw [e']
      refine ⟨d, rfl, by rw [k1, h1], by rw [k2, h2], by rw [k3, h3], fun r hr j hj => ⟨fun i hi h hl => ?_, fun h => ?_⟩⟩
      · rw [k4 r (by rw [h1]; exact hr) j (by rw [h2]; exact hj)]
        by_cases hrr : r = r0
        · subst hrr
          have : i = n := by
            by_contra hne
            exact hl n (by omega) (by omega) hn
          rw [if_pos rfl, this]
        · rw [if_neg hrr]
          have : i ≠ n := by
            rintro rfl; rw [hn] at h; simp only [Option.some.injEq] at h; exact hrr h.symm
          exact (h4 r hr j hj).1 i (by omega) h (fun i' hi' => hl i' (by omega))
      · rw [k4 r (by rw [h1]; exact hr) j (by rw [h2]; exact hj),
          if_neg (by rintro rfl; exact h n (by omega) hn)]
        exact (h4 r hr j hj).2 fun i hi => h i (by omega)

theorem blockFold {α : Type} {scale out : List α} {i j : Nat} (hi : i * 7 + 7 ≤ scale.length) (hj : j * 7 + 7 ≤ out.length) :
    ∃ out', (List.range 7).foldlM (fun (out : List α) k => do
      let x ← scale[i * 7 + k]?
      some (out.set (j * 7 + k) x)) out = some out' ∧ out'.length = out.length ∧
      ∀ q, out'[q]? = if j * 7 ≤ q ∧ q < j * 7 + 7 then scale[i * 7 + (q - j * 7)]? else out[q]? := by
  have key : ∀ n ≤ 7, ∃ out', (List.range n).foldlM (fun (out : List α) k => do
      let x ← scale[i * 7 + k]?
      some (out.set (j * 7 + k) x)) out = some out' ∧ out'.length = out.length ∧
      ∀ q, out'[q]? = if j * 7 ≤ q ∧ q < j * 7 + n then scale[i * 7 + (q - j * 7)]? else out[q]? := by
    intro n
    induction n with
    | zero => intro _; exact ⟨out, rfl, rfl, fun q => by rw [if_neg (by omega)]⟩
    | succ n ih =>
      intro hn
      obtain ⟨o, e, h1, h2⟩ := ih (by omega)
      have hx : scale[i * 7 + n]? = some (scale[i * 7 + n]'(by omega)) := List.getElem?_eq_getElem _
      refine ⟨o.set (j * 7 + n) (scale[i * 7 + n]'(by omega)), ?_, by rw [List.length_set, h1], fun q => ?_⟩
      · rw [List.range_succ, List.foldlM_append, e]
        simp only [Option.bind_eq_bind, Option.bind_some, List.foldlM_cons, List.foldlM_nil, hx]
        rfl
      · rw [List.getElem?_set]
        by_cases hq : j * 7 + n = q
        · subst hq
          rw [if_pos rfl, if_pos (by omega), if_pos (by omega), Nat.add_sub_cancel_left, hx]
        · rw [if_neg hq, h2 q]
          by_cases hb : j * 7 ≤ q ∧ q < j * 7 + n
          · rw [if_pos hb, if_pos (by omega)]
          · rw [if_neg hb, if_neg (by omega)]
  exact key 7 le_rfl

theorem offsetFold {α : Type} {zero : α} {scale : List α} {N : Nat}
    {jMap : List (Option Nat)} (hp : ∀ i r, jMap[i]? = some (some r) → r < N ∧ i * 7 + 7 ≤ scale.length) (n : Nat) :
    ∃ out : List α, (List.range n).foldlM (mapOffsetStep scale jMap) (List.replicate (N * 7) zero) = some out ∧ out.length = N * 7 ∧
      ∀ r < N, ∀ k < 7,
        (∀ i < n, jMap[i]? = some (some r) → (∀ i' < n, i < i' → jMap[i']? ≠ some (some r)) →
          out[r * 7 + k]? = scale[i * 7 + k]?) ∧
        ((∀ i < n, jMap[i]? ≠ some (some r)) → out[r * 7 + k]? = some zero) := by
  induction n with
  | zero =>
    refine ⟨_, rfl, by simp, fun r hr j hj => ⟨fun i hi => absurd hi (by omega), fun _ => ?_⟩⟩
    rw [List.getElem?_replicate, if_pos (by omega)]
  | succ n ih =>
    obtain ⟨out, e, h3, h4⟩ := ih
    rw [List.range_succ (n := n), List.foldlM_append, e]
    simp only [Option.bind_eq_bind, Option.bind_some, List.foldlM_cons, List.foldlM_nil, mapOffsetStep]
    rcases hn : jMap[n]? with _ | _ | r0
    · refine ⟨out, rfl, h3, fun r hr j hj => ⟨fun i hi h hl => ?_, fun h => ?_⟩⟩
      · have : i ≠ n := by rintro rfl; rw [hn] at h; simp at h
        exact (h4 r hr j hj).1 i (by omega) h (fun i' hi' => hl i' (by omega))
      · exact (h4 r hr j hj).2 fun i hi => h i (by omega)
    · refine ⟨out, rfl, h3, fun r hr j hj => ⟨fun i hi h hl => ?_, fun h => ?_⟩⟩
      · have : i ≠ n := by rintro rfl; rw [hn] at h; simp at h
        exact (h4 r hr j hj).1 i (by omega) h (fun i' hi' => hl i' (by omega))
      · exact (h4 r hr j hj).2 fun i hi => h i (by omega)
    · obtain ⟨hr0, hn0⟩ := hp n r0 hn
      obtain ⟨d, e', k3, k4⟩ := blockFold (scale := scale) (out := out) (i := n) (j := r0) hn0 (by omega)
      simp only [Option.bind_eq_bind] at e' ⊢
      rw [e']
      refine ⟨d, rfl, by rw [k3, h3], fun r hr k hk => ⟨fun i hi h hl => ?_, fun h => ?_⟩⟩
      · rw [k4]
        by_cases hrr : r = r0
        · subst hrr
          have : i = n := by
            by_contra hne
            exact hl n (by omega) (by omega) hn
          rw [if_pos (by omega), this, Nat.add_sub_cancel_left]
        · rw [if_neg (by omega)]
          have : i ≠ n := by
            rintro rfl; rw [hn] at h; simp only [Option.some.injEq] at h; exact hrr h.symm
          exact (h4 r hr k hk).1 i (by omega) h (fun i' hi' => hl i' (by omega))
      · have : r ≠ r0 := by rintro rfl; exact h n (by omega) hn
        rw [k4, if_neg (by omega)]
        exact (h4 r hr k hk).2 fun i hi => h i (by omega)

/-- The first place of a name. -/
theorem findIdx_iff (l : List (List UInt8)) (s : List UInt8) (r : Nat) :
    l.findIdx? (· == s) = some r ↔ l[r]? = some s ∧ ∀ r' < r, l[r']? ≠ some s := by
  rw [List.findIdx?_eq_some_iff_getElem]
  constructor
  · rintro ⟨h, h1, h2⟩
    refine ⟨by rw [List.getElem?_eq_getElem h, eq_of_beq h1], fun r' hr' e => ?_⟩
    have := h2 r' hr'
    rw [List.getElem?_eq_getElem (by omega), Option.some.injEq] at e
    rw [e] at this
    simp at this
  · rintro ⟨h1, h2⟩
    obtain ⟨h, e⟩ := List.getElem?_eq_some_iff.1 h1
    refine ⟨h, by rw [e]; simp, fun r' hr' => ?_⟩
    have := h2 r' hr'
    rw [List.getElem?_eq_getElem (by omega)] at this
    simpa using this

/-- **C61** (motions for another character): a parameter of the character gets the frames stored under its name, and a joint
its seven offsets; what has no counterpart in the file is 0.  If the file has a name several times its last occurrence counts,
if the character has it several times its first. -/
theorem C61_map_motion {α : Type} (zero : α) (m : Motion α) (ch : Names)
    (h1 : m.poses.data.length = m.poses.rows * m.poses.cols) (h2 : m.poses.rows = m.parameterNames.length)
    (h3 : m.scale.length = m.jointNames.length * 7) (h4 : ch.parameters.length = ch.numParameters) :
    ∃ poses scale, mapMotionToCharacter zero m ch = some (poses, scale) ∧ poses.rows = ch.numParameters ∧
      poses.cols = m.poses.cols ∧ poses.data.length = poses.rows * poses.cols ∧ scale.length = ch.joints.length * 7 ∧
      (∀ r i name, ch.parameters[r]? = some name → m.parameterNames[i]? = some name →
        (∀ r' < r, ch.parameters[r']? ≠ some name) → (∀ i' > i, m.parameterNames[i']? ≠ some name) →
        ∀ j < m.poses.cols, poses.get r j = m.poses.get i j) ∧
      (∀ r name, ch.parameters[r]? = some name → name ∉ m.parameterNames → ∀ j < m.poses.cols, poses.get r j = some zero) ∧
      (∀ r i name, ch.joints[r]? = some name → m.jointNames[i]? = some name →
        (∀ r' < r, ch.joints[r']? ≠ some name) → (∀ i' > i, m.jointNames[i']? ≠ some name) →
        ∀ k < 7, scale[r * 7 + k]? = m.scale[i * 7 + k]?) ∧
      (∀ r name, ch.joints[r]? = some name → name ∉ m.jointNames → ∀ k < 7, scale[r * 7 + k]? = some zero) := by
  have hmap : ∀ (A B : List (List UInt8)) (i r : Nat), (B.map fun n => A.findIdx? (· == n))[i]? = some (some r) ↔
      ∃ name, B[i]? = some name ∧ A[r]? = some name ∧ ∀ r' < r, A[r']? ≠ some name := by
    intro A B i r
    rw [List.getElem?_map]
    cases hB : B[i]? with
    | none => simp
    | some name => simp [findIdx_iff]
  obtain ⟨poses, e1, a1, a2, a3, a4⟩ := posesFold (zero := zero) h1 (N := ch.numParameters)
    (pMap := m.parameterNames.map fun n => ch.parameters.findIdx? (· == n)) (by
      intro i r h
      obtain ⟨name, b1, b2, -⟩ := (hmap _ _ _ _).1 h
      exact ⟨by rw [← h4]; exact (List.getElem?_eq_some_iff.1 b2).1, by rw [h2]; exact (List.getElem?_eq_some_iff.1 b1).1⟩)
    m.parameterNames.length
  obtain ⟨scale, e2, b1, b2⟩ := offsetFold (zero := zero) (scale := m.scale) (N := ch.joints.length)
    (jMap := m.jointNames.map fun n => ch.joints.findIdx? (· == n)) (by
      intro i r h
      obtain ⟨name, b1, b2, -⟩ := (hmap _ _ _ _).1 h
      have := (List.getElem?_eq_some_iff.1 b1).1
      exact ⟨(List.getElem?_eq_some_iff.1 b2).1, by omega⟩)
    m.jointNames.length
  refine ⟨poses, scale, ?_, a1, a2, by rw [a3, a1, a2], b1, ?_, ?_, ?_, ?_⟩
  · unfold mapMotionToCharacter
    simp only [List.length_map]
    rw [e2]
    simp only [Option.bind_eq_bind, Option.bind_some]
    rw [e1]
    rfl
  · intro r i name c1 c2 c3 c4 j hj
    have hr : r < ch.numParameters := by rw [← h4]; exact (List.getElem?_eq_some_iff.1 c1).1
    refine (a4 r hr j hj).1 i (List.getElem?_eq_some_iff.1 c2).1 ((hmap _ _ _ _).2 ⟨name, c2, c1, c3⟩) ?_
    intro i' _ hi' h
    obtain ⟨name', d1, d2, -⟩ := (hmap _ _ _ _).1 h
    rw [c1] at d2
    cases d2
    exact c4 i' hi' d1
  · intro r name c1 c2 j hj
    have hr : r < ch.numParameters := by rw [← h4]; exact (List.getElem?_eq_some_iff.1 c1).1
    refine (a4 r hr j hj).2 fun i _ h => ?_
    obtain ⟨name', d1, d2, -⟩ := (hmap _ _ _ _).1 h
    rw [c1] at d2
    cases d2
    exact c2 (List.mem_iff_getElem?.2 ⟨i, d1⟩)
  · intro r i name c1 c2 c3 c4 k hk
    have hr := (List.getElem?_eq_some_iff.1 c1).1
    refine (b2 r hr k hk).1 i (List.getElem?_eq_some_iff.1 c2).1 ((hmap _ _ _ _).2 ⟨name, c2, c1, c3⟩) ?_
    intro i' _ hi' h
    obtain ⟨name', d1, d2, -⟩ := (hmap _ _ _ _).1 h
    rw [c1] at d2
    cases d2
    exact c4 i' hi' d1
  · intro r name c1 c2 k hk
    have hr := (List.getElem?_eq_some_iff.1 c1).1
    refine (b2 r hr k hk).2 fun i _ h => ?_
    obtain ⟨name', d1, d2, -⟩ := (hmap _ _ _ _).1 h
    rw [c1] at d2
    cases d2
    exact c2 (List.mem_iff_getElem?.2 ⟨i, d1⟩)

/-! ### Saving with a character and loading again -/

/-- A matrix with all its entries. -/
def FMat.Full {α : Type} (m : FMat α) : Prop := m.data.length = m.rows * m.cols

/-- The matrix of poses with the additional parameters below. -/
def joined (poses additional : FMat UInt32) : List UInt32 := (List.range poses.cols).flatMap fun j =>
  (poses.data.drop (j * poses.rows)).take poses.rows ++ (additional.data.drop (j * additional.rows)).take additional.rows

theorem joined_spec {poses additional : FMat UInt32} (hp : poses.Full) (ha : additional.Full)
    (hc : additional.rows = 0 ∨ additional.cols = poses.cols) :
    (joined poses additional).length = (poses.rows + additional.rows) * poses.cols ∧
    (∀ i < poses.rows, ∀ j < poses.cols, (joined poses additional)[j * (poses.rows + additional.rows) + i]? = poses.get i j) ∧
    ∀ i < additional.rows, ∀ j < poses.cols,
      (joined poses additional)[j * (poses.rows + additional.rows) + (poses.rows + i)]? = additional.get i j := by
  have hlen : ∀ j < poses.cols, ((poses.data.drop (j * poses.rows)).take poses.rows).length = poses.rows :=
    fun j hj => col_length hp hj _ le_rfl
  have hlen2 : ∀ j < poses.cols, ((additional.data.drop (j * additional.rows)).take additional.rows).length =
      additional.rows := by
    intro j hj
    rcases hc with h | h
    · rw [h]; simp
    · exact col_length ha (by rw [h]; exact hj) _ le_rfl
  obtain ⟨h1, h2⟩ := flatMap_get (fun j => (poses.data.drop (j * poses.rows)).take poses.rows ++
    (additional.data.drop (j * additional.rows)).take additional.rows) (poses.rows + additional.rows) poses.cols
    (fun j hj => by rw [List.length_append, hlen j hj, hlen2 j hj])
  refine ⟨by rw [mul_comm]; exact h1, fun i hi j hj => ?_, fun i hi j hj => ?_⟩
  · rw [get_eq hi, ← col_get _ _ _ _ hi]
    unfold joined
    rw [h2 i (by omega) j hj, List.getElem?_append_left (by rw [hlen j hj]; exact hi)]
  · rw [get_eq hi, ← col_get _ _ _ _ hi]
    unfold joined
    rw [h2 _ (by omega) j hj, List.getElem?_append_right (by rw [hlen j hj]; omega), hlen j hj, Nat.add_sub_cancel_left]

/-- The sizes that `saveMmo` accepts, with additional parameters for every frame, and numbers that fit into 64 bits. -/
structure Saveable (poses : FMat UInt32) (scale : List UInt32) (ch : Names) (additional : FMat UInt32)
    (additionalNames : List (List UInt8)) : Prop where
  hposes : poses.Full
  hadditional : additional.Full
  rows : poses.rows = ch.numParameters
  params : ch.parameters.length = ch.numParameters
  hscale : scale.length = ch.joints.length * 7
  arows : additional.rows = additionalNames.length
  acols : additional.cols = poses.cols ∨ (additional.rows = 0 ∧ additional.cols = 0)
  size : ch.parameters.length + additionalNames.length < 2 ^ 64 ∧ ch.joints.length < 2 ^ 64 ∧ poses.cols < 2 ^ 64
  names : ∀ s ∈ ch.parameters ++ additionalNames ++ ch.joints, s.length + 4 < 2 ^ 64

theorem saved {poses : FMat UInt32} {scale : List UInt32} {ch : Names} {additional : FMat UInt32}
    {additionalNames : List (List UInt8)} (h : Saveable poses scale ch additional additionalNames) :
    ∃ file, saveMmoCharacter poses scale ch additional additionalNames = .ok (some file) ∧
      loadMmo file = ⟨⟨poses.rows + additional.rows, poses.cols, (joined poses additional).map some⟩, scale.map some,
        ch.parameters ++ additionalNames.map decorate, ch.joints⟩ := by
  have hw : ∃ file, saveMmo ⟨⟨poses.rows + additional.rows, poses.cols, joined poses additional⟩, scale,
      ch.parameters ++ additionalNames.map decorate, ch.joints⟩ = some file :=
    (C61_mmo_written _).2 ⟨by simp [h.rows, h.params, h.arows], h.hscale⟩
  obtain ⟨file, hf⟩ := hw
  refine ⟨file, ?_, ?_⟩
  · unfold saveMmoCharacter
    rw [if_neg (by simp [h.rows]), if_neg (by simp [h.hscale]), if_neg (by simp [h.arows]),
      if_neg (by rcases h.acols with e | e <;> simp [e]), if_neg (by rcases h.acols with e | e <;> simp [e])]
    exact congrArg Outcome.ok hf
  · refine C61_mmo_roundtrip ⟨?_, ?_, h.size.2.1, h.size.2.2, ?_, ?_⟩ hf
    · exact (joined_spec h.hposes h.hadditional (by rcases h.acols with e | e <;> simp [e])).1
    · simpa using h.size.1
    · intro s hs
      rcases List.mem_append.1 hs with hs | hs
      · have := h.names s (by simp [hs]); omega
      · obtain ⟨t, ht, rfl⟩ := List.mem_map.1 hs
        have := h.names t (by simp [ht])
        simpa [decorate] using this
    · intro s hs
      have := h.names s (by simp only [List.mem_append]; exact Or.inr hs); omega

theorem nodup_get {l : List (List UInt8)} (h : l.Nodup) {i j : Nat} {s : List UInt8} (hi : l[i]? = some s)
    (hj : l[j]? = some s) : i = j :=
  (List.getElem?_inj (List.getElem?_eq_some_iff.1 hi).1 h).1 (hi.trans hj.symm)

/-- **C61** (motions of a character): saving a motion with a character and loading it with the same character gives back the
poses and the offsets, whatever additional parameters are stored along, as long as names are distinct. -/
theorem C61_character_roundtrip {poses : FMat UInt32} {scale : List UInt32} {ch : Names} {additional : FMat UInt32}
    {additionalNames : List (List UInt8)} (h : Saveable poses scale ch additional additionalNames)
    (hp : ch.parameters.Nodup) (hj : ch.joints.Nodup) (ha : ∀ s ∈ additionalNames, decorate s ∉ ch.parameters) :
    ∃ file, saveMmoCharacter poses scale ch additional additionalNames = .ok (some file) ∧
      mapMotionToCharacter (some 0) (loadMmo file) ch =
        some (⟨poses.rows, poses.cols, poses.data.map some⟩, scale.map some) := by
  obtain ⟨file, h1, h2⟩ := saved h
  obtain ⟨j1, j2, -⟩ := joined_spec h.hposes h.hadditional (by rcases h.acols with e | e <;> simp [e])
  refine ⟨file, h1, ?_⟩
  obtain ⟨P, S, e, a1, a2, a3, a4, a5, -, a7, -⟩ := C61_map_motion (some 0) (loadMmo file) ch
    (by rw [h2]; simpa using j1) (by rw [h2]; simp [h.rows, h.params, h.arows]) (by rw [h2]; simp [h.hscale]) h.params
  rw [e]
  have hpc : P.cols = poses.cols := by rw [a2, h2]
  have hP : P = ⟨poses.rows, poses.cols, poses.data.map some⟩ := by
    have hd : P.data = poses.data.map some := by
      refine mat_ext (r := poses.rows) (c := poses.cols) (by rw [a3, a1, hpc, h.rows]; ring)
        (by rw [List.length_map, h.hposes]; ring) fun i hi j hj => ?_
      have hi' : i < ch.parameters.length := by rw [h.params, ← h.rows]; exact hi
      have hname : ch.parameters[i]? = some ch.parameters[i] := List.getElem?_eq_getElem hi'
      have hfile : (loadMmo file).parameterNames[i]? = some ch.parameters[i] := by
        rw [h2]; simp only; rw [List.getElem?_append_left hi', hname]
      have := a5 i i _ hname hfile (fun r' hr' c => by have := nodup_get hp c hname; omega) (by
        intro i' hi'' c
        rw [h2] at c
        simp only at c
        by_cases hlt : i' < ch.parameters.length
        · rw [List.getElem?_append_left hlt] at c
          have := nodup_get hp c hname; omega
        · rw [List.getElem?_append_right (by omega)] at c
          have := List.mem_of_getElem? c
          obtain ⟨t, ht, e⟩ := List.mem_map.1 this
          exact ha t ht (e ▸ List.getElem_mem _)) j (by rw [h2]; exact hj)
      have hPr : P.rows = poses.rows := by rw [a1, h.rows]
      rw [get_eq (by rw [hPr]; exact hi), hPr, h2] at this
      rw [this]
      have e3 : FMat.get (⟨poses.rows + additional.rows, poses.cols, (joined poses additional).map some⟩ :
          FMat (Option UInt32)) i j = ((joined poses additional).map some)[j * (poses.rows + additional.rows) + i]? :=
        if_pos (Nat.lt_of_lt_of_le hi (Nat.le_add_right _ _))
      rw [e3, List.getElem?_map, j2 i hi j hj, get_eq hi, List.getElem?_map]
    cases P
    simp only at hd hpc a1
    rw [hd, hpc, a1, h.rows]
  have hS : S = scale.map some := by
    apply List.ext_getElem?
    intro q
    by_cases hq : q < ch.joints.length * 7
    · have hr : q / 7 < ch.joints.length := by omega
      have hname : ch.joints[q / 7]? = some ch.joints[q / 7] := List.getElem?_eq_getElem hr
      have hfile : (loadMmo file).jointNames[q / 7]? = some ch.joints[q / 7] := by rw [h2]; exact hname
      have := a7 (q / 7) (q / 7) _ hname hfile (fun r' hr' c => by have := nodup_get hj c hname; omega)
        (fun i' hi' c => by rw [h2] at c; have := nodup_get hj c hname; omega) (q % 7) (Nat.mod_lt _ (by norm_num))
      rw [Nat.div_add_mod'] at this
      rw [this, h2]
    · rw [List.getElem?_eq_none (by omega), List.getElem?_eq_none (by rw [List.length_map, h.hscale]; omega)]
  rw [hP, hS]

theorem isDecorated_decorate {s : List UInt8} (h : s ≠ []) : isDecorated (decorate s) = true := by
  have hl : (decorate s).length - 2 = (95 :: 95 :: s).length := by simp [decorate]
  have hd : (decorate s).drop ((decorate s).length - 2) = [95, 95] := by
    rw [hl, show decorate s = (95 :: 95 :: s) ++ [95, 95] from rfl, List.drop_left]
  unfold isDecorated
  rw [hd]
  have : 0 < s.length := List.length_pos_of_ne_nil h
  simp [decorate]
  omega

theorem undecorate (s : List UInt8) : ((decorate s).drop 2).take ((decorate s).length - 4) = s := by
  simp [decorate]

theorem mapM_eq_map {α β : Type} {f : α → Option β} {g : α → β} {l : List α} (h : ∀ x ∈ l, f x = some (g x)) :
    l.mapM f = some (l.map g) := by
  induction l with
  | nil => rfl
  | cons x l ih =>
    rw [List.mapM_cons, h x (by simp), ih (fun y hy => h y (by simp [hy]))]
    rfl

/-- **C61** (additional parameters): the additional parameters stored with a motion are found again, with their names and
values, if their names are not empty and no parameter of the character looks like one. -/
theorem C61_auxiliary_roundtrip {poses : FMat UInt32} {scale : List UInt32} {ch : Names} {additional : FMat UInt32}
    {additionalNames : List (List UInt8)} (h : Saveable poses scale ch additional additionalNames)
    (hch : ∀ s ∈ ch.parameters, isDecorated s = false) (hne : ∀ s ∈ additionalNames, s ≠ []) :
    ∃ file, saveMmoCharacter poses scale ch additional additionalNames = .ok (some file) ∧
      getAuxilaryDataFromMotion (loadMmo file).poses (loadMmo file).parameterNames =
        some (⟨additional.rows, poses.cols, additional.data.map some⟩, additionalNames) := by
  obtain ⟨file, h1, h2⟩ := saved h
  obtain ⟨j1, -, j3⟩ := joined_spec h.hposes h.hadditional (by rcases h.acols with e | e <;> simp [e])
  refine ⟨file, h1, ?_⟩
  rw [h2]
  set names := ch.parameters ++ additionalNames.map decorate with hnames
  have hl : names.length = ch.parameters.length + additionalNames.length := by simp [hnames]
  have hright : ∀ i < additionalNames.length, names[ch.parameters.length + i]? =
      (additionalNames[i]?).map decorate := by
    intro i hi
    rw [hnames, List.getElem?_append_right (by omega), Nat.add_sub_cancel_left, List.getElem?_map]
  have hmap : (List.range names.length).filter (fun i => (names[i]?.map isDecorated).getD false) =
      (List.range additionalNames.length).map (ch.parameters.length + ·) := by
    rw [hl, List.range_add, List.filter_append, List.filter_eq_nil_iff.2, List.nil_append, List.filter_eq_self.2]
    · intro q hq
      obtain ⟨i, hi, rfl⟩ := List.mem_map.1 hq
      have hi := List.mem_range.1 hi
      rw [hright i hi, List.getElem?_eq_getElem hi]
      simp only [Option.map_some, Option.getD_some]
      exact isDecorated_decorate (hne _ (List.getElem_mem _))
    · intro i hi
      have hi := List.mem_range.1 hi
      rw [hnames, List.getElem?_append_left hi, List.getElem?_eq_getElem hi]
      simp only [Option.map_some, Option.getD_some]
      rw [hch _ (List.getElem_mem _)]
      simp
  have hnm : ((List.range additionalNames.length).map (ch.parameters.length + ·)).filterMap
      (fun i => names[i]?.map fun n => (n.drop 2).take (n.length - 4)) = additionalNames := by
    rw [List.filterMap_map]
    have : (List.range additionalNames.length).filterMap ((fun i => names[i]?.map fun n => (n.drop 2).take (n.length - 4)) ∘
        (ch.parameters.length + ·)) = (List.range additionalNames.length).filterMap fun i => additionalNames[i]? := by
      apply List.filterMap_congr
      intro i hi
      have hi := List.mem_range.1 hi
      simp only [Function.comp]
      rw [hright i hi, List.getElem?_eq_getElem hi]
      simp only [Option.map_some, undecorate]
    rw [this]
    apply List.ext_getElem?
    intro i
    have : (List.range additionalNames.length).filterMap (fun i => additionalNames[i]?) =
        (List.range additionalNames.length).map fun i => additionalNames.getD i [] := by
      rw [← List.filterMap_eq_map]
      apply List.filterMap_congr
      intro i hi
      have hi := List.mem_range.1 hi
      simp [List.getD_eq_getElem?_getD, List.getElem?_eq_getElem hi]
    rw [this]
    by_cases hi : i < additionalNames.length
    · rw [List.getElem?_map, List.getElem?_range hi, List.getElem?_eq_getElem hi]
      simp [List.getD_eq_getElem?_getD, List.getElem?_eq_getElem hi]
    · rw [List.getElem?_eq_none (by simp; omega), List.getElem?_eq_none (by omega)]
  have hpr : poses.rows = ch.parameters.length := by rw [h.rows, h.params]
  have hadd : ∀ i < additional.rows, ∀ j < poses.cols, ∃ x, additional.get i j = some x := by
    intro i hi j hj
    have hac : additional.cols = poses.cols := by
      rcases h.acols with e | e
      · exact e
      · omega
    have : j * additional.rows + i < additional.data.length := by rw [h.hadditional, hac]; nlinarith
    rw [get_eq hi, List.getElem?_eq_getElem this]
    exact ⟨_, rfl⟩
  have hM : ((List.range poses.cols).flatMap fun j => ((List.range additionalNames.length).map
      (ch.parameters.length + ·)).map fun i => (i, j)).mapM (fun ij => FMat.get (⟨poses.rows + additional.rows, poses.cols,
        (joined poses additional).map some⟩ : FMat (Option UInt32)) ij.1 ij.2) =
      some (((List.range poses.cols).flatMap fun j => ((List.range additionalNames.length).map
        (ch.parameters.length + ·)).map fun i => (i, j)).map fun ij => additional.get (ij.1 - poses.rows) ij.2) := by
    apply mapM_eq_map
    rintro ⟨q, j⟩ hq
    simp only [List.mem_flatMap, List.mem_map, List.mem_range, Prod.mk.injEq] at hq
    obtain ⟨j', hj, q', ⟨i, hi, rfl⟩, rfl, rfl⟩ := hq
    have hi : i < additional.rows := by rw [h.arows]; exact hi
    rw [← hpr]
    have e3 : FMat.get (⟨poses.rows + additional.rows, poses.cols, (joined poses additional).map some⟩ :
        FMat (Option UInt32)) (poses.rows + i) j' =
        ((joined poses additional).map some)[j' * (poses.rows + additional.rows) + (poses.rows + i)]? :=
      if_pos (Nat.add_lt_add_left hi _)
    simp only
    rw [e3, List.getElem?_map, j3 i hi j' hj, Nat.add_sub_cancel_left]
    obtain ⟨x, hx⟩ := hadd i hi j' hj
    rw [hx]
    rfl
  unfold getAuxilaryDataFromMotion
  simp only
  rw [hmap, hnm, hM]
  simp only [Option.bind_eq_bind, Option.bind_some, Option.some.injEq, Prod.mk.injEq, and_true]
  have hdata : (((List.range poses.cols).flatMap fun j => ((List.range additionalNames.length).map
        (ch.parameters.length + ·)).map fun i => (i, j)).map fun ij => additional.get (ij.1 - poses.rows) ij.2) =
      additional.data.map some := by
    rw [List.map_flatMap]
    obtain ⟨l1, l2⟩ := flatMap_get (fun j => ((((List.range additionalNames.length).map
      (ch.parameters.length + ·)).map fun i => (i, j)).map fun ij => additional.get (ij.1 - poses.rows) ij.2))
      additionalNames.length poses.cols (fun j _ => by simp)
    have hlen : (additional.data.map some).length = poses.cols * additionalNames.length := by
      rw [List.length_map, h.hadditional, ← h.arows]
      rcases h.acols with e | ⟨e1, e2⟩
      · rw [e]; ring
      · rw [e1]; simp
    refine mat_ext l1 hlen fun i hi j hj => ?_
    rw [l2 i hi j hj]
    simp only [List.map_map, List.getElem?_map, List.getElem?_range hi, Option.map_some, Function.comp]
    rw [← hpr, Nat.add_sub_cancel_left, get_eq (by rw [h.arows]; exact hi), ← h.arows]
    obtain ⟨x, hx⟩ := hadd i (by rw [h.arows]; exact hi) j hj
    rw [get_eq (by rw [h.arows]; exact hi)] at hx
    rw [hx]
    rfl
  rw [hdata, h.arows]

/-- **C61**, finding: an additional parameter with the empty name is stored but not found again: `getAuxilaryDataFromMotion`
asks for more than four characters. -/
theorem C61_empty_name : isDecorated (decorate []) = false := by decide

/-- **C61**, finding: additional parameters with names but without columns pass the checks of `saveMmo` and are then assigned
to a block with as many columns as there are frames. -/
theorem C61_no_columns : saveMmoCharacter ⟨1, 2, [7, 8]⟩ (List.replicate 7 0) ⟨[[97]], [[98]], 1⟩ ⟨1, 0, []⟩ [[99]] = .ub := by
  decide

/-! ### Examples -/

/-- Two frames of two parameters `a`, `b` for one joint `j`, and an additional parameter `c`. -/
example : Saveable ⟨2, 2, [1, 2, 3, 4]⟩ (List.replicate 7 5) ⟨[[97], [98]], [[106]], 2⟩ ⟨1, 2, [9, 10]⟩ [[99]] ∧
    ([[97], [98]] : List (List UInt8)).Nodup ∧ ([[106]] : List (List UInt8)).Nodup ∧
    (∀ s ∈ ([[99]] : List (List UInt8)), decorate s ∉ ([[97], [98]] : List (List UInt8))) ∧
    (∀ s ∈ ([[97], [98]] : List (List UInt8)), isDecorated s = false) := by
  refine ⟨⟨rfl, rfl, rfl, rfl, rfl, rfl, Or.inl rfl, by decide, by decide⟩, by decide, by decide, by decide, by decide⟩

/-- A motion that can be saved. -/
example : ∃ file, Motion.Sized ⟨⟨1, 2, [1, 2]⟩, List.replicate 7 5, [[97]], [[106]]⟩ ∧
    saveMmo ⟨⟨1, 2, [1, 2]⟩, List.replicate 7 5, [[97]], [[106]]⟩ = some file ∧ file.length = 78 := by
  refine ⟨_, ⟨rfl, by decide, by decide, by decide, by decide, by decide⟩, rfl, by decide⟩

/-- Blend shapes that can be saved: two vertices, two shapes. -/
example : ∃ file, saveBlendShape ⟨[1, 2, 3, 4, 5, 6], ⟨6, 2, List.replicate 12 7⟩⟩ = some file ∧ file.length = 88 :=
  ⟨_, rfl, by decide⟩

/-- A mixture model that meets the hypotheses of `C61_mppca_roundtrip`. -/
example : (∀ c ∈ ([⟨1, 1, [5]⟩, ⟨1, 1, [6]⟩] : List (FMat UInt32)), c.rows = 1 ∧ c.cols = 1 ∧ c.data.length = 1 * 1) := by
  decide

end BinaryIo
end Momentum
