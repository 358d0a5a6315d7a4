import Verif.Model.VertexError
import Verif.Lemmas.StateError
import Verif.Lemmas.Transform

/-!
# The skinning iterator visits, in sum, every ancestor of every bone
-/

namespace Momentum
open Skeleton

theorem Chain.unique {s : Skeleton ℝ} {o : Option Nat} {l l' : List Nat} (h : Chain s o l) (h' : Chain s o l') : l = l' := by
  induction h generalizing l' with
  | nil => cases h'; rfl
  | cons hj _ ih =>
    cases h' with
    | cons hj' hc =>
      rw [hj] at hj'
      cases hj'
      rw [ih hc]

/-- A contribution that only depends on the sums of the weights and of the weighted points. -/
def Additive (c : Nat → ℝ → Vec3 ℝ → ℝ) : Prop :=
  ∀ a w w' P P', c a (w + w') (P + P') = c a w P + c a w' P'

/-- The contributions of all ancestors of all bones. -/
def boneSum (c : Nat → ℝ → Vec3 ℝ → ℝ) (ch : Nat → List Nat) (l : List BoneWeight) : ℝ :=
  (l.map fun b => ((ch b.parentBone).map fun a => c a b.weight b.weightedPoint).sum).sum

theorem boneSum_perm (c : Nat → ℝ → Vec3 ℝ → ℝ) (ch : Nat → List Nat) {l l' : List BoneWeight} (h : l.Perm l') :
    boneSum c ch l = boneSum c ch l' := (h.map _).sum_eq

theorem boneSum_cons (c : Nat → ℝ → Vec3 ℝ → ℝ) (ch : Nat → List Nat) (b : BoneWeight) (l : List BoneWeight) :
    boneSum c ch (b :: l) = ((ch b.parentBone).map fun a => c a b.weight b.weightedPoint).sum + boneSum c ch l := by
  simp [boneSum]

theorem list_sum_add (l : List Nat) (f g : Nat → ℝ) :
    (l.map fun a => f a + g a).sum = (l.map f).sum + (l.map g).sum := by
  induction l with
  | nil => simp
  | cons a l ih => simp only [List.map_cons, List.sum_cons, ih]; ring

theorem relocate_sum {c : Nat → ℝ → Vec3 ℝ → ℝ} (hc : Additive c) (ch : Nat → List Nat) (b : BoneWeight)
    (l : List BoneWeight) : boneSum c ch (relocate b l) = boneSum c ch (b :: l) := by
  induction l with
  | nil => rfl
  | cons d l ih =>
    unfold relocate
    split
    · rw [boneSum_cons, ih, boneSum_cons, boneSum_cons, boneSum_cons]; ring
    · split
      · rename_i h
        rw [boneSum_cons, boneSum_cons, boneSum_cons, ← h, ← add_assoc, ← list_sum_add]
        congr 3
        funext a
        exact hc _ _ _ _ _
      · rfl

/-- The entries are joints of the skeleton and have positive weight. -/
def BonesGood (n : Nat) (l : List BoneWeight) : Prop := ∀ b ∈ l, b.parentBone < n ∧ 0 < b.weight

theorem relocate_good {n : Nat} {b : BoneWeight} {l : List BoneWeight} (h : BonesGood n (b :: l)) :
    BonesGood n (relocate b l) := by
  induction l with
  | nil => exact h
  | cons d l ih =>
    have hb := h b (by simp)
    have hd := h d (by simp)
    have hl : ∀ x ∈ l, x.parentBone < n ∧ 0 < x.weight := fun x hx => h x (by simp [hx])
    unfold relocate
    split
    · intro x hx
      rcases List.mem_cons.1 hx with rfl | hx
      · exact hd
      · refine ih (fun y hy => ?_) x hx
        rcases List.mem_cons.1 hy with rfl | hy
        · exact hb
        · exact hl y hy
    · split
      · intro x hx
        rcases List.mem_cons.1 hx with rfl | hx
        · exact ⟨hb.1, add_pos hb.2 hd.2⟩
        · exact hl x hx
      · exact h

/-- How many steps are left at most. -/
def boneSteps (ch : Nat → List Nat) (l : List BoneWeight) : Nat := (l.map fun b => (ch b.parentBone).length).sum

theorem relocate_steps (ch : Nat → List Nat) (b : BoneWeight) (l : List BoneWeight) :
    boneSteps ch (relocate b l) ≤ boneSteps ch (b :: l) := by
  induction l with
  | nil => exact le_rfl
  | cons d l ih =>
    unfold relocate
    split
    · simp only [boneSteps, List.map_cons, List.sum_cons] at ih ⊢; omega
    · split
      · simp only [boneSteps, List.map_cons, List.sum_cons]; omega
      · exact le_rfl

section
variable {s : Skeleton ℝ} {ch : Nat → List Nat} (hch : ∀ j < s.joints.length, Chain s (some j) (ch j))

include hch in
theorem advance_spec (hv : s.Valid) {c : Nat → ℝ → Vec3 ℝ → ℝ} (hc : Additive c) {b : BoneWeight} {rest : List BoneWeight}
    (hg : BonesGood s.joints.length (b :: rest)) {jt : Joint ℝ} (hj : s.joints[b.parentBone]? = some jt) :
    c b.parentBone b.weight b.weightedPoint + boneSum c ch (advance jt.parent b rest) = boneSum c ch (b :: rest) ∧
      BonesGood s.joints.length (advance jt.parent b rest) ∧
      boneSteps ch (advance jt.parent b rest) < boneSteps ch (b :: rest) := by
  have hb := hg b (by simp)
  have hcb := hch _ hb.1
  rw [boneSum_cons]
  generalize hl : ch b.parentBone = l at hcb
  cases hcb with
  | @cons _ jt' l' hj' hcl =>
    rw [hj] at hj'; cases hj'
    cases hp : jt.parent with
    | none =>
      rw [hp] at hcl
      cases hcl
      refine ⟨by simp [advance], fun x hx => hg x (List.mem_cons_of_mem _ hx), ?_⟩
      simp [advance, boneSteps, hl]
    | some p =>
      rw [hp] at hcl
      have hpl : p < s.joints.length := by
        have := hv _ _ _ hj hp
        omega
      have e : l' = ch p := hcl.unique (hch p hpl)
      refine ⟨?_, ?_, ?_⟩
      · simp only [advance]
        rw [relocate_sum hc, boneSum_cons, List.map_cons, List.sum_cons, e]
        ring
      · refine relocate_good fun x hx => ?_
        rcases List.mem_cons.1 hx with rfl | hx
        · exact ⟨hpl, hb.2⟩
        · exact hg x (List.mem_cons_of_mem _ hx)
      · refine lt_of_le_of_lt (relocate_steps ch _ rest) ?_
        simp only [boneSteps, List.map_cons, List.sum_cons, hl, List.length_cons, e]
        omega

variable {α σ ι : Type} {emit : Nat → α → σ → Option σ} {φ : ι → σ → ℝ} {ev : ι → α → ℝ} {w : ι → Nat → ℝ} {rows : Nat}
  {active : List Bool}

include hch in
/-- The walk of the iterator adds up what every ancestor of every bone contributes. -/
theorem skinWalk_track (hv : s.Valid) (ht : Emits rows emit φ ev w) (hlen : active.length = rows)
    (hrows : rows = s.joints.length * 7) (hact : ∀ i r, w i r ≠ 0 → active[r]? = some true)
    {st : List JointState} (hst : st.length = s.joints.length)
    {dofs : ℝ → Vec3 ℝ → JointState → List (Nat × Option α)} {dv : ℝ → Vec3 ℝ → JointState → List (Nat × α)}
    (hd : ∀ js ∈ st, ∀ bw pos, dofs bw pos js = (dv bw pos js).map fun d => (d.1, some d.2))
    (h7 : ∀ js ∈ st, ∀ bw pos, ∀ d ∈ dv bw pos js, d.1 < 7) {c : ι → Nat → ℝ → Vec3 ℝ → ℝ} (hadd : ∀ i, Additive (c i))
    (hc : ∀ i a bw P, 0 < bw → dofSum (ev i) (w i) a (dv bw ((1 / bw) • P) (stateAt st a)) = c i a bw P) :
    ∀ (l : List BoneWeight), BonesGood s.joints.length l → ∀ x,
      ∃ x', skinWalk s active st dofs emit l x = some x' ∧ ∀ i, φ i x' = φ i x + boneSum (c i) ch l := by
  suffices H : ∀ (m : Nat) (l : List BoneWeight), boneSteps ch l ≤ m → BonesGood s.joints.length l → ∀ x,
      ∃ x', skinWalk s active st dofs emit l x = some x' ∧ ∀ i, φ i x' = φ i x + boneSum (c i) ch l from
    fun l => H _ l le_rfl
  intro m
  induction m with
  | zero =>
    intro l hl hg x
    cases l with
    | nil => exact ⟨x, by rw [skinWalk.eq_def], fun i => by simp [boneSum]⟩
    | cons b rest =>
      exfalso
      have hcb := hch _ (hg b (by simp)).1
      simp only [boneSteps, List.map_cons, List.sum_cons] at hl
      generalize ch b.parentBone = l' at hcb hl
      cases hcb
      simp at hl
  | succ m ih =>
    intro l hl hg x
    cases l with
    | nil => exact ⟨x, by rw [skinWalk.eq_def], fun i => by simp [boneSum]⟩
    | cons b rest =>
      have hb := hg b (by simp)
      have hj : s.joints[b.parentBone]? = some s.joints[b.parentBone] := List.getElem?_eq_getElem hb.1
      have hsj : st[b.parentBone]? = some (st[b.parentBone]'(by rw [hst]; exact hb.1)) := List.getElem?_eq_getElem _
      have hmem : st[b.parentBone]'(by rw [hst]; exact hb.1) ∈ st := List.getElem_mem _
      have hsa := stateAt_eq hsj
      obtain ⟨x1, e1, e2⟩ := foldlM_track
        (fun y (d : Nat × α) => activeStep active emit (b.parentBone * 7) y (d.1, some d.2)) φ
        (fun i d => ev i d.2 * w i (b.parentBone * 7 + d.1)) (dv b.weight ((1 / b.weight) • b.weightedPoint) _)
        (fun d hdd y => activeStep_track ht hlen hact (b.parentBone * 7) d
          (by have := h7 _ hmem _ _ d hdd; have := hb.1; omega) y) x
      obtain ⟨-, a2, a3⟩ := advance_spec hch hv (c := fun _ _ _ => 0) (by intro a w w' P P'; simp) hg hj
      obtain ⟨x2, e3, e4⟩ := ih (advance s.joints[b.parentBone].parent b rest) (by omega) a2 x1
      refine ⟨x2, ?_, fun i => ?_⟩
      · rw [skinWalk.eq_def]
        simp only [hj, hsj]
        rw [hd _ hmem, List.foldlM_map, e1]
        exact e3
      · obtain ⟨a1, -, -⟩ := advance_spec hch hv (hadd i) hg hj
        rw [e4, e2, ← a1, add_assoc]
        congr 2
        rw [← hc i _ _ _ hb.2, hsa]
        rfl
end

/-- `w` times the velocity at the point `P / w`. -/
noncomputable def velW (js : JointState) (r : Fin 7 → ℝ) (w : ℝ) (P : Vec3 ℝ) : Vec3 ℝ :=
  w • jointVel js r 0 + (jointVel js r P - jointVel js r 0)

theorem velW_add (js : JointState) (r : Fin 7 → ℝ) (w w' : ℝ) (P P' : Vec3 ℝ) :
    velW js r (w + w') (P + P') = velW js r w P + velW js r w' P' := by
  unfold velW jointVel
  ext <;> simp [Vec3.cross] <;> ring

theorem velW_div (js : JointState) (r : Fin 7 → ℝ) {w : ℝ} (hw : 0 < w) (P : Vec3 ℝ) :
    velW js r w P = w • jointVel js r ((1 / w) • P) := by
  have h1 := hw.ne'
  unfold velW jointVel
  ext <;> simp [Vec3.cross] <;> field_simp <;> ring

end Momentum
