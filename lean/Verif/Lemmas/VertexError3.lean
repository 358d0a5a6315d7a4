import Verif.Lemmas.VertexError2

/-!
# The loops of the vertex error function over bones and shapes, and how fast a vertex moves
-/

namespace Momentum
open Skeleton

/-- A linear functional. -/
structure IsLin (L : Vec3 ℝ → ℝ) : Prop where
  add : ∀ a b, L (a + b) = L a + L b
  smul : ∀ (r : ℝ) a, L (r • a) = r * L a

namespace IsLin
theorem zero {L : Vec3 ℝ → ℝ} (h : IsLin L) : L 0 = 0 := by
  have := h.smul 0 0
  have e : (0 : ℝ) • (0 : Vec3 ℝ) = 0 := by ext <;> simp
  rw [e] at this; simpa using this

theorem sum {L : Vec3 ℝ → ℝ} (h : IsLin L) {α : Type} (l : List α) (f : α → Vec3 ℝ) :
    L (l.map f).sum = (l.map fun x => L (f x)).sum := by
  induction l with
  | nil => simpa using h.zero
  | cons a l ih => simp only [List.map_cons, List.sum_cons, h.add, ih]

theorem dot (k : ℝ) (v : Vec3 ℝ) : IsLin fun x => k * v.dot x :=
  ⟨fun a b => by simp [Vec3.dot]; ring, fun r a => by simp [Vec3.dot]; ring⟩

theorem entry (k : ℝ) (b : Fin 3) : IsLin fun x => k * x.toFn b :=
  ⟨fun a c => by rw [toFn_add]; ring, fun r a => by rw [toFn_smul]; ring⟩

theorem nul : IsLin fun _ => 0 := ⟨fun _ _ => by simp, fun _ _ => by simp⟩
end IsLin

/-- How fast the joints move the vertex with rest position `v` when the joint parameters move at the given rates. -/
noncomputable def skinVel (st : List JointState) (ch : Nat → List Nat) (rates : Nat → ℝ) (ibp : List (Affine ℝ))
    (row : List (Nat × ℝ)) (v : Vec3 ℝ) : Vec3 ℝ :=
  (row.map fun jw => jw.2 • posVel st (ch jw.1) rates (movedBy (worldAffines st) ibp v jw.1)).sum

/-- The entries the iterator starts with, before sorting. -/
noncomputable def boneList (st : List JointState) (ibp : List (Affine ℝ)) (row : List (Nat × ℝ)) (v : Vec3 ℝ) :
    List BoneWeight :=
  (row.filter fun jw => decide (0 < jw.2)).map fun jw => ⟨jw.1, jw.2, jw.2 • movedBy (worldAffines st) ibp v jw.1⟩

theorem boneList_sum {c : Nat → ℝ → Vec3 ℝ → ℝ} {d : Nat → Vec3 ℝ → ℝ} (hc : ∀ a w x, 0 < w → c a w (w • x) = w * d a x)
    {st : List JointState} {ch : Nat → List Nat} {ibp : List (Affine ℝ)} {row : List (Nat × ℝ)} {v : Vec3 ℝ}
    (hrow : ∀ jw ∈ row, 0 ≤ jw.2) : boneSum c ch (boneList st ibp row v) =
      (row.map fun jw => jw.2 * ((ch jw.1).map fun a => d a (movedBy (worldAffines st) ibp v jw.1)).sum).sum := by
  unfold boneSum boneList
  rw [List.map_map, list_sum_filter]
  congr 1
  refine List.map_congr_left fun jw hjw => ?_
  by_cases h : 0 < jw.2
  · rw [if_pos (decide_eq_true h)]
    simp only [Function.comp_apply]
    rw [← list_sum_map_mul]
    congr 1
    exact List.map_congr_left fun a _ => hc a _ _ h
  · rw [if_neg (by simpa using h)]
    have : jw.2 = 0 := le_antisymm (not_lt.1 h) (hrow jw hjw)
    rw [this, zero_mul]

theorem boneList_good {st : List JointState} {ibp : List (Affine ℝ)} {row : List (Nat × ℝ)} {v : Vec3 ℝ} {n : Nat}
    (hrow : ∀ jw ∈ row, jw.1 < n) : BonesGood n (boneList st ibp row v) := by
  intro b hb
  obtain ⟨jw, h1, rfl⟩ := List.mem_map.1 hb
  exact ⟨hrow jw (List.mem_of_mem_filter h1), by simpa using (List.mem_filter.1 h1).2⟩

theorem movedBy_state {st : List JointState} {ibp : List (Affine ℝ)} {j : Nat} (hj : j < st.length) (hb : j < ibp.length)
    (v : Vec3 ℝ) : ∃ js ib, st[j]? = some js ∧ ibp[j]? = some ib ∧
      movedBy (worldAffines st) ibp v j = js.transform.toAffine3.apply (ib.apply v) := by
  refine ⟨st[j], ibp[j], List.getElem?_eq_getElem hj, List.getElem?_eq_getElem hb, ?_⟩
  simp [movedBy, worldAffines, hj, hb]

theorem toAffine3_apply (t : Transform ℝ) (x : Vec3 ℝ) : t.toAffine3.apply x = t.transformPoint x := by
  simp [Transform.toAffine3, Affine.apply, Transform.transformPoint, Transform.toLinear_mulVec, add_comm]

theorem blendedNormal_lin {st : List JointState} {ibp : List (Affine ℝ)} {row : List (Nat × ℝ)}
    (hrow : ∀ jw ∈ row, jw.1 < st.length) (hb : ibp.length = st.length) {L : Vec3 ℝ → ℝ} (hL : IsLin L) :
    IsLin fun d => L (blendedNormal (worldAffines st) ibp row d) := by
  have hlin : ∀ jw ∈ row, ∃ A : Mat3 ℝ, ∀ d, movedBy (worldAffines st) ibp d jw.1 -
      movedBy (worldAffines st) ibp 0 jw.1 = A.mulVec d := by
    intro jw hjw
    refine ⟨((st[jw.1]'(hrow jw hjw)).transform.toAffine3.linear).mul
      (ibp[jw.1]'(by rw [hb]; exact hrow jw hjw)).linear, fun d => ?_⟩
    obtain ⟨js, ib, e1, e2, e3⟩ := movedBy_state (st := st) (ibp := ibp) (hrow jw hjw)
      (by rw [hb]; exact hrow jw hjw) d
    obtain ⟨js', ib', e1', e2', e3'⟩ := movedBy_state (st := st) (ibp := ibp) (hrow jw hjw)
      (by rw [hb]; exact hrow jw hjw) 0
    rw [List.getElem?_eq_getElem (hrow jw hjw)] at e1 e1'; cases e1; cases e1'
    rw [List.getElem?_eq_getElem (by rw [hb]; exact hrow jw hjw)] at e2 e2'; cases e2; cases e2'
    rw [e3, e3', Mat3.mul_mulVec]
    ext <;> simp [Affine.apply, Mat3.mulVec] <;> ring
  constructor
  · intro a b
    unfold blendedNormal
    rw [hL.sum, hL.sum, hL.sum, ← List.sum_map_add]
    congr 1
    refine List.map_congr_left fun jw hjw => ?_
    obtain ⟨A, hA⟩ := hlin jw hjw
    rw [hA, hA, hA, ← hL.add]
    congr 1
    ext <;> simp [Mat3.mulVec] <;> ring
  · intro r a
    unfold blendedNormal
    rw [hL.sum, hL.sum, ← list_sum_map_mul]
    congr 1
    refine List.map_congr_left fun jw hjw => ?_
    obtain ⟨A, hA⟩ := hlin jw hjw
    rw [hA, hA, ← hL.smul]
    congr 1
    ext <;> simp [Mat3.mulVec] <;> ring

namespace VertexError

theorem boneWeights_eq {E : VertexError} {st : List JointState} {idx : Nat} {row : List (Nat × ℝ)} {v : Vec3 ℝ}
    (h1 : E.character.skinWeights[idx]? = some row) (h2 : E.restMesh.1[idx]? = some v)
    (hrow : ∀ jw ∈ row, jw.1 < st.length) (hb : E.character.inverseBindPose.length = st.length) :
    E.boneWeights st idx = some (E.sort (boneList st E.character.inverseBindPose row v)) := by
  have key : ∀ (row : List (Nat × ℝ)), (∀ jw ∈ row, jw.1 < st.length) → ∀ acc, row.foldlM (E.boneStep st v) acc =
      some (acc ++ boneList st E.character.inverseBindPose row v) := by
    intro row
    induction row with
    | nil => intro _ acc; simp [boneList]
    | cons jw row ih =>
      intro h acc
      rw [List.foldlM_cons]
      have ih := ih (fun x hx => h x (by simp [hx]))
      obtain ⟨js, ib, e1, e2, e3⟩ := movedBy_state (st := st) (ibp := E.character.inverseBindPose) (h jw (by simp))
        (by rw [hb]; exact h jw (by simp)) v
      by_cases hw : 0 < jw.2
      · have hs : E.boneStep st v acc jw = some (acc ++ [⟨jw.1, jw.2, jw.2 • js.transform.toAffine3.apply (ib.apply v)⟩]) := by
          unfold boneStep
          rw [if_pos hw]
          simp only [Option.bind_eq_bind, Option.bind_some, e1, e2]
        rw [hs, Option.bind_eq_bind, Option.bind_some, ih]
        simp [boneList, hw, e3]
      · have hs : E.boneStep st v acc jw = some acc := by
          unfold boneStep
          rw [if_neg hw]
        rw [hs, Option.bind_eq_bind, Option.bind_some, ih]
        simp [boneList, hw]
  unfold boneWeights
  simp only [Option.bind_eq_bind, Option.bind_some, h1, h2]
  rw [key row hrow, List.nil_append]
  rfl

theorem dWorldPos_eq {E : VertexError} {st : List JointState} {idx : Nat} {row : List (Nat × ℝ)}
    (h1 : E.character.skinWeights[idx]? = some row) (hrow : ∀ jw ∈ row, jw.1 < st.length) (hpos : ∀ jw ∈ row, 0 ≤ jw.2)
    (hb : E.character.inverseBindPose.length = st.length) (d : Vec3 ℝ) :
    E.dWorldPos st idx d = some (blendedNormal (worldAffines st) E.character.inverseBindPose row d) := by
  have key : ∀ (row : List (Nat × ℝ)), (∀ jw ∈ row, jw.1 < st.length) → (∀ jw ∈ row, 0 ≤ jw.2) → ∀ acc,
      row.foldlM (E.dWorldStep st d) acc =
      some (acc + blendedNormal (worldAffines st) E.character.inverseBindPose row d) := by
    intro row
    induction row with
    | nil => intro _ _ acc; simp [blendedNormal]
    | cons jw row ih =>
      intro h hp acc
      rw [List.foldlM_cons]
      have ih := ih (fun x hx => h x (by simp [hx])) (fun x hx => hp x (by simp [hx]))
      obtain ⟨js, ib, e1, e2, e3⟩ := movedBy_state (st := st) (ibp := E.character.inverseBindPose) (h jw (by simp))
        (by rw [hb]; exact h jw (by simp)) d
      obtain ⟨js', ib', e1', e2', e3'⟩ := movedBy_state (st := st) (ibp := E.character.inverseBindPose) (h jw (by simp))
        (by rw [hb]; exact h jw (by simp)) 0
      rw [e1] at e1'; cases e1'
      rw [e2] at e2'; cases e2'
      have e4 : movedBy (worldAffines st) E.character.inverseBindPose d jw.1 -
          movedBy (worldAffines st) E.character.inverseBindPose 0 jw.1 =
          js.transform.toAffine3.linear.mulVec (ib.linear.mulVec d) := by
        rw [e3, e3']
        ext <;> simp [Affine.apply, Mat3.mulVec] <;> ring
      by_cases hw : 0 < jw.2
      · have hs : E.dWorldStep st d acc jw =
            some (acc + jw.2 • js.transform.toAffine3.linear.mulVec (ib.linear.mulVec d)) := by
          unfold dWorldStep
          rw [if_pos hw]
          simp only [Option.bind_eq_bind, Option.bind_some, e1, e2]
        rw [hs, Option.bind_eq_bind, Option.bind_some, ih]
        simp only [blendedNormal, List.map_cons, List.sum_cons, e4, add_assoc]
      · have hs : E.dWorldStep st d acc jw = some acc := by
          unfold dWorldStep
          rw [if_neg hw]
        rw [hs, Option.bind_eq_bind, Option.bind_some, ih]
        have h0 : jw.2 = 0 := le_antisymm (not_lt.1 hw) (hp jw (by simp))
        have e0 : ∀ x : Vec3 ℝ, (0 : ℝ) • x = 0 := fun x => by ext <;> simp
        simp only [blendedNormal, List.map_cons, List.sum_cons, h0, e0, zero_add]
  unfold dWorldPos
  rw [h1]
  simp only [Option.bind_eq_bind, Option.bind_some]
  rw [key row hrow hpos, zero_add]

/-- Loop over bones, for contributions that only depend on sums of weights and of weighted points. -/
theorem walk_add {E : VertexError} {pt : ParameterTransform ℝ} (hF : E.Fits pt) {st : List JointState}
    (hst : st.length = E.skeleton.joints.length) {ch : Nat → List Nat}
    (hch : ∀ j < E.skeleton.joints.length, Chain E.skeleton (some j) (ch j)) (hsort : ∀ l, (E.sort l).Perm l)
    {α σ ι : Type} {emit : Nat → α → σ → Option σ} {φ : ι → σ → ℝ} {ev : ι → α → ℝ} {κ : ι → Nat}
    (ht : Emits pt.transform.rows emit φ ev fun i r => E.transform.coeff r (κ i))
    (hκ : ∀ i, E.enabledParameters.mem (κ i) = true)
    {dofs : ℝ → Vec3 ℝ → JointState → List (Nat × Option α)} {dv : ℝ → Vec3 ℝ → JointState → List (Nat × α)}
    (hd : ∀ js ∈ st, ∀ bw pos, dofs bw pos js = (dv bw pos js).map fun d => (d.1, some d.2))
    (h7 : ∀ js ∈ st, ∀ bw pos, ∀ d ∈ dv bw pos js, d.1 < 7) {c : ι → Nat → ℝ → Vec3 ℝ → ℝ} (hadd : ∀ i, Additive (c i))
    {d : ι → Nat → Vec3 ℝ → ℝ} (hcd : ∀ i a bw y, 0 < bw → c i a bw (bw • y) = bw * d i a y)
    (hsum : ∀ i a bw pos, dofSum (ev i) (fun r => E.transform.coeff r (κ i)) a (dv bw pos (stateAt st a)) =
      bw * d i a pos)
    {ibp : List (Affine ℝ)} {row : List (Nat × ℝ)} {v : Vec3 ℝ} (hrow : ∀ jw ∈ row, jw.1 < st.length)
    (hpos : ∀ jw ∈ row, 0 ≤ jw.2) (x : σ) :
    ∃ x', skinWalk E.skeleton E.activeJointParams st dofs emit (E.sort (boneList st ibp row v)) x = some x' ∧
      ∀ i, φ i x' = φ i x + (row.map fun jw =>
        jw.2 * ((ch jw.1).map fun a => d i a (movedBy (worldAffines st) ibp v jw.1)).sum).sum := by
  have hgood : BonesGood E.skeleton.joints.length (E.sort (boneList st ibp row v)) := by
    intro b hb
    exact boneList_good (n := E.skeleton.joints.length) (fun jw h => by rw [← hst]; exact hrow jw h) b
      ((hsort _).mem_iff.1 hb)
  obtain ⟨x', e1, e2⟩ := skinWalk_track hch hF.skeleton ht hF.activeLength hF.rows
    (fun i r hne => hF.active r _ (hκ i) (by rw [← hF.transform]; exact hne)) hst hd h7 hadd
    (fun i a bw P hb => by
      rw [hsum, ← hcd i a bw _ hb]
      congr 1
      ext <;> simp <;> field_simp) _ hgood x
  refine ⟨x', e1, fun i => ?_⟩
  rw [e2, boneSum_perm _ _ (hsort _)]
  congr 1
  exact boneList_sum (hcd i) hpos

/-- Loop over bones, for contributions linear in the velocity of the vertex. -/
theorem walk_lin {E : VertexError} {pt : ParameterTransform ℝ} (hF : E.Fits pt) {st : List JointState}
    (hst : st.length = E.skeleton.joints.length) {ch : Nat → List Nat}
    (hch : ∀ j < E.skeleton.joints.length, Chain E.skeleton (some j) (ch j)) (hsort : ∀ l, (E.sort l).Perm l)
    {α σ ι : Type} {emit : Nat → α → σ → Option σ} {φ : ι → σ → ℝ} {ev : ι → α → ℝ} {κ : ι → Nat}
    (ht : Emits pt.transform.rows emit φ ev fun i r => E.transform.coeff r (κ i))
    (hκ : ∀ i, E.enabledParameters.mem (κ i) = true)
    {dofs : ℝ → Vec3 ℝ → JointState → List (Nat × Option α)} {dv : ℝ → Vec3 ℝ → JointState → List (Nat × α)}
    (hd : ∀ js ∈ st, ∀ bw pos, dofs bw pos js = (dv bw pos js).map fun d => (d.1, some d.2))
    (h7 : ∀ js ∈ st, ∀ bw pos, ∀ d ∈ dv bw pos js, d.1 < 7) {L : ι → Vec3 ℝ → ℝ} (hL : ∀ i, IsLin (L i))
    (hsum : ∀ i a bw pos, dofSum (ev i) (fun r => E.transform.coeff r (κ i)) a (dv bw pos (stateAt st a)) =
      bw * L i (jointVel (stateAt st a) (ratesOf (fun r => E.transform.coeff r (κ i)) a) pos))
    {ibp : List (Affine ℝ)} {row : List (Nat × ℝ)} {v : Vec3 ℝ} (hrow : ∀ jw ∈ row, jw.1 < st.length)
    (hpos : ∀ jw ∈ row, 0 ≤ jw.2) (x : σ) :
    ∃ x', skinWalk E.skeleton E.activeJointParams st dofs emit (E.sort (boneList st ibp row v)) x = some x' ∧
      ∀ i, φ i x' = φ i x + L i (skinVel st ch (fun r => E.transform.coeff r (κ i)) ibp row v) := by
  obtain ⟨x', e1, e2⟩ := walk_add hF hst hch hsort ht hκ hd h7
    (c := fun i a bw P => L i (velW (stateAt st a) (ratesOf (fun r => E.transform.coeff r (κ i)) a) bw P))
    (fun i a w w' P P' => by simp only [velW_add, (hL i).add])
    (d := fun i a y => L i (jointVel (stateAt st a) (ratesOf (fun r => E.transform.coeff r (κ i)) a) y))
    (fun i a w y hw => by
      rw [velW_div _ _ hw, (hL i).smul]
      congr 3
      ext <;> simp <;> field_simp) hsum (ibp := ibp) (v := v) hrow hpos x
  refine ⟨x', e1, fun i => ?_⟩
  rw [e2]
  congr 1
  unfold skinVel
  rw [(hL i).sum]
  congr 1
  refine List.map_congr_left fun jw _ => ?_
  rw [(hL i).smul]
  unfold posVel
  rw [(hL i).sum]

/-- How much parameter `i` moves vertex `idx` through the shapes, at rest. -/
noncomputable def shapeRate (parameters : List Int) (shapes : List (List (Vec3 ℝ))) (i idx : Nat) : Vec3 ℝ :=
  ((parameters.zip shapes).map fun ps => if ps.1 = (i : Int) then ps.2.getD idx 0 else 0).sum

theorem shapeLoop_track {E : VertexError} {st : List JointState} {idx : Nat} {row : List (Nat × ℝ)}
    (h1 : E.character.skinWeights[idx]? = some row) (hrow : ∀ jw ∈ row, jw.1 < st.length) (hpos : ∀ jw ∈ row, 0 ≤ jw.2)
    (hb : E.character.inverseBindPose.length = st.length) {σ ι : Type} {emit : Nat → Vec3 ℝ → σ → Option σ}
    {φ : ι → σ → ℝ} {κ : ι → Nat} {L : ι → Vec3 ℝ → ℝ} (hL : ∀ i, IsLin (L i)) {cols : Nat}
    (hem : ∀ col < cols, ∀ d s, ∃ s', emit col d s = some s' ∧ ∀ i, φ i s' = φ i s + if col = κ i then L i d else 0)
    {shapes : List (List (Vec3 ℝ))} {parameters : List Int} (hn : parameters.length ≤ shapes.length)
    (hidx : ∀ sv ∈ shapes, idx < sv.length) (hp : ∀ p ∈ parameters, p < cols) (s : σ) :
    ∃ s', E.shapeLoop st idx (some shapes) parameters emit s = some s' ∧ ∀ i, φ i s' = φ i s +
      L i (blendedNormal (worldAffines st) E.character.inverseBindPose row (shapeRate parameters shapes (κ i) idx)) := by
  have hBL := fun i => blendedNormal_lin (ibp := E.character.inverseBindPose) hrow hb (hL i)
  obtain ⟨s', e1, e2⟩ := foldlM_track (E.shapeStep st idx (some shapes) emit) φ
    (fun i kp => if kp.2 = (κ i : Int) then
      L i (blendedNormal (worldAffines st) E.character.inverseBindPose row ((shapes.getD kp.1 []).getD idx 0)) else 0)
    (parameters.mapIdx fun k p => (k, p)) (by
      intro kp hkp s
      rw [List.mem_mapIdx] at hkp
      obtain ⟨k, hk, rfl⟩ := hkp
      unfold shapeStep
      by_cases hneg : parameters[k] < 0
      · rw [if_pos hneg]
        refine ⟨s, rfl, fun i => ?_⟩
        rw [if_neg (by simp only; omega), add_zero]
      · rw [if_neg hneg]
        have hks : k < shapes.length := by omega
        have hki := hidx _ (List.getElem_mem hks)
        simp only [Option.bind_eq_bind, Option.bind_some, List.getElem?_eq_getElem hks, List.getElem?_eq_getElem hki,
          dWorldPos_eq h1 hrow hpos hb]
        have hpc := hp _ (List.getElem_mem hk)
        obtain ⟨s', f1, f2⟩ := hem (parameters[k]).toNat (by omega)
          (blendedNormal (worldAffines st) E.character.inverseBindPose row shapes[k][idx]) s
        refine ⟨s', f1, fun i => ?_⟩
        rw [f2]
        congr 1
        have : ((parameters[k]).toNat = κ i) ↔ (parameters[k] = (κ i : Int)) := by omega
        simp only [this]
        simp [hks, hki]) s
  refine ⟨s', e1, fun i => ?_⟩
  rw [e2]
  congr 1
  unfold shapeRate
  rw [(hBL i).sum]
  congr 1
  apply List.ext_getElem
  · simp [hn]
  · intro k k1 k2
    have hk : k < parameters.length := by simpa using k1
    have hks : k < shapes.length := by omega
    simp only [List.getElem_map, List.getElem_mapIdx, List.getElem_zip]
    by_cases h : parameters[k] = (κ i : Int)
    · rw [if_pos h, if_pos h]
      simp [hks]
    · rw [if_neg h, if_neg h, (hBL i).zero]

end VertexError

theorem HasVecDerivAt.list_sum {α : Type} (l : List α) (f : α → ℝ → Vec3 ℝ) (f' : α → Vec3 ℝ) (t : ℝ)
    (h : ∀ x ∈ l, HasVecDerivAt (f x) (f' x) t) : HasVecDerivAt (fun u => (l.map fun x => f x u).sum) ((l.map f').sum) t := by
  induction l with
  | nil => exact HasVecDerivAt.const 0 t
  | cons x l ih =>
    simp only [List.map_cons, List.sum_cons]
    exact (h x List.mem_cons_self).add (ih fun y hy => h y (List.mem_cons_of_mem _ hy))

section
variable {s : Skeleton ℝ} (hv : s.Valid) (hpre : ∀ jt ∈ s.joints, jt.preRotation.normSq = 1) {θ : ℝ → List ℝ}
  {S : ℝ → List JointState} (hG : ∀ u, FKGood s (θ u) true (S u)) (hlen : ∀ u, (S u).length = s.joints.length) {t : ℝ}
  {θ' : Nat → ℝ} (hθ : ∀ i, HasDerivAt (fun u => (θ u).getD i 0) (θ' i) t)
  {ch : Nat → List Nat} (hch : ∀ j < s.joints.length, Chain s (some j) (ch j))

include hv hpre hG hlen hθ hch in
/-- How fast a skinned vertex moves when its rest position moves too. -/
theorem blended_deriv {ibp : List (Affine ℝ)} (hb : ibp.length = s.joints.length) {row : List (Nat × ℝ)}
    (hrow : ∀ jw ∈ row, jw.1 < s.joints.length) {v : ℝ → Vec3 ℝ} {v' : Vec3 ℝ} (hvd : HasVecDerivAt v v' t) :
    HasVecDerivAt (fun u => blended (worldAffines (S u)) ibp row (v u))
      (skinVel (S t) ch θ' ibp row (v t) + blendedNormal (worldAffines (S t)) ibp row v') t := by
  unfold blended
  have h := HasVecDerivAt.list_sum row (fun jw u => jw.2 • movedBy (worldAffines (S u)) ibp (v u) jw.1)
    (fun jw => jw.2 • (posVel (S t) (ch jw.1) θ' (movedBy (worldAffines (S t)) ibp (v t) jw.1) +
      (movedBy (worldAffines (S t)) ibp v' jw.1 - movedBy (worldAffines (S t)) ibp 0 jw.1))) t (by
    intro jw hjw
    refine HasVecDerivAt.const_smul _ ?_
    have hj := hrow jw hjw
    have hib : jw.1 < ibp.length := by rw [hb]; exact hj
    have hm : ∀ u x, movedBy (worldAffines (S u)) ibp x jw.1 =
        (worldOf (S u) (some jw.1)).transformPoint (ibp[jw.1].apply x) := by
      intro u x
      obtain ⟨js, ib, e1, e2, e3⟩ := movedBy_state (st := S u) (ibp := ibp) (by rw [hlen]; exact hj) hib x
      rw [List.getElem?_eq_getElem hib] at e2; cases e2
      rw [e3, toAffine3_apply, ← worldOf_stateAt (by rw [hlen]; exact hj), stateAt_eq e1]
    have hy : HasVecDerivAt (fun u => ibp[jw.1].apply (v u)) (ibp[jw.1].linear.mulVec v') t := by
      obtain ⟨h1, h2, h3⟩ := hvd
      refine ⟨?_, ?_, ?_⟩
      · simpa [Affine.apply, Mat3.mulVec] using
          (((h1.const_mul ibp[jw.1].linear.m00).add (h2.const_mul ibp[jw.1].linear.m01)).add
            (h3.const_mul ibp[jw.1].linear.m02)).add_const ibp[jw.1].translation.x
      · simpa [Affine.apply, Mat3.mulVec] using
          (((h1.const_mul ibp[jw.1].linear.m10).add (h2.const_mul ibp[jw.1].linear.m11)).add
            (h3.const_mul ibp[jw.1].linear.m12)).add_const ibp[jw.1].translation.y
      · simpa [Affine.apply, Mat3.mulVec] using
          (((h1.const_mul ibp[jw.1].linear.m20).add (h2.const_mul ibp[jw.1].linear.m21)).add
            (h3.const_mul ibp[jw.1].linear.m22)).add_const ibp[jw.1].translation.z
    have := moving_point (A := fun u y => (worldOf (S u) (some jw.1)).transformPoint y)
      (fun u y => transformPoint_affine _ y) (fun y => chain_vel hv hpre hG hlen hθ (hch _ hj) y) hy
    simp only [hm]
    refine this.congr_deriv' ?_
    unfold posVel
    congr 1
    simp only [← toAffine3_apply, Affine.apply]
    ext <;> simp [Mat3.mulVec] <;> ring)
  refine h.congr_deriv' ?_
  unfold skinVel blendedNormal
  rw [← List.sum_map_add]
  congr 1
  refine List.map_congr_left fun jw _ => ?_
  ext <;> simp <;> ring
end

theorem shapeOffset_deriv {parameters : List Int} {shapes : List (List (Vec3 ℝ))} {p : List ℝ} {i : Nat}
    (hi : i < p.length) (idx : Nat) (t : ℝ) : HasVecDerivAt (fun u => shapeOffset parameters shapes (p.set i u) idx)
      (VertexError.shapeRate parameters shapes i idx) t := by
  unfold shapeOffset VertexError.shapeRate
  refine HasVecDerivAt.list_sum _ (fun (ps : Int × List (Vec3 ℝ)) u => shapeCoeff (p.set i u) ps.1 • ps.2.getD idx 0) _ t fun ps _ => ?_
  by_cases h : ps.1 = (i : Int)
  · rw [if_pos h]
    have e : ∀ u, shapeCoeff (p.set i u) ps.1 = u := by
      intro u
      simp [shapeCoeff, h, hi]
    simp only [e]
    have := HasVecDerivAt.smul (hasDerivAt_id' t) (HasVecDerivAt.const (ps.2.getD idx 0) t)
    refine this.congr_deriv' ?_
    ext <;> simp
  · rw [if_neg h]
    have e : ∀ u, shapeCoeff (p.set i u) ps.1 = shapeCoeff p ps.1 := by
      intro u
      unfold shapeCoeff
      by_cases h0 : 0 ≤ ps.1
      · rw [if_pos h0, if_pos h0, List.getD_eq_getElem?_getD, List.getElem?_set_ne (by omega), ← List.getD_eq_getElem?_getD]
      · rw [if_neg h0, if_neg h0]
    simp only [e]
    exact HasVecDerivAt.const _ _

/-- How much parameter `i` moves vertex `idx` at rest. -/
noncomputable def SkinnedCharacter.restRate (c : SkinnedCharacter) (i idx : Nat) : Vec3 ℝ :=
  (match c.blendShape with
    | none => 0
    | some b => VertexError.shapeRate c.blendShapeParameters b.shapeVectors i idx) +
  (match c.faceExpressionBlendShape with
    | none => 0
    | some f => VertexError.shapeRate c.faceExpressionParameters f.shapeVectors i idx)

theorem restVertex_deriv (c : SkinnedCharacter) {p : List ℝ} {i : Nat} (hi : i < p.length) (idx : Nat) (t : ℝ) :
    HasVecDerivAt (fun u => c.restVertex (p.set i u) idx) (c.restRate i idx) t := by
  unfold SkinnedCharacter.restVertex SkinnedCharacter.restRate
  refine HasVecDerivAt.add ?_ ?_
  · cases c.blendShape with
    | none => exact HasVecDerivAt.const _ _
    | some b =>
      refine ((HasVecDerivAt.const (b.baseShape.getD idx 0) t).add (shapeOffset_deriv hi idx t)).congr_deriv' (zero_add _)
  · cases c.faceExpressionBlendShape with
    | none => exact HasVecDerivAt.const _ _
    | some f => exact shapeOffset_deriv hi idx t

end Momentum
