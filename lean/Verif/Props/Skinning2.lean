import Verif.Props.Skinning

/-!
# C25 (mesh version), C52: skinning with blend shapes
-/

namespace Momentum

section
variable {K : Type} [CommRing K] [DecidableEq K]

theorem blendVertex_ok {b : BlendShape K} (hb : b.Valid) {weights : List K}
    (hw : weights.length ≤ b.shapeVectors.length) {i : Nat} (hi : i < b.modelSize) :
    blendVertex b weights i = some (b.baseShape.getD i 0 +
      ((weights.zip b.shapeVectors).map fun ws => ws.1 • ws.2.getD i 0).sum) := by
  have hbi : i < b.baseShape.length := by rw [hb.base]; exact hi
  have hm : (b.shapeVectors.take weights.length).mapM (fun sv => sv[i]?) =
      some ((b.shapeVectors.take weights.length).map fun sv => sv.getD i 0) := by
    have : ∀ l : List (List (Vec3 K)), (∀ sv ∈ l, sv.length = b.modelSize) →
        l.mapM (fun sv => sv[i]?) = some (l.map fun sv => sv.getD i 0) := by
      intro l
      induction l with
      | nil => intro _; rfl
      | cons a l ih =>
        intro h
        have ha : i < a.length := by rw [h a (by simp)]; exact hi
        rw [List.mapM_cons, ih (fun sv hs => h sv (by simp [hs])), List.getElem?_eq_getElem ha]
        simp [List.getD, ha]
    exact this _ fun sv hs => hb.cols sv (List.mem_of_mem_take hs)
  unfold blendVertex
  rw [List.getElem?_eq_getElem hbi, hm]
  simp only [Option.bind_eq_bind, Option.bind_some, Option.some.injEq]
  congr 1
  · simp [List.getD, hbi]
  · congr 1
    have : ∀ (ws : List K) (l : List (List (Vec3 K))), ws.length ≤ l.length →
        List.zipWith (fun w o => w • o) ws ((l.take ws.length).map fun sv => sv.getD i 0) =
          (ws.zip l).map fun ws => ws.1 • ws.2.getD i 0 := by
      intro ws
      induction ws with
      | nil => intro l _; simp
      | cons w ws ih =>
        intro l hl
        cases l with
        | nil => simp at hl
        | cons a l => 
          have hl' : ws.length ≤ l.length := by simpa using hl
          simp only [List.length_cons, List.take_succ_cons, List.map_cons, List.zipWith_cons_cons,
            List.zip_cons_cons, ih l hl']
    exact this _ _ hw

/-- **C52** (shape).  `computeShape` returns the base shape plus the weighted sum of the shape vectors, for
every list of at most as many weights as shapes, and fails for longer lists. -/
theorem C52_shape (b : BlendShape K) (hb : b.Valid) (weights : List K) :
    computeShape b weights =
      if weights.length ≤ b.shapeVectors.length then .ok (shapeAt b weights) else .throws := by
  unfold computeShape
  rw [if_neg (by simpa using hb.base)]
  by_cases hw : weights.length ≤ b.shapeVectors.length
  · rw [if_neg (by omega), if_pos hw]
    have : (List.range b.baseShape.length).mapM (blendVertex b weights) = some (shapeAt b weights) := by
      unfold shapeAt
      rw [hb.base]
      have : ∀ l : List Nat, (∀ i ∈ l, i < b.modelSize) → l.mapM (blendVertex b weights) =
          some (l.map fun i => b.baseShape.getD i 0 +
            ((weights.zip b.shapeVectors).map fun ws => ws.1 • ws.2.getD i 0).sum) := by
        intro l
        induction l with
        | nil => intro _; rfl
        | cons a l ih =>
          intro h
          rw [List.mapM_cons, blendVertex_ok hb hw (h a (by simp)), ih fun i hi => h i (by simp [hi])]
          rfl
      exact this _ fun i hi => List.mem_range.1 hi
    rw [this]
  · rw [if_pos (by omega), if_neg hw]

/-- **C52** (skinning).  Skinning with blend shapes is the skinning of the blended shape, for every schedule of
the vertices. -/
theorem C52_skinning (order : List Nat) (ibp world : List (Affine K)) (skin : List (List (Nat × K)))
    (b : BlendShape K) (hb : b.Valid) (vertices : List (Vec3 K)) (weights : List K)
    (hn : vertices.length = b.modelSize) (ho : order.Perm (List.range vertices.length))
    (hi : IndicesValid skin ibp.length) (hf : ∀ row ∈ skin, WeightsFirst row)
    (hw : weights.length ≤ b.shapeVectors.length) :
    skinWithBlendShapes order ibp skin (some b) vertices world weights =
      applySSD order ibp skin (shapeAt b weights) world := by
  have hlen : (shapeAt b weights).length = vertices.length := by simp [shapeAt, hn]
  by_cases h1 : world.length = ibp.length
  · by_cases h2 : skin.length = vertices.length
    · rw [C25_blend order ibp world skin _ (by rw [hlen]; exact ho) h1 (by rw [hlen]; exact h2) hi hf]
      unfold skinWithBlendShapes
      rw [if_neg (by simpa using h1), if_neg (by simpa using h2), if_neg (by simpa using hw)]
      have hstep : ∀ (res : List (Vec3 K)) (i : Nat), i < vertices.length →
          blendSkinStep (skinTransforms world ibp) skin (some b) vertices weights res i =
            .ok (res.set i (blended world ibp (skin.getD i []) ((shapeAt b weights).getD i 0))) := by
        intro res i hip
        have his : i < skin.length := by omega
        unfold blendSkinStep restPosition
        rw [List.getElem?_eq_getElem his]
        simp only
        rw [blendVertex_ok hb hw (by omega)]
        simp only
        rw [skinPointUnchecked_ok _ _ _ (hf _ (List.getElem_mem his))
          (by intro jw hjw; rw [skinTransforms_length h1]; exact hi _ (List.getElem_mem his) jw hjw)]
        simp [List.getD, his, shapeAt, show i < b.modelSize by omega]
      rw [setFold_perm hstep ho _ (by simp)]
      congr 1
      apply List.ext_getElem
      · simp [h2, hlen]
      · intro i h3 h4
        simp at h3
        simp [List.getD, show i < skin.length by omega, show i < (shapeAt b weights).length by omega]
    · simp [skinWithBlendShapes, applySSD, h1, h2, hlen]
  · simp [skinWithBlendShapes, applySSD, h1]

/-- **C52** (baking).  The mesh of the baked character is the blended shape. -/
theorem C52_baked_mesh (b : BlendShape K) (hb : b.Valid) (vertices : List (Vec3 K)) (weights : List K)
    (hw : weights.length ≤ b.shapeVectors.length) :
    bakedVertices (some b) vertices weights = .ok (shapeAt b weights) := by
  rw [bakedVertices, C52_shape b hb, if_pos hw]

/-- **C52** (defect).  Posing the baked character ignores the baked mesh: the blend shape is still attached, so
whatever mesh vertices (of the right number) were baked, the posed vertices are those of the *base* shape. -/
theorem C52_baking_ignored (order : List Nat) (ibp world : List (Affine K)) (skin : List (List (Nat × K)))
    (b : BlendShape K) (hb : b.Valid) (baked : List (Vec3 K)) (hn : baked.length = b.modelSize)
    (ho : order.Perm (List.range baked.length)) (hi : IndicesValid skin ibp.length)
    (hf : ∀ row ∈ skin, WeightsFirst row) (k : Nat) (hk : k ≤ b.shapeVectors.length) :
    posedVertices order ibp skin (some b) baked world (List.replicate k 0) =
      applySSD order ibp skin b.baseShape world := by
  rw [posedVertices, C52_skinning order ibp world skin b hb baked _ hn ho hi hf (by simpa using hk)]
  congr 1
  have hz : ∀ (n i : Nat) (l : List (List (Vec3 K))),
      (((List.replicate n (0 : K)).zip l).map fun ws => ws.1 • ws.2.getD i 0).sum = 0 := by
    intro n i
    induction n with
    | zero => intro l; simp
    | succ n ih =>
      intro l
      cases l with
      | nil => simp
      | cons a l =>
        rw [List.replicate_succ, List.zip_cons_cons, List.map_cons, List.sum_cons, ih l]
        ext <;> simp
  unfold shapeAt
  apply List.ext_getElem
  · simp [hb.base]
  · intro i h1 h2
    rw [List.getElem_map, List.getElem_range, hz, add_zero]
    simp [List.getD, h2]

end

/-- The hypotheses of C52 are met, and the defect is visible: baking the weight 1 of a shape that moves the
only vertex by (1,0,0) has no effect on the posed character. -/
def exBlend : BlendShape ℚ := ⟨[⟨0, 0, 0⟩], 1, [[⟨1, 0, 0⟩]]⟩

theorem exBlend_valid : exBlend.Valid := ⟨rfl, by simp [exBlend]⟩

example : bakedVertices (some exBlend) [⟨0, 0, 0⟩] [1] = .ok [⟨1, 0, 0⟩] ∧
    posedVertices [0] [Affine.one] [[(0, 1)]] (some exBlend) [⟨1, 0, 0⟩] [Affine.one] [] = .ok [⟨0, 0, 0⟩] ∧
    posedVertices [0] [Affine.one] [[(0, 1)]] (some exBlend) [⟨0, 0, 0⟩] [Affine.one] [1] =
      .ok [(⟨1, 0, 0⟩ : Vec3 ℚ)] := by
  have hi : IndicesValid [[((0 : Nat), (1 : ℚ))]] [(Affine.one : Affine ℚ)].length := by
    intro row hrow jw hjw; simp at hrow; subst hrow; simp at hjw; subst hjw; simp
  have hf : ∀ row ∈ [[((0 : Nat), (1 : ℚ))]], WeightsFirst row := by
    intro row hrow; simp at hrow; subst hrow; simp [WeightsFirst]
  refine ⟨?_, ?_, ?_⟩
  · rw [C52_baked_mesh _ exBlend_valid _ _ (by simp [exBlend])]
    congr 1
    simp [shapeAt, exBlend]
    ext <;> simp
  · rw [posedVertices, C52_skinning _ _ _ _ _ exBlend_valid _ _ rfl (by decide) hi hf (by simp [exBlend]),
      C25_blend _ _ _ _ _ (by decide) rfl rfl hi hf]
    congr 1
    simp [shapeAt, exBlend, blended, movedBy, Affine.one_apply]
  · rw [posedVertices, C52_skinning _ _ _ _ _ exBlend_valid _ _ rfl (by decide) hi hf (by simp [exBlend]),
      C25_blend _ _ _ _ _ (by decide) rfl rfl hi hf]
    congr 1
    simp [shapeAt, exBlend, blended, movedBy, Affine.one_apply]
    ext <;> simp

/-! ### The mesh version -/

theorem setFold2_perm {V W : Type} {f : List V × List W → Nat → Outcome (List V × List W)} {g : Nat → V}
    {g' : Nat → W} {n : Nat}
    (hf : ∀ res i, i < n → f res i = .ok (res.1.set i (g i), res.2.set i (g' i))) {order : List Nat}
    (ho : order.Perm (List.range n)) (res : List V × List W) (hr : res.1.length = n) (hr' : res.2.length = n) :
    order.foldl (fun (acc : Outcome (List V × List W)) i => acc.bind fun res => f res i) (.ok res) =
      .ok ((List.range n).map g, (List.range n).map g') := by
  have h1 := setFold_perm (f := fun r i => .ok (r.set i (g i))) (g := g) (fun _ _ _ => rfl) ho res.1 hr
  have h2 := setFold_perm (f := fun r i => .ok (r.set i (g' i))) (g := g') (fun _ _ _ => rfl) ho res.2 hr'
  have key : ∀ (o : List Nat), (∀ i ∈ o, i < n) → ∀ (res : List V × List W) r1 r2,
      o.foldl (fun (acc : Outcome (List V)) i => acc.bind fun r => .ok (r.set i (g i))) (.ok res.1) = .ok r1 →
      o.foldl (fun (acc : Outcome (List W)) i => acc.bind fun r => .ok (r.set i (g' i))) (.ok res.2) = .ok r2 →
      o.foldl (fun (acc : Outcome (List V × List W)) i => acc.bind fun res => f res i) (.ok res) =
        .ok (r1, r2) := by
    intro o
    induction o with
    | nil => intro _ res r1 r2 e1 e2; simp at e1 e2; simp [← e1, ← e2]
    | cons k o ih =>
      intro hk res r1 r2 e1 e2
      rw [List.foldl_cons, Outcome.bind_ok] at e1 e2 ⊢
      rw [hf res k (hk k (by simp))]
      exact ih (fun i hi => hk i (by simp [hi])) _ _ _ e1 e2
  exact key order (fun i hi => List.mem_range.1 (ho.mem_iff.1 hi)) res _ _ h1 h2

/-- The weighted sum of where the joints turn the normal `n`. -/
noncomputable def blendedNormal (world ibp : List (Affine ℝ)) (row : List (Nat × ℝ)) (n : Vec3 ℝ) : Vec3 ℝ :=
  (row.map fun jw => jw.2 • (movedBy world ibp n jw.1 - movedBy world ibp 0 jw.1)).sum

theorem skinPointNormal_ok {world ibp : List (Affine ℝ)} (p n : Vec3 ℝ) :
    ∀ (row : List (Nat × ℝ)) (acc : Vec3 ℝ × Vec3 ℝ), WeightsFirst row →
      (∀ jw ∈ row, jw.1 < (skinTransforms world ibp).length) →
      skinPointNormal (skinTransforms world ibp) p n acc row =
        .ok (acc.1 + blended world ibp row p, acc.2 + blendedNormal world ibp row n) := by
  intro row
  induction row with
  | nil => intro acc _ _; simp [skinPointNormal, blended, blendedNormal]
  | cons a row ih =>
    intro acc hf hi
    obtain ⟨j, w⟩ := a
    have hj := hi (j, w) (by simp)
    unfold skinPointNormal
    rw [List.getElem?_eq_getElem hj]
    have hm := fun p => movedBy_eq (p := p) (List.getElem?_eq_getElem hj)
    have hz : (skinTransforms world ibp)[j].linear.mulVec 0 = 0 := by ext <;> simp [Mat3.mulVec]
    simp only
    unfold WeightsFirst at hf
    rw [List.pairwise_cons] at hf
    split_ifs with hw
    · have h0 : ∀ b ∈ (j, w) :: row, b.2 = 0 := by
        intro b hb
        rcases List.mem_cons.1 hb with rfl | hb
        · exact hw
        · exact hf.1 b hb hw
      unfold blended blendedNormal
      rw [sum_zero_weights h0 (movedBy world ibp p),
        sum_zero_weights h0 (fun j => movedBy world ibp n j - movedBy world ibp 0 j)]
      simp
    · rw [ih _ hf.2 (fun b hb => hi b (by simp [hb]))]
      unfold blended blendedNormal
      simp only [List.map_cons, List.sum_cons, hm, hz]
      congr 2
      · rw [add_assoc]
      · rw [add_assoc]; congr 2; congr 1; abel

/-- **C25** (mesh).  For a mesh with one normal per vertex, the skinned vertices are those of `C25_blend` and
the skinned normals are the normalised blended normals, hence of length one or zero. -/
theorem C25_mesh (order : List Nat) (ibp world : List (Affine ℝ)) (skin : List (List (Nat × ℝ)))
    (vertices normals : List (Vec3 ℝ)) (out : List (Vec3 ℝ) × List (Vec3 ℝ))
    (ho : order.Perm (List.range vertices.length)) (hw : ibp.length ≤ world.length)
    (hs : skin.length = vertices.length) (hn : normals.length = vertices.length)
    (ho1 : out.1.length = vertices.length) (ho2 : out.2.length = normals.length)
    (hi : IndicesValid skin ibp.length) (hf : ∀ row ∈ skin, WeightsFirst row) :
    ∃ ns, applySSDMesh order ibp skin vertices normals world out =
      .ok (List.zipWith (fun row p => blended world ibp row p) skin vertices, ns) ∧
      ns.length = vertices.length ∧
      (∀ (i : Nat) (row : List (Nat × ℝ)) (n : Vec3 ℝ), skin[i]? = some row → normals[i]? = some n →
        ns[i]? = some (blendedNormal world ibp row n).normalize) ∧
      ∀ n ∈ ns, n.sqNorm = 1 ∨ n = 0 := by
  have hl : (skinTransforms world ibp).length = ibp.length := by simp [skinTransforms, hw]
  refine ⟨(List.range vertices.length).map fun i =>
    (blendedNormal world ibp (skin.getD i []) (normals.getD i 0)).normalize, ?_, by simp, ?_, ?_⟩
  · unfold applySSDMesh
    rw [if_neg (by omega), if_neg (by simpa using hs), if_neg (by simpa using ho1), if_neg (by simpa using ho2)]
    have hstep : ∀ (res : List (Vec3 ℝ) × List (Vec3 ℝ)) (i : Nat), i < vertices.length →
        meshStep (skinTransforms world ibp) skin vertices normals res i =
          .ok (res.1.set i (blended world ibp (skin.getD i []) (vertices.getD i 0)),
            res.2.set i (blendedNormal world ibp (skin.getD i []) (normals.getD i 0)).normalize) := by
      intro res i hip
      have his : i < skin.length := by omega
      have hin : i < normals.length := by omega
      unfold meshStep
      rw [List.getElem?_eq_getElem his, List.getElem?_eq_getElem hip, List.getElem?_eq_getElem hin]
      simp only
      rw [skinPointNormal_ok _ _ _ _ (hf _ (List.getElem_mem his))
        (by intro jw hjw; rw [hl]; exact hi _ (List.getElem_mem his) jw hjw)]
      simp [List.getD, his, hip, hin]
    rw [setFold2_perm hstep ho _ ho1 (by omega)]
    congr 2
    apply List.ext_getElem
    · simp [hs]
    · intro i h1 h2
      simp at h1
      simp [List.getD, h1, show i < skin.length by omega]
  · intro i row n hr hnn
    have his := (List.getElem?_eq_some_iff.1 hr).1
    rw [List.getElem?_map, List.getElem?_range (by omega)]
    simp [List.getD, hr, hnn]
  · intro n hmem
    obtain ⟨i, -, rfl⟩ := List.mem_map.1 hmem
    exact Vec3.normalize_unit _

/-- **C25** (defect).  A mesh with vertices but no normals passes all checks, and the mesh version then reads
normals out of range. -/
theorem C25_mesh_without_normals :
    applySSDMesh [0] [Affine.one] [[(0, 1)]] [0] [] [Affine.one] ([0], []) = .ub := by
  simp [applySSDMesh, meshStep, Affine.one]

end Momentum
