import Verif.Lemmas.TensorLinear
import Verif.Props.ParameterTransform
import Mathlib.Tactic.NormNum
import Mathlib.LinearAlgebra.Matrix.Notation

/-!
# C72: the backward passes of skinning, blend shapes, parameter transforms and their inverses

The outputs are affine functions of each input, so the gradient `g` is characterised without limits: when the input changes by `δ`,
the weighted sum of the outputs changes by `Σ g δ`.
-/

namespace Momentum
open Finset

namespace TensorLinear
variable {K : Type} [CommRing K] [DecidableEq K]

/-- The rest point of a vertex. -/
def rest (mesh : List (Vec3 K)) (restPoints : Option (List (Vec3 K))) (i : Nat) : Vec3 K := (restPoints.getD mesh).getD i 0

theorem restPoint_eq (mesh : List (Vec3 K)) (restPoints : Option (List (Vec3 K))) (h : ∀ r, restPoints = some r → r.length = mesh.length)
    {i : Nat} (hi : i < mesh.length) : restPoint mesh restPoints i = some (rest mesh restPoints i).homogeneous := by
  cases restPoints with
  | none => simp [restPoint, rest, hi]
  | some r =>
    have : i < r.length := by rw [h r rfl]; exact hi
    simp [restPoint, rest, this]

/-- Position of a vertex before the last coordinate is dropped. -/
def blended (T B : List (Mat4 K)) (row : List (Nat × K)) (p : Fin 4 → K) : Fin 4 → K :=
  ((activeRow row).map fun e => (e.2 • (T.getD e.1 0 * B.getD e.1 0)).mulVec p).sum

theorem zip_getD {T B : List (Mat4 K)} (h : T.length = B.length) (i : Nat) :
    (List.zipWith (· * ·) T B).getD i 0 = T.getD i 0 * B.getD i 0 := by
  simp only [List.getD_eq_getElem?_getD, List.getElem?_zipWith]
  by_cases hi : i < T.length
  · simp [List.getElem?_eq_getElem hi, List.getElem?_eq_getElem (h ▸ hi)]
  · simp [List.getElem?_eq_none (not_lt.1 hi)]

theorem forward_eq {ibp : List (Affine K)} {skin : List (List (Nat × K))} {mesh : List (Vec3 K)} {T : List (Mat4 K)}
    {restPoints : Option (List (Vec3 K))} (hT : T.length = ibp.length) (hs : skin.length = mesh.length)
    (hr : ∀ r, restPoints = some r → r.length = mesh.length)
    (hi : ∀ row ∈ skin, ∀ e ∈ activeRow row, e.1 < ibp.length) :
    skinPointsForward ibp skin mesh T restPoints = some ((List.range mesh.length).map fun i =>
      head3 (blended T (ibp.map Affine.matrix) (skin.getD i []) (rest mesh restPoints i).homogeneous)) := by
  have hl : T.length = (ibp.map Affine.matrix).length := by rw [List.length_map]; exact hT
  rw [skinPointsForward, multiplyLists, if_neg (not_not.2 hl), Option.bind_some]
  refine mapM_range_some fun i hil => ?_
  have es : skin[i]? = some (skin.getD i []) := by
    rw [List.getElem?_eq_getElem (by omega)]; simp [hs ▸ hil]
  rw [skinOne, restPoint_eq mesh restPoints hr hil, es]
  have hmem : skin.getD i [] ∈ skin := List.mem_of_getElem? es
  simp only
  rw [skinVertex_eq _ _ _ (fun e he => by
    rw [List.length_zipWith, ← hl, min_self, hT]; exact hi _ hmem e he)]
  simp only [Option.map_some, zero_add, zip_getD hl, blended]

theorem head3_sum_sub (T T' B : List (Mat4 K)) (row : List (Nat × K)) (p : Fin 4 → K) :
    blended T' B row p - blended T B row p =
      ((activeRow row).map fun e => (e.2 • ((T'.getD e.1 0 - T.getD e.1 0) * B.getD e.1 0)).mulVec p).sum := by
  unfold blended
  induction activeRow row with
  | nil => simp
  | cons e l ih =>
    simp only [List.map_cons, List.sum_cons]
    rw [← ih, sub_mul, smul_sub, Matrix.sub_mulVec]
    abel

theorem blended_sub (T B : List (Mat4 K)) (row : List (Nat × K)) (p q : Fin 4 → K) :
    blended T B row p - blended T B row q =
      ((activeRow row).map fun e => (e.2 • (T.getD e.1 0 * B.getD e.1 0)).mulVec (p - q)).sum := by
  unfold blended
  induction activeRow row with
  | nil => simp
  | cons e l ih =>
    simp only [List.map_cons, List.sum_cons]
    rw [← ih, Matrix.mulVec_sub]
    abel

theorem transform_fold {ibp : List (Affine K)} {skin : List (List (Nat × K))} {mesh : List (Vec3 K)}
    {restPoints : Option (List (Vec3 K))} (hs : skin.length = mesh.length)
    (hr : ∀ r, restPoints = some r → r.length = mesh.length)
    (hi : ∀ row ∈ skin, ∀ e ∈ activeRow row, e.1 < ibp.length) (w : Nat → K) (D : Nat → Mat4 K) (n : Nat) (hn : n ≤ mesh.length) :
    ∃ g, (List.range n).foldlM (transformStep (ibp.map Affine.matrix) skin mesh restPoints w) (List.replicate ibp.length 0) = some g ∧
      g.length = ibp.length ∧ pairing g ibp.length D = ∑ i ∈ range n, (segmentVec w i).dot (head3
        (((activeRow (skin.getD i [])).map fun e => (e.2 • (D e.1 * (ibp.map Affine.matrix).getD e.1 0)).mulVec
          (rest mesh restPoints i).homogeneous).sum)) := by
  induction n with
  | zero =>
    refine ⟨_, rfl, by simp, ?_⟩
    rw [Finset.sum_range_zero]
    refine Finset.sum_eq_zero fun j hj => ?_
    simp [List.getD_eq_getElem?_getD, List.getElem?_replicate, Finset.mem_range.1 hj, frob_zero]
  | succ n ih =>
    obtain ⟨g, h1, h2, h3⟩ := ih (by omega)
    have hnl : n < mesh.length := by omega
    have es : skin[n]? = some (skin.getD n []) := by
      rw [List.getElem?_eq_getElem (by omega)]; simp [hs ▸ hnl]
    obtain ⟨g', e1, e2, e3⟩ := accumTransforms_eq ibp ibp.length rfl (segmentVec w n) (rest mesh restPoints n) D (skin.getD n [])
      (hi _ (List.mem_of_getElem? es)) g h2
    refine ⟨g', ?_, e2, ?_⟩
    · rw [List.range_succ, List.foldlM_append, h1]
      simp only [List.foldlM_cons, List.foldlM_nil, Option.bind_eq_bind, Option.bind_some]
      rw [transformStep, restPoint_eq mesh restPoints hr hnl, es]
      simp only [e1, Option.bind_some]
      rfl
    · rw [Finset.sum_range_succ, e3, h3]

theorem dot_head3_sub (d : Vec3 K) (a b : Fin 4 → K) : d.dot (head3 a) - d.dot (head3 b) = d.dot (head3 (a - b)) := by
  simp [Vec3.dot, head3]; ring

end TensorLinear

open TensorLinear

section
variable {K : Type} [CommRing K] [DecidableEq K]

/-- C72: the derivatives returned for the 4×4 transforms of the joints are those of the weighted sum of the skinned coordinates. -/
theorem C72_skin_transforms (ibp : List (Affine K)) (skin : List (List (Nat × K))) (mesh : List (Vec3 K))
    (T T' : List (Mat4 K)) (restPoints : Option (List (Vec3 K))) (w : Nat → K)
    (hT : T.length = ibp.length) (hT' : T'.length = ibp.length) (hs : skin.length = mesh.length)
    (hr : ∀ r, restPoints = some r → r.length = mesh.length) (hi : ∀ row ∈ skin, ∀ e ∈ row, e.1 < ibp.length) :
    ∃ out out' g r, skinPointsForward ibp skin mesh T restPoints = some out ∧
      skinPointsForward ibp skin mesh T' restPoints = some out' ∧
      skinPointsBackward ibp skin mesh T restPoints w = some (g, r) ∧ g.length = T.length ∧
      weightedPoints w out' - weightedPoints w out = ∑ j ∈ range T.length, ∑ a : Fin 4, ∑ b : Fin 4,
        (g.getD j 0) a b * ((T'.getD j 0) a b - (T.getD j 0) a b) := by
  have hi' : ∀ row ∈ skin, ∀ e ∈ activeRow row, e.1 < ibp.length :=
    fun row hrow e he => hi row hrow e (List.takeWhile_subset _ he)
  obtain ⟨g, h1, h2, h3⟩ := transform_fold (ibp := ibp) hs hr hi' w (fun j => T'.getD j 0 - T.getD j 0) mesh.length le_rfl
  have hb : ∃ r, skinPointsBackward ibp skin mesh T restPoints w = some (g, r) := by
    rw [skinPointsBackward, hT, h1, Option.bind_some]
    cases restPoints with
    | none => exact ⟨none, rfl⟩
    | some rp =>
      have hl : T.length = (ibp.map Affine.matrix).length := by rw [List.length_map]; exact hT
      simp only [multiplyLists, if_neg (not_not.2 hl), Option.bind_some]
      have : ∀ i, ∃ v, i < mesh.length → (skin[i]?.bind fun row => accumRest (List.zipWith (· * ·) T (ibp.map Affine.matrix))
          (segmentVec w i) 0 row) = some v := by
        intro i
        by_cases hil : i < mesh.length
        · have es : skin[i]? = some (skin[i]'(by omega)) := List.getElem?_eq_getElem _
          obtain ⟨v, hv, _⟩ := accumRest_eq (List.zipWith (· * ·) T (ibp.map Affine.matrix)) (segmentVec w i) (skin[i]'(by omega))
            (fun e he => by
              rw [List.length_zipWith, ← hl, min_self, hT]; exact hi' _ (List.getElem_mem _) e he) 0 rfl 0
          exact ⟨v, fun _ => by rw [es, Option.bind_some, hv]⟩
        · exact ⟨0, fun h => absurd h hil⟩
      choose v hv using this
      exact ⟨some ((List.range mesh.length).map v), by rw [mapM_range_some (fun i hil => hv i hil)]; rfl⟩
  obtain ⟨r, hb⟩ := hb
  refine ⟨_, _, g, r, forward_eq hT hs hr hi', forward_eq hT' hs hr hi', hb, by rw [h2, hT], ?_⟩
  rw [weightedPoints_range, weightedPoints_range, ← Finset.sum_sub_distrib, hT]
  have : ∑ j ∈ range ibp.length, ∑ a : Fin 4, ∑ b : Fin 4, (g.getD j 0) a b * ((T'.getD j 0) a b - (T.getD j 0) a b) =
      pairing g ibp.length (fun j => T'.getD j 0 - T.getD j 0) := rfl
  rw [this, h3]
  refine Finset.sum_congr rfl fun i _ => ?_
  rw [dot_head3_sub, head3_sum_sub]

/-- C72: the derivatives returned for the rest points are those of the same sum. -/
theorem C72_skin_rest (ibp : List (Affine K)) (skin : List (List (Nat × K))) (mesh : List (Vec3 K))
    (T : List (Mat4 K)) (P P' : List (Vec3 K)) (w : Nat → K)
    (hT : T.length = ibp.length) (hs : skin.length = mesh.length) (hP : P.length = mesh.length) (hP' : P'.length = mesh.length)
    (hi : ∀ row ∈ skin, ∀ e ∈ row, e.1 < ibp.length) :
    ∃ out out' g d, skinPointsForward ibp skin mesh T (some P) = some out ∧
      skinPointsForward ibp skin mesh T (some P') = some out' ∧
      skinPointsBackward ibp skin mesh T (some P) w = some (g, some d) ∧ d.length = P.length ∧
      weightedPoints w out' - weightedPoints w out = ∑ i ∈ range P.length, (d.getD i 0).dot (P'.getD i 0 - P.getD i 0) := by
  have hi' : ∀ row ∈ skin, ∀ e ∈ activeRow row, e.1 < ibp.length :=
    fun row hrow e he => hi row hrow e (List.takeWhile_subset _ he)
  have hr : ∀ r, some P = some r → r.length = mesh.length := by rintro r ⟨⟩; exact hP
  have hr' : ∀ r, some P' = some r → r.length = mesh.length := by rintro r ⟨⟩; exact hP'
  obtain ⟨g, h1, h2, _⟩ := transform_fold (ibp := ibp) hs hr hi' w (fun _ => 0) mesh.length le_rfl
  have hl : T.length = (ibp.map Affine.matrix).length := by rw [List.length_map]; exact hT
  have : ∀ i, ∃ v : Vec3 K, i < mesh.length → (skin[i]?.bind fun row => accumRest (List.zipWith (· * ·) T (ibp.map Affine.matrix))
      (segmentVec w i) 0 row) = some v ∧ v.dot (P'.getD i 0 - P.getD i 0) =
      (segmentVec w i).dot (head3 (blended T (ibp.map Affine.matrix) (skin.getD i []) (P'.getD i 0).homogeneous -
        blended T (ibp.map Affine.matrix) (skin.getD i []) (P.getD i 0).homogeneous)) := by
    intro i
    by_cases hil : i < mesh.length
    · have es : skin[i]? = some (skin[i]'(by omega)) := List.getElem?_eq_getElem _
      have eg : skin.getD i [] = skin[i]'(by omega) := by rw [List.getD_eq_getElem?_getD, es]; rfl
      obtain ⟨v, hv, hv2⟩ := accumRest_eq (List.zipWith (· * ·) T (ibp.map Affine.matrix)) (segmentVec w i) (skin[i]'(by omega))
        (fun e he => by
          rw [List.length_zipWith, ← hl, min_self, hT]; exact hi' _ (List.getElem_mem _) e he)
        ((P'.getD i 0).homogeneous - (P.getD i 0).homogeneous) (by simp [Vec3.homogeneous]) 0
      refine ⟨v, fun _ => ⟨by rw [es, Option.bind_some, hv], ?_⟩⟩
      have hh : head3 ((P'.getD i 0).homogeneous - (P.getD i 0).homogeneous) = P'.getD i 0 - P.getD i 0 := by
        ext <;> simp [head3, Vec3.homogeneous]
      rw [hh] at hv2
      rw [hv2, eg, blended_sub]
      simp only [zip_getD hl]
      simp [Vec3.dot]
    · exact ⟨0, fun h => absurd h hil⟩
  choose v hv using this
  refine ⟨_, _, g, (List.range mesh.length).map v, forward_eq hT hs hr hi', forward_eq hT hs hr' hi', ?_, by simp [hP], ?_⟩
  · rw [skinPointsBackward, hT, h1, Option.bind_some]
    simp only [multiplyLists, if_neg (not_not.2 hl), Option.bind_some]
    rw [mapM_range_some (fun i hil => (hv i hil).1)]
    rfl
  · rw [weightedPoints_range, weightedPoints_range, ← Finset.sum_sub_distrib, hP]
    refine Finset.sum_congr rfl fun i hi => ?_
    have hil := Finset.mem_range.1 hi
    rw [dot_head3_sub]
    have : ((List.range mesh.length).map v).getD i 0 = v i := by simp [hil]
    rw [this, (hv i hil).2]
    rfl

/-- The hypotheses of the two theorems are met: two joints, three vertices, one of them on both joints. -/
example : (∀ row ∈ [[(0, (1 : ℚ))], [(1, 1 / 2), (0, 1 / 2), (0, 0)], [(1, 1)]], ∀ e ∈ row,
      e.1 < [(⟨⟨1, 0, 0, 0, 1, 0, 0, 0, 1⟩, ⟨0, 0, 0⟩⟩ : Affine ℚ), ⟨⟨1, 0, 0, 0, 1, 0, 0, 0, 1⟩, ⟨0, -1, 0⟩⟩].length) ∧
    (skinPointsBackward [(⟨⟨1, 0, 0, 0, 1, 0, 0, 0, 1⟩, ⟨0, 0, 0⟩⟩ : Affine ℚ), ⟨⟨1, 0, 0, 0, 1, 0, 0, 0, 1⟩, ⟨0, -1, 0⟩⟩]
      [[(0, (1 : ℚ))], [(1, 1 / 2), (0, 1 / 2), (0, 0)], [(1, 1)]] [⟨1, 0, 0⟩, ⟨0, 2, 0⟩, ⟨0, 0, 3⟩]
      [1, 1] (some [⟨1, 0, 0⟩, ⟨0, 2, 0⟩, ⟨0, 0, 3⟩]) (fun n => n)).map (fun x => x.2) =
    some (some [⟨0, 1, 2⟩, ⟨3, 4, 5⟩, ⟨6, 7, 8⟩]) := by
  constructor
  · decide +kernel
  · decide +kernel

/-- C72: the derivatives returned for blend shape coefficients are those of the weighted sum of the coordinates. -/
theorem C72_blend_shape (b : BlendShape K) (c c' : List K) (w : Nat → K) (hc : c.length ≤ b.shapeVectors.length)
    (hc' : c'.length = c.length) (hb : b.baseShape.length ≤ b.modelSize) (hv : ∀ sv ∈ b.shapeVectors, sv.length = b.modelSize) :
    ∃ out out', applyBlendShapeForward b c = some out ∧ applyBlendShapeForward b c' = some out' ∧
      (applyBlendShapeBackward b c.length w).length = c.length ∧
      weightedPoints w out' - weightedPoints w out =
        ∑ j ∈ range c.length, (applyBlendShapeBackward b c.length w).getD j 0 * (c'.getD j 0 - c.getD j 0) := by
  have hfw : ∀ x : List K, x.length = c.length → applyBlendShapeForward b x = some ((List.range b.modelSize).map fun i =>
      b.baseShape.getD i 0 + (List.zipWith (fun c o => c • o) x ((b.shapeVectors.take c.length).map fun sv => sv.getD i 0)).sum) := by
    intro x hx
    rw [applyBlendShapeForward, if_neg (by omega), if_neg (by omega)]
    refine mapM_range_some fun i hi => ?_
    rw [tensorBlendVertex, hx]
    have : ∀ l : List (List (Vec3 K)), (∀ sv ∈ l, sv.length = b.modelSize) → (l.mapM fun sv => sv[i]?) =
        some (l.map fun sv => sv.getD i 0) := by
      intro l
      induction l with
      | nil => intro _; rfl
      | cons sv l ih =>
        intro h
        have : i < sv.length := by rw [h sv (by simp)]; exact hi
        rw [List.mapM_cons, ih fun s hs => h s (by simp [hs])]
        simp [this]
    rw [this _ fun sv hsv => hv sv (List.mem_of_mem_take hsv)]
    rfl
  refine ⟨_, _, hfw c rfl, hfw c' hc', by simp [applyBlendShapeBackward, hc], ?_⟩
  rw [weightedPoints_range, weightedPoints_range, ← Finset.sum_sub_distrib]
  have hzip : ∀ (l : List (List (Vec3 K))) (x x' : List K), x.length = l.length → x'.length = l.length →
      ∑ i ∈ range b.modelSize, ((segmentVec w i).dot (b.baseShape.getD i 0 + (List.zipWith (fun c o => c • o) x'
          (l.map fun sv => sv.getD i 0)).sum) - (segmentVec w i).dot (b.baseShape.getD i 0 +
          (List.zipWith (fun c o => c • o) x (l.map fun sv => sv.getD i 0)).sum)) =
      ∑ j ∈ range l.length, (l.map fun sv => ((List.range b.modelSize).map fun i => (sv.getD i 0).dot (segmentVec w i)).sum).getD j 0 *
        (x'.getD j 0 - x.getD j 0) := by
    intro l
    induction l with
    | nil => intro x x' h h'; simp at h h'; subst h; subst h'; simp
    | cons sv l ih =>
      intro x x' h h'
      match x, x' with
      | a :: x, a' :: x' =>
        simp only [List.length_cons, Nat.add_right_cancel_iff] at h h'
        rw [List.length_cons, Finset.sum_range_succ']
        simp only [List.map_cons, List.zipWith_cons_cons, List.sum_cons, List.getD_cons_zero, List.getD_cons_succ]
        rw [← ih x x' h h', list_sum_range, Finset.sum_mul, ← Finset.sum_add_distrib]
        refine Finset.sum_congr rfl fun i _ => ?_
        simp [Vec3.dot]
        ring
  have hlen : (b.shapeVectors.take c.length).length = c.length := by simp [hc]
  have := hzip (b.shapeVectors.take c.length) c c' hlen.symm (hc'.trans hlen.symm)
  rw [hlen] at this
  exact this

/-- The hypotheses are met: three shapes of two vertices, two coefficients. -/
example : ∃ b : BlendShape ℚ, [1, 2].length ≤ b.shapeVectors.length ∧ b.baseShape.length ≤ b.modelSize ∧
    (∀ sv ∈ b.shapeVectors, sv.length = b.modelSize) ∧
    applyBlendShapeBackward b 2 (fun n => if n = 0 then 1 else if n = 5 then 3 else 0) = [7, -2] :=
  ⟨⟨[⟨0, 0, 0⟩, ⟨1, 0, 0⟩], 2, [[⟨1, 0, 0⟩, ⟨0, 0, 2⟩], [⟨1, 1, 0⟩, ⟨0, 0, -1⟩], [⟨5, 5, 5⟩, ⟨0, 0, 0⟩]]⟩, by decide +kernel⟩

omit [DecidableEq K] in
/-- C72: the derivatives returned for model parameters are those of the weighted sum of the joint parameters. -/
theorem C72_parameter_transform (pt : ParameterTransform K) (hwf : pt.transform.WF) (p p' : List K) (w : Nat → K)
    (hp : p.length = pt.transform.cols) (hp' : p'.length = pt.transform.cols) (ho : pt.offsets.length = pt.transform.rows) :
    ∃ q q', pt.apply p = some q ∧ pt.apply p' = some q' ∧
      (applyParamTransformBackward pt w).length = pt.transform.cols ∧
      ∑ i ∈ range pt.transform.rows, w i * (q'.getD i 0 - q.getD i 0) =
        ∑ j ∈ range pt.transform.cols, (applyParamTransformBackward pt w).getD j 0 * (p'.getD j 0 - p.getD j 0) := by
  have hex : ∀ x : List K, x.length = pt.transform.cols → ∃ q, pt.apply x = some q := by
    intro x hx
    exact ⟨_, by unfold ParameterTransform.apply; rw [if_pos hx, if_pos ho]⟩
  obtain ⟨q, hq⟩ := hex p hp
  obtain ⟨q', hq'⟩ := hex p' hp'
  refine ⟨q, q', hq, hq', by simp [applyParamTransformBackward, SparseMat.transposeMulVec], ?_⟩
  obtain ⟨_, _, _, h1⟩ := (C13_apply_affine pt hwf p q).1 hq
  obtain ⟨_, _, _, h1'⟩ := (C13_apply_affine pt hwf p' q').1 hq'
  have hL : ∀ i ∈ range pt.transform.rows, w i * (q'.getD i 0 - q.getD i 0) =
      ∑ j ∈ range pt.transform.cols, w i * pt.transform.coeff i j * (p'.getD j 0 - p.getD j 0) := by
    intro i hi
    have hi := Finset.mem_range.1 hi
    rw [List.getD_eq_getElem?_getD, List.getD_eq_getElem?_getD (l := q), h1 i hi, h1' i hi]
    simp only [Option.getD_some]
    rw [add_sub_add_right_eq_sub, ← Finset.sum_sub_distrib, Finset.mul_sum]
    exact Finset.sum_congr rfl fun j _ => by ring
  rw [Finset.sum_congr rfl hL, Finset.sum_comm]
  refine Finset.sum_congr rfl fun j hj => ?_
  have hj := Finset.mem_range.1 hj
  rw [← Finset.sum_mul]
  congr 1
  have : (applyParamTransformBackward pt w).getD j 0 =
      ((pt.transform.entries.filter (·.col == j)).map fun e => e.val * w e.row).sum := by
    simp [applyParamTransformBackward, SparseMat.transposeMulVec, hj]
  rw [this]
  have hwf' : ∀ e ∈ pt.transform.entries, e.row < pt.transform.rows := fun e he => (hwf e he).1
  simp only [SparseMat.coeff]
  generalize pt.transform.entries = es at hwf'
  induction es with
  | nil => simp
  | cons e es ih =>
    have ih := ih fun x hx => hwf' x (by simp [hx])
    have her := hwf' e (by simp)
    by_cases hc : e.col = j
    · have hsplit : ∀ i, (((e :: es).filter fun x => x.row == i && x.col == j).map (·.val)).sum =
          (if e.row = i then e.val else 0) + ((es.filter fun x => x.row == i && x.col == j).map (·.val)).sum := by
        intro i
        by_cases hr : e.row = i <;> simp [List.filter_cons, hr, hc]
      simp only [hsplit, mul_add, Finset.sum_add_distrib, ih]
      rw [Finset.sum_eq_single e.row]
      · simp [List.filter_cons, hc, mul_comm]
      · intro i _ hi; rw [if_neg (fun h : e.row = i => hi h.symm), mul_zero]
      · intro h; exact absurd (Finset.mem_range.2 her) h
    · have hsplit : ∀ i, (((e :: es).filter fun x => x.row == i && x.col == j).map (·.val)).sum =
          ((es.filter fun x => x.row == i && x.col == j).map (·.val)).sum := by
        intro i; simp [List.filter_cons, hc]
      simp only [hsplit, ih]
      simp [List.filter_cons, hc]

end

/-! ## The inverse parameter transform -/

section
variable {K : Type} [Field K] {m n : Nat}

/-- C72: the forward function solves the least squares problem: the residual is orthogonal to the columns of the transform. -/
theorem C72_inverse_forward (qr : SparseQR K m n) (A : Matrix (Fin m) (Fin n) K) (h : qr.Factors A) (o x : Fin m → K) :
    A.transpose.mulVec (A.mulVec (inverseParamTransformForward qr o x) - (x - o)) = 0 := by
  have hA : A = (qr.Q * qr.R).submatrix id qr.perm.symm := by
    ext r i
    rw [Matrix.submatrix_apply, ← h.eq]
    simp
  have hAx : A.mulVec (inverseParamTransformForward qr o x) = qr.Q.mulVec (qr.Q.transpose.mulVec (x - o)) := by
    have : ∀ y : Fin n → K, A.mulVec (fun i => y (qr.perm.symm i)) = (qr.Q * qr.R).mulVec y := by
      intro y
      funext r
      simp only [Matrix.mulVec, dotProduct]
      rw [← Equiv.sum_comp qr.perm]
      refine Finset.sum_congr rfl fun i _ => ?_
      rw [h.eq, Equiv.symm_apply_apply]
    have e : inverseParamTransformForward qr o x = fun i => (qr.R⁻¹.mulVec (qr.Q.transpose.mulVec (x - o))) (qr.perm.symm i) := rfl
    rw [e, this, ← Matrix.mulVec_mulVec, Matrix.mulVec_mulVec _ qr.R,
      Matrix.mul_nonsing_inv _ h.inv, Matrix.one_mulVec]
  rw [hAx, Matrix.mulVec_sub]
  have hT : ∀ v : Fin m → K, A.transpose.mulVec v = fun i => (qr.R.transpose.mulVec (qr.Q.transpose.mulVec v)) (qr.perm.symm i) := by
    intro v
    rw [Matrix.mulVec_mulVec, ← Matrix.transpose_mul, hA]
    rfl
  rw [hT, hT, Matrix.mulVec_mulVec _ qr.Q.transpose, h.orth, Matrix.one_mulVec, sub_self]

/-- C72: what the backward pass returns, for any column permutation: the derivatives of the sum of the outputs in which output `perm i`
has the weight meant for output `i`. -/
theorem C72_inverse_backward (qr : SparseQR K m n) (o x x' : Fin m → K) (w : Fin n → K) :
    ∑ i, w i * (inverseParamTransformForward qr o x' (qr.perm i) - inverseParamTransformForward qr o x (qr.perm i)) =
      ∑ r, inverseParamTransformBackward qr w r * (x' r - x r) := by
  have e : ∀ y : Fin m → K, (fun i => inverseParamTransformForward qr o y (qr.perm i)) = (qr.R⁻¹ * qr.Q.transpose).mulVec (y - o) := by
    intro y
    funext i
    simp [inverseParamTransformForward, SparseQR.solve, Matrix.mulVec_mulVec]
  have h1 : ∑ i, w i * (inverseParamTransformForward qr o x' (qr.perm i) - inverseParamTransformForward qr o x (qr.perm i)) =
      dotProduct w ((qr.R⁻¹ * qr.Q.transpose).mulVec (x' - x)) := by
    have : x' - x = (x' - o) - (x - o) := by abel
    rw [this, Matrix.mulVec_sub, ← e, ← e]
    rfl
  rw [h1, Matrix.dotProduct_mulVec]
  have h2 : inverseParamTransformBackward qr w = Matrix.vecMul w (qr.R⁻¹ * qr.Q.transpose) := by
    rw [inverseParamTransformBackward, Matrix.mulVec_mulVec, ← Matrix.mulVec_transpose, Matrix.transpose_mul, Matrix.transpose_transpose,
      Matrix.transpose_nonsing_inv]
  rw [h2]
  rfl

/-- C72, partial: the gradient is right when the factorisation does not permute the columns.  (The full claim, for every permutation,
is false: `C72_inverse_gradient_iff`.) -/
theorem C72_inverse_gradient_partial (qr : SparseQR K m n) (hp : qr.perm = 1) (o x x' : Fin m → K) (w : Fin n → K) :
    ∑ i, w i * (inverseParamTransformForward qr o x' i - inverseParamTransformForward qr o x i) =
      ∑ r, inverseParamTransformBackward qr w r * (x' r - x r) := by
  have := C72_inverse_backward qr o x x' w
  simpa only [hp, Equiv.Perm.one_apply] using this

/-- C72, a violation: for a matrix of full rank the backward pass returns the gradient of the weighted sum of the outputs for all weights
and inputs only if the column permutation of the factorisation is the identity. -/
theorem C72_inverse_gradient_iff (qr : SparseQR K m n) (A : Matrix (Fin m) (Fin n) K) (h : qr.Factors A) :
    (∀ (o x x' : Fin m → K) (w : Fin n → K),
      ∑ i, w i * (inverseParamTransformForward qr o x' i - inverseParamTransformForward qr o x i) =
        ∑ r, inverseParamTransformBackward qr w r * (x' r - x r)) ↔ qr.perm = 1 := by
  refine ⟨fun H => ?_, fun hp o x x' w => C72_inverse_gradient_partial qr hp o x x' w⟩
  -- choose the input so that the outputs are any given vector
  have hsurj : ∀ y : Fin n → K, ∃ x : Fin m → K, ∀ i, inverseParamTransformForward qr 0 x (qr.perm i) = y i := by
    intro y
    refine ⟨qr.Q.mulVec (qr.R.mulVec y), fun i => ?_⟩
    simp only [inverseParamTransformForward, SparseQR.solve, sub_zero, Equiv.symm_apply_apply]
    rw [Matrix.mulVec_mulVec _ qr.Q.transpose, h.orth, Matrix.one_mulVec, Matrix.mulVec_mulVec, Matrix.nonsing_inv_mul _ h.inv,
      Matrix.one_mulVec]
  have h0 : ∀ i, inverseParamTransformForward qr 0 0 i = 0 := by
    intro i; simp [inverseParamTransformForward, SparseQR.solve]
  ext i
  by_contra hne
  obtain ⟨x, hx⟩ := hsurj (Pi.single i 1)
  have e1 := H 0 0 x (Pi.single i 1)
  rw [← C72_inverse_backward qr 0 0 x (Pi.single i 1)] at e1
  simp only [h0, sub_zero, hx] at e1
  have l1 : ∑ j, (Pi.single i (1 : K) : Fin n → K) j * inverseParamTransformForward qr 0 x j = inverseParamTransformForward qr 0 x i := by
    rw [Finset.sum_eq_single i] <;> simp +contextual [Pi.single_apply]
  have l2 : ∑ j, (Pi.single i (1 : K) : Fin n → K) j * (Pi.single i (1 : K) : Fin n → K) j = 1 := by
    rw [Finset.sum_eq_single i] <;> simp +contextual [Pi.single_apply]
  rw [l1, l2] at e1
  have e2 := hx (qr.perm.symm i)
  rw [Equiv.apply_symm_apply, e1, Pi.single_apply] at e2
  split at e2
  · next hs =>
    apply hne
    have : qr.perm i = i := by
      have := congrArg qr.perm hs
      rw [Equiv.apply_symm_apply] at this
      exact this.symm
    simp [this]
  · exact one_ne_zero e2

/-- The hypothesis is met by a factorisation with a permutation: `A = [[0, 1], [1, 0]]` with its columns exchanged, `Q = R = 1`. -/
example : (⟨1, 1, Equiv.swap 0 1⟩ : SparseQR ℚ 2 2).Factors !![0, 1; 1, 0] ∧ (Equiv.swap (0 : Fin 2) 1) ≠ 1 := by
  refine ⟨⟨?_, by simp, ?_, by simp⟩, by decide⟩
  · intro r i; fin_cases r <;> fin_cases i <;> simp
  · intro i j h; exact Matrix.one_apply_ne (fun e => by subst e; exact lt_irrefl _ h)

end

end Momentum
