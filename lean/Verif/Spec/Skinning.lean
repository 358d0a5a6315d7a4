import Verif.Model.Skinning
import Verif.Spec.Skeleton

/-!
# Specification vocabulary for skinning
-/

namespace Momentum

/-- The non-zero weights of a vertex come first. -/
def WeightsFirst {K : Type} [Zero K] (row : List (Nat × K)) : Prop :=
  row.Pairwise fun a b => a.2 = 0 → b.2 = 0

/-- Where joint `j` moves point `p`: from the bind pose into joint space and out again in the posed state. -/
def movedBy {K : Type} [CommRing K] (world ibp : List (Affine K)) (p : Vec3 K) (j : Nat) : Vec3 K :=
  match world[j]?, ibp[j]? with
  | some w, some b => w.apply (b.apply p)
  | _, _ => 0

/-- Linear blend skinning: the weighted sum of where the joints move the point. -/
def blended {K : Type} [CommRing K] (world ibp : List (Affine K)) (row : List (Nat × K)) (p : Vec3 K) : Vec3 K :=
  (row.map fun jw => jw.2 • movedBy world ibp p jw.1).sum

/-- A blend shape whose base shape and shape vectors all have `modelSize` vertices. -/
structure BlendShape.Valid {K : Type} (b : BlendShape K) : Prop where
  base : b.baseShape.length = b.modelSize
  cols : ∀ sv ∈ b.shapeVectors, sv.length = b.modelSize

/-- The base shape plus the weighted sum of the shape vectors. -/
def shapeAt {K : Type} [CommRing K] (b : BlendShape K) (weights : List K) : List (Vec3 K) :=
  (List.range b.modelSize).map fun i =>
    b.baseShape.getD i 0 + ((weights.zip b.shapeVectors).map fun ws => ws.1 • ws.2.getD i 0).sum

/-- All indices of all rows refer to joints. -/
def IndicesValid {K : Type} (skin : List (List (Nat × K))) (n : Nat) : Prop :=
  ∀ row ∈ skin, ∀ jw ∈ row, jw.1 < n

/-- The parameter list with the three translation parameters of every joint multiplied by `c`. -/
noncomputable def scaleTranslations (c : ℝ) (params : List ℝ) : List ℝ :=
  params.mapIdx fun i x => if i % 7 < 3 then c * x else x

/-- `b` is `a` seen at `c` times the size: same rotation and scale, `c` times the position. -/
def ScaledPose (c : ℝ) (a b : Transform ℝ) : Prop :=
  b.rotation = a.rotation ∧ b.scale = a.scale ∧ b.translation = c • a.translation

/-- The result with every point multiplied by `c`; failures stay failures. -/
def scaledPoints {K : Type} [CommRing K] (c : K) : Outcome (List (Vec3 K)) → Outcome (List (Vec3 K))
  | .ok l => .ok (l.map fun p => c • p)
  | .throws => .throws
  | .ub => .ub

/-- The capsule with all its lengths multiplied by `c`. -/
def CapsuleState.scaled {K : Type} [CommRing K] (c : K) (s : CapsuleState K) : CapsuleState K :=
  ⟨c • s.origin, c • s.direction, c * s.radius0, c * s.radius1, c * s.delta⟩

/-- The parameter list with the root joint's translation parameters rotated by `q`. -/
noncomputable def rotateRootTranslation (q : Quat ℝ) (params : List ℝ) : List ℝ :=
  let v := q.rotate ⟨params.getD 0 0, params.getD 1 0, params.getD 2 0⟩
  ((params.set 0 v.x).set 1 v.y).set 2 v.z

/-- The first joint is the only root. -/
def Skeleton.SingleRoot {K : Type} (s : Skeleton K) : Prop :=
  ∀ (j : Nat) (jt : Joint K), s.joints[j]? = some jt → (jt.parent = none ↔ j = 0)

end Momentum
