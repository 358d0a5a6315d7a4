import Verif.Props.UnionError
import Verif.Props.DiffConstraints3

/-!
# C80: unions of position and orientation constraints, and the solver function
-/

namespace Momentum
open Finset

/-! ## Unions of fully differentiable constraints -/

/-- Members of a union. -/
inductive DiffMember where
  | position (E : DiffPosition)
  | orientation (E : DiffOrientation)

/-- What the union calls; a pose is a skeleton state.  The Jacobians of these error functions are not modelled. -/
noncomputable def diffOps : MemberOps DiffMember (List JointState) where
  jacobianSize _ := 0
  getError
    | .position E, st => (E.getError st).getD 0
    | .orientation E, st => (E.getError st).getD 0
  addGradient
    | .position E, st, g => E.getGradient st g
    | .orientation E, st, g => E.getGradient st g
  getJacobian _ _ := ⟨0, 0, fun _ _ => 0, fun _ => 0⟩
  inputs
    | .position _ => some DiffPosition.inputs
    | .orientation _ => some DiffOrientation.inputs
  getInputSize
    | .position E, n => E.getInputSize n
    | .orientation E, n => E.getInputSize n
  getInput
    | .position E, n => E.getInput n
    | .orientation E, n => E.getInput n
  setInput
    | .position E, n, y => (E.setInput n y).map .position
    | .orientation E, n, y => (E.setInput n y).map .orientation
  dGradientDot
    | .position E, n, st, v => E.dGradientDot n st v
    | .orientation E, n, st, v => E.dGradientDot n st v

/-- The member fits the skeleton and the parameter transform, the constraints are on joints, and the quaternions of the input in question
are not zero. -/
def DiffMember.Fits (pt : ParameterTransform ℝ) (p : List ℝ) (st : List JointState) (name : String) : DiffMember → Prop
  | .position E => E.Fits pt ∧ (∀ c ∈ E.constraints, c.parent < E.skeleton.joints.length) ∧ E.stateFor pt p true = some st
  | .orientation E => E.Fits pt ∧ (∀ c ∈ E.constraints, c.parent < E.skeleton.joints.length) ∧ E.stateFor pt p true = some st ∧
      (name = "offsets" → ∀ c ∈ E.constraints, c.offset ≠ ⟨0, 0, 0, 0⟩) ∧
      (name = "targets" → ∀ c ∈ E.constraints, c.target ≠ ⟨0, 0, 0, 0⟩)

theorem diffOps_adds (e : DiffMember) (st : List JointState) : diffOps.Adds e st := by
  intro g
  cases e with
  | position E =>
    simp only [diffOps, DiffPosition.getGradient, Option.map_map]
    congr 1
    funext s
    simp
  | orientation E =>
    simp only [diffOps, DiffOrientation.getGradient, Option.map_map]
    congr 1
    funext s
    simp

theorem DiffPosition.set_parents {E E' : DiffPosition} {name : String} {y : List ℝ} (h : E.setInput name y = some E')
    (hc : ∀ c ∈ E.constraints, c.parent < E.skeleton.joints.length) :
    E'.toErrorBase = E.toErrorBase ∧ ∀ c ∈ E'.constraints, c.parent < E.skeleton.joints.length := by
  unfold DiffPosition.setInput at h
  obtain ⟨n, -, h⟩ := Option.bind_eq_some_iff.1 h
  split_ifs at h
  unfold DiffPosition.setInputImp at h
  split_ifs at h
  all_goals
    cases h
    refine ⟨rfl, fun c hm => ?_⟩
    obtain ⟨i, hi, rfl⟩ := List.mem_mapIdx.1 hm
    exact hc E.constraints[i] (List.getElem_mem hi)

theorem DiffOrientation.set_parents {E E' : DiffOrientation} {name : String} {y : List ℝ} (h : E.setInput name y = some E')
    (hc : ∀ c ∈ E.constraints, c.parent < E.skeleton.joints.length) :
    E'.toErrorBase = E.toErrorBase ∧ ∀ c ∈ E'.constraints, c.parent < E.skeleton.joints.length := by
  unfold DiffOrientation.setInput at h
  obtain ⟨n, -, h⟩ := Option.bind_eq_some_iff.1 h
  split_ifs at h
  unfold DiffOrientation.setInputImp at h
  split_ifs at h
  all_goals
    cases h
    refine ⟨rfl, fun c hm => ?_⟩
    obtain ⟨i, hi, rfl⟩ := List.mem_mapIdx.1 hm
    exact hc E.constraints[i] (List.getElem_mem hi)

/-- Unions of position and orientation constraints: for every list of members, weight, pose, vector and input, the reported derivative
is that of the gradient of the union. -/
theorem C80_constraints (pt : ParameterTransform ℝ) (p : List ℝ) (st : List JointState) (w : ℝ) (fs : List DiffMember)
    (U : UnionError DiffMember) (hU : UnionError.make diffOps w fs = some U) (name : String) (hname : name ∈ U.inputs)
    (hF : ∀ e ∈ fs, e.Fits pt p st name) (v : Nat → ℝ) :
    ∃ x d, U.getInput diffOps name = some x ∧ U.dGradientDot diffOps name st v = some d ∧
      IsInputDerivative (U.setInput diffOps name) (fun U' => (U'.addGradient diffOps st fun _ => 0).map (·.2)) pt.transform.cols v x d := by
  have hn : ∀ e ∈ fs, ((diffOps.inputs e).getD []).Nodup := by
    intro e _
    cases e <;> simp [diffOps, DiffPosition.inputs, DiffOrientation.inputs]
  refine C80_derivative diffOps w fs hn U hU st (fun e => diffOps_adds e st) _ v name hname fun e he => ?_
  have hFe := hF e he
  cases e with
  | position E =>
    obtain ⟨f1, f2, f3⟩ := hFe
    obtain ⟨ch, hS⟩ := f1.sound f3
    by_cases hh : diffOps.Has name (.position E)
    · rw [if_pos hh]
      have hC := C79_position_inputs E
      obtain ⟨x, x1, x2, x3⟩ := hC.known name hh
      obtain ⟨d, d1, d2⟩ := C79_position E pt f1 f2 p st f3 v name x x1
      refine ⟨x, d, x1, x2, d1, ⟨d2.1, fun c hc => ?_⟩, ?_⟩
      · obtain ⟨F, g1, g2⟩ := d2.2 c hc
        refine ⟨F, fun u => ?_, g2⟩
        obtain ⟨E', g, k1, k2, k3⟩ := g1 u
        refine ⟨.position E', g, by simp only [diffOps, k1, Option.map_some], k2, ?_⟩
        rw [k3, f1.transform]
      · have hset := x3 trivial
        obtain ⟨e1, g1, k1, -⟩ := DiffPosition.getGradient_dot hS f2 v
        exact ⟨.position E, _, by simp only [diffOps, hset, Option.map_some], k1⟩
    · rw [if_neg hh]
      obtain ⟨e1, g1, k1, -⟩ := DiffPosition.getGradient_dot hS f2 v
      exact Option.isSome_iff_exists.2 ⟨_, k1⟩
  | orientation E =>
    obtain ⟨f1, f2, f3, f4, f5⟩ := hFe
    obtain ⟨ch, hS⟩ := f1.sound f3
    by_cases hh : diffOps.Has name (.orientation E)
    · rw [if_pos hh]
      have hC := C79_orientation_inputs E
      obtain ⟨x, x1, x2, x3⟩ := hC.known name hh
      obtain ⟨d, d1, d2⟩ := C79_orientation E pt f1 f2 p st f3 v name x x1 f4 f5
      refine ⟨x, d, x1, x2, d1, ⟨d2.1, fun c hc => ?_⟩, ?_⟩
      · obtain ⟨F, g1, g2⟩ := d2.2 c hc
        refine ⟨F, fun u => ?_, g2⟩
        obtain ⟨E', g, k1, k2, k3⟩ := g1 u
        refine ⟨.orientation E', g, by simp only [diffOps, k1, Option.map_some], k2, ?_⟩
        rw [k3, f1.transform]
      · obtain ⟨E', hset, -, -⟩ := hC.setGet name x x x1 rfl
        obtain ⟨hb, hp⟩ := DiffOrientation.set_parents hset f2
        obtain ⟨e1, g1, k1, -⟩ := DiffOrientation.getGradient_dot (E := E') (by rw [hb]; exact hS) (by rw [hb]; exact hp) v
        exact ⟨.orientation E', _, by simp only [diffOps, hset, Option.map_some], k1⟩
    · rw [if_neg hh]
      obtain ⟨e1, g1, k1, -⟩ := DiffOrientation.getGradient_dot hS f2 v
      exact Option.isSome_iff_exists.2 ⟨_, k1⟩

/-- The inputs of unions of position and orientation constraints are consistent; quaternions that have length one are kept as they are. -/
theorem C80_constraint_inputs (w : ℝ) (fs : List DiffMember) (U : UnionError DiffMember) (hU : UnionError.make diffOps w fs = some U) :
    InputsConsistent U.inputs (UnionError.getInputSize diffOps) (UnionError.getInput diffOps) (UnionError.setInput diffOps)
      (diffOps.PiecesOk (fun e name y => match e with
        | .position _ => True
        | .orientation E => name ≠ "weights" → ∀ i < E.constraints.length,
          (⟨y.getD (4 * i + 3) 0, y.getD (4 * i) 0, y.getD (4 * i + 1) 0, y.getD (4 * i + 2) 0⟩ : Quat ℝ).normSq = 1) · fs ·) U := by
  refine C80_inputs diffOps _ w fs (fun e _ => ?_) U hU
  cases e with
  | position E =>
    refine ⟨by simp [diffOps, DiffPosition.inputs], ?_, ?_⟩
    · have hC := C79_position_inputs E
      refine ⟨fun name h => ?_, fun name h => ?_, fun name x y hx hy => ?_, fun name x y hx hy => ?_⟩
      · obtain ⟨a, b, c⟩ := hC.unknown name h
        exact ⟨a, b, fun y => by simp only [diffOps, c y, Option.map_none]⟩
      · obtain ⟨x, a, b, c⟩ := hC.known name h
        exact ⟨x, a, b, fun o => by simp only [diffOps, c o, Option.map_some]⟩
      · simp only [diffOps, hC.wrongSize name x y hx hy, Option.map_none]
      · obtain ⟨E', a, b, c⟩ := hC.setGet name x y hx hy
        exact ⟨.position E', by simp only [diffOps, a, Option.map_some], b, c⟩
    · intro name y e' h
      obtain ⟨E', -, rfl⟩ := Option.map_eq_some_iff.1 h
      rfl
  | orientation E =>
    refine ⟨by simp [diffOps, DiffOrientation.inputs], ?_, ?_⟩
    · have hC := C79_orientation_inputs E
      refine ⟨fun name h => ?_, fun name h => ?_, fun name x y hx hy => ?_, fun name x y hx hy => ?_⟩
      · obtain ⟨a, b, c⟩ := hC.unknown name h
        exact ⟨a, b, fun y => by simp only [diffOps, c y, Option.map_none]⟩
      · obtain ⟨x, a, b, c⟩ := hC.known name h
        exact ⟨x, a, b, fun o => by simp only [diffOps, c o, Option.map_some]⟩
      · simp only [diffOps, hC.wrongSize name x y hx hy, Option.map_none]
      · obtain ⟨E', a, b, c⟩ := hC.setGet name x y hx hy
        exact ⟨.orientation E', by simp only [diffOps, a, Option.map_some], b, c⟩
    · intro name y e' h
      obtain ⟨E', -, rfl⟩ := Option.map_eq_some_iff.1 h
      rfl

/-! ## Concrete cases -/

/-- A union of a position and an orientation error function meets the hypotheses; both have the input `targets`. -/
example : ∃ U st, UnionError.make diffOps 2 [.position exDiffPosition, .orientation exDiffOrientation] = some U ∧ "targets" ∈ U.inputs ∧
    U.getInput diffOps "targets" = some [0, 0, 1, 4, 5, 6, 1, 0, 0, 0] ∧
    ∀ e ∈ [DiffMember.position exDiffPosition, .orientation exDiffOrientation], e.Fits exBaseTransform [1, 2] st "targets" := by
  obtain ⟨st, h⟩ := exBase_state [1, 2] rfl
  refine ⟨⟨2, [.position exDiffPosition, .orientation exDiffOrientation],
    [("weights", [0, 1]), ("offsets", [0, 1]), ("targets", [0, 1])]⟩, st, ?_, ?_, ?_, ?_⟩
  · simp [UnionError.make, indexMember, diffOps, DiffPosition.inputs, DiffOrientation.inputs, pushIndex]
  · simp [UnionError.inputs]
  · simp [UnionError.getInput, List.lookup, diffOps, exDiffPosition, exDiffOrientation, DiffPosition.getInput, DiffOrientation.getInput,
      Quat.coeffs]
  · simp [DiffMember.Fits, exDiffPosition, exDiffOrientation, h, exBase_fits]
    simp [exBase]

/-! ## The solver function -/

/-- The union in the list of error functions of a solver. -/
noncomputable def UnionError.toAdding {μ : Type} (ops : MemberOps μ (Nat → ℝ)) (U : UnionError μ) : AddingFunction where
  weight := U.weight
  getError := U.getError ops
  addGradient := U.addGradient ops

/-- The gradient that the error functions of `fs` add to zero, one by one. -/
def AddingFunction.Gives (f : AddingFunction) (p g : Nat → ℝ) : Prop :=
  ∀ g0, f.addGradient p g0 = some (f.getError p, fun i => g0 i + g i)

theorem shared_fold (fs : List AddingFunction) (p : Nat → ℝ) (g : AddingFunction → Nat → ℝ) (h : ∀ f ∈ fs, f.Gives p (g f)) :
    ∀ s : ℝ × (Nat → ℝ), fs.foldlM (fun s f => (f.addGradient p s.2).map fun r => (s.1 + r.1, r.2)) s =
      some (s.1 + (fs.map fun f => f.getError p).sum, fun i => s.2 i + (fs.map fun f => g f i).sum) := by
  induction fs with
  | nil => intro s; simp
  | cons f r ih =>
    intro s
    rw [List.foldlM_cons, h f (by simp) s.2, Option.map_some]
    change List.foldlM (m := Option) _ ((s.1 + f.getError p, fun i => s.2 i + g f i) : ℝ × (Nat → ℝ)) r = _
    rw [ih fun f' hf => h f' (List.mem_cons_of_mem _ hf)]
    simp only [List.map_cons, List.sum_cons, add_assoc]

/-- What a solver's gradient is with a union of weight `w` after the error functions `pre` and before `post`, all with positive weights:
the gradients of `pre` are multiplied with `w` too.  It is the sum of the gradients exactly where the weight is one or the gradients of
`pre` add up to zero, in particular if the union comes first. -/
theorem C80_shared_partial {μ : Type} (ops : MemberOps μ (Nat → ℝ)) (U : UnionError μ) (p : Nat → ℝ) (pre post : List AddingFunction)
    (hU0 : 0 < U.weight) (hpos : ∀ f ∈ pre ++ post, 0 < f.weight) (g : AddingFunction → Nat → ℝ) (hg : ∀ f ∈ pre ++ post, f.Gives p (g f))
    (gU : Nat → ℝ) (hadd : ∀ e ∈ U.errorFunctions, ops.Adds e p)
    (hgU : U.addGradient ops p (fun _ => 0) = some (U.getError ops p, gU)) :
    ∃ G, sharedGradient (pre ++ U.toAdding ops :: post) p = some (sharedError (pre ++ U.toAdding ops :: post) p, G) ∧
      ∀ i, G i = U.weight * (pre.map fun f => g f i).sum + gU i + (post.map fun f => g f i).sum ∧
        (G i = (pre.map fun f => g f i).sum + gU i + (post.map fun f => g f i).sum ↔
          U.weight = 1 ∨ (pre.map fun f => g f i).sum = 0) := by
  classical
  have hall : ∀ f ∈ pre ++ U.toAdding ops :: post, 0 < f.weight := by
    intro f hf
    rcases List.mem_append.1 hf with h | h
    · exact hpos f (by simp [h])
    · rcases List.mem_cons.1 h with rfl | h
      · exact hU0
      · exact hpos f (by simp [h])
  have hfil : (pre ++ U.toAdding ops :: post).filter (fun f => decide (0 < f.weight)) = pre ++ U.toAdding ops :: post :=
    List.filter_eq_self.2 fun f hf => by simpa using hall f hf
  rw [UnionError.addGradient_eq p hadd] at hgU
  obtain ⟨b, b1, b2⟩ := Option.map_eq_some_iff.1 hgU
  have b3 : U.weight * b.1 = U.getError ops p := congrArg Prod.fst b2
  have b4 : ∀ i, (0 + b.2 i) * U.weight = gU i := fun i => congrFun (congrArg Prod.snd b2) i
  refine ⟨fun i => (0 + (pre.map fun f => g f i).sum + b.2 i) * U.weight + (post.map fun f => g f i).sum, ?_, fun i => ?_⟩
  · unfold sharedGradient sharedError
    simp only [hfil, foldl_add_real]
    rw [List.foldlM_append, shared_fold pre p g fun f hf => hg f (by simp [hf])]
    have hs : (U.toAdding ops).addGradient p (fun i => 0 + (pre.map fun f => g f i).sum) =
        some (U.getError ops p, fun i => (0 + (pre.map fun f => g f i).sum + b.2 i) * U.weight) := by
      show U.addGradient ops p _ = _
      rw [UnionError.addGradient_eq p hadd, b1, Option.map_some, b3]
    simp only [Option.bind_eq_bind, Option.bind_some, List.foldlM_cons, hs, Option.map_some]
    rw [shared_fold post p g fun f hf => hg f (by simp [hf])]
    simp only [List.map_append, List.map_cons, List.sum_append, List.sum_cons, zero_add, add_assoc]
    rfl
  · have e : (0 + (pre.map fun f => g f i).sum + b.2 i) * U.weight + (post.map fun f => g f i).sum =
        U.weight * (pre.map fun f => g f i).sum + gU i + (post.map fun f => g f i).sum := by
      rw [← b4 i]; ring
    refine ⟨e, ?_⟩
    show (0 + (pre.map fun f => g f i).sum + b.2 i) * U.weight + (post.map fun f => g f i).sum = _ ↔ _
    rw [e]
    constructor
    · intro h
      have : (U.weight - 1) * (pre.map fun f => g f i).sum = 0 := by linarith
      rcases mul_eq_zero.1 this with h | h
      · exact Or.inl (by linarith)
      · exact Or.inr h
    · rintro (h | h)
      · rw [h, one_mul]
      · rw [h, mul_zero]

/-- The squared difference of parameter 0 from a target: a member for the examples below. -/
def exUnionSquare (t : ℝ) : AddingFunction where
  weight := 1
  getError p := (p 0 - t) ^ 2
  addGradient p g := some ((p 0 - t) ^ 2, fun i => g i + if i = 0 then 2 * (p 0 - t) else 0)

/-- Unions of such error functions. -/
def exUnionOps : MemberOps ℝ (Nat → ℝ) where
  jacobianSize _ := 1
  getError t p := (p 0 - t) ^ 2
  addGradient t p g := some ((p 0 - t) ^ 2, fun i => g i + if i = 0 then 2 * (p 0 - t) else 0)
  getJacobian t p := ⟨(p 0 - t) ^ 2, 1, fun i _ => if i = 0 then 1 else 0, fun _ => p 0 - t⟩
  inputs _ := some ["target"]
  getInputSize _ name := if name = "target" then some 1 else none
  getInput t name := if name = "target" then some [t] else none
  setInput t name y := if name = "target" ∧ y.length = 1 then some (y.getD 0 t) else none
  dGradientDot t name p v := if name = "target" then some [-2 * v 0] else none

/-- A solver with two error functions, each of which gives the derivative of its own error, of which the second is a union of weight
two: the gradient of the solver is not the derivative of its error. -/
theorem C80_shared_wrong : ∃ (U : UnionError ℝ) (f : AddingFunction) (p : Nat → ℝ) (G : ℝ × (Nat → ℝ)),
    UnionError.make exUnionOps 2 [0] = some U ∧ (U.toErrorFunction exUnionOps).GradientIsDerivative p 0 ∧
    (∃ g, f.Gives p g ∧ HasDerivAt (fun u => f.getError (Function.update p 0 u)) (g 0) (p 0)) ∧
    sharedGradient [f, U.toAdding exUnionOps] p = some G ∧
    ¬ HasDerivAt (fun u => sharedError [f, U.toAdding exUnionOps] (Function.update p 0 u)) (G.2 0) (p 0) := by
  have hsq : ∀ t x : ℝ, HasDerivAt (fun u : ℝ => (u - t) ^ 2) (2 * (x - t)) x := by
    intro t x
    have := ((hasDerivAt_id' x).sub_const t).pow 2
    refine this.congr_deriv ?_
    push_cast
    ring
  have hfs : ∀ q : Nat → ℝ, sharedError [exUnionSquare 1, (⟨2, [0], [("target", [0])]⟩ : UnionError ℝ).toAdding exUnionOps] q =
      (q 0 - 1) ^ 2 + 2 * (q 0 - 0) ^ 2 := by
    intro q
    simp [sharedError, exUnionSquare, UnionError.toAdding, UnionError.getError, exUnionOps]
  refine ⟨⟨2, [0], [("target", [0])]⟩, exUnionSquare 1, fun _ => 0, (1 + 2 * 0, fun i => if i = 0 then -4 else 0), ?_, ?_, ?_, ?_, ?_⟩
  · simp [UnionError.make, indexMember, exUnionOps, pushIndex]
  · refine C80_gradient exUnionOps 2 [0] _ (by simp [UnionError.make, indexMember, exUnionOps, pushIndex]) _ ?_ ?_ 0 ?_
    · intro e _ g
      simp [exUnionOps]
    · intro e _
      simp [exUnionOps]
    · intro e _
      refine ⟨rfl, ?_⟩
      simpa [MemberOps.toErrorFunction, exUnionOps] using hsq e 0
  · refine ⟨fun i => if i = 0 then 2 * (0 - 1) else 0, fun g0 => rfl, ?_⟩
    simpa [exUnionSquare] using hsq 1 0
  · unfold sharedGradient
    rw [List.filter_eq_self.2 (by simp [exUnionSquare, UnionError.toAdding])]
    simp [exUnionSquare, UnionError.toAdding, UnionError.addGradient, UnionError.gradStep, exUnionOps]
    funext i
    split_ifs <;> norm_num
  · intro h
    have h2 := (hsq 1 0).add ((hsq 0 0).const_mul 2)
    have h3 : (fun u => sharedError [exUnionSquare 1, (⟨2, [0], [("target", [0])]⟩ : UnionError ℝ).toAdding exUnionOps]
        (Function.update (fun _ => 0) 0 u)) = fun u => (u - 1) ^ 2 + 2 * (u - 0) ^ 2 := by
      funext u
      rw [hfs]
      simp
    rw [h3] at h
    have := h.unique h2
    norm_num at this

/-- The hypotheses of `C80_shared_partial`, `C80_jacobian` and `C80_derivative` are met by two members and a union that comes second. -/
example : ∃ U : UnionError ℝ, UnionError.make exUnionOps 2 [3, 5] = some U ∧ (∀ e p, exUnionOps.Adds e p) ∧
    (∀ e ∈ [(3 : ℝ), 5], ∀ p, (exUnionOps.toErrorFunction e).JacobianIsDerivative p 0) ∧
    (∃ gU, U.addGradient exUnionOps (fun _ => 1) (fun _ => 0) = some (U.getError exUnionOps fun _ => 1, gU)) ∧
    (exUnionSquare 1).Gives (fun _ => 1) fun i => if i = 0 then 2 * (1 - 1) else 0 := by
  refine ⟨⟨2, [3, 5], [("target", [0, 1])]⟩, by simp [UnionError.make, indexMember, exUnionOps, pushIndex], fun e p g => by
    simp [exUnionOps], fun e _ p => ⟨rfl, le_refl _, fun _ => rfl, fun u => by simp [MemberOps.toErrorFunction, exUnionOps],
      fun t _ => ?_⟩, ?_, fun g0 => rfl⟩
  · simpa [MemberOps.toErrorFunction, exUnionOps] using (hasDerivAt_id' (p 0)).sub_const e
  · refine ⟨fun i => (0 + (if i = 0 then 2 * (1 - 3) else 0) + (if i = 0 then 2 * (1 - 5) else 0)) * 2, ?_⟩
    simp [UnionError.addGradient, UnionError.getError, UnionError.gradStep, exUnionOps]

end Momentum
