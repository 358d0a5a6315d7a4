import Verif.Spec.UnionError

/-!
# Lemmas for C80: the index of the union, and its loops as recursions over the members
-/

namespace Momentum
open Finset
variable {μ P : Type} {ops : MemberOps μ P}

theorem lookup_push (name n : String) (i : Nat) (m : List (String × List Nat)) :
    (pushIndex n i m).lookup name = if n = name then some ((m.lookup name).getD [] ++ [i]) else m.lookup name := by
  induction m with
  | nil =>
    by_cases h : n = name
    · simp [pushIndex, List.lookup, h]
    · have : (name == n) = false := by simpa using fun e => h e.symm
      simp [pushIndex, List.lookup, h, this]
  | cons a r ih =>
    obtain ⟨b, is⟩ := a
    unfold pushIndex
    by_cases hb : b = n
    · subst hb
      rw [if_pos rfl]
      by_cases h : b = name
      · subst h; simp [List.lookup]
      · have : (name == b) = false := by simpa using fun e => h e.symm
        simp [List.lookup, h, this]
    · rw [if_neg hb]
      by_cases h : b = name
      · subst h
        have hn : ¬ n = b := fun e => hb e.symm
        simp [List.lookup, hn]
      · have : (name == b) = false := by simpa using fun e => h e.symm
        simp only [List.lookup, this]
        exact ih

theorem mem_push (name n : String) (i : Nat) (m : List (String × List Nat)) :
    name ∈ (pushIndex n i m).map (·.1) ↔ name = n ∨ name ∈ m.map (·.1) := by
  induction m with
  | nil => simp [pushIndex]
  | cons a r ih =>
    obtain ⟨b, is⟩ := a
    unfold pushIndex
    by_cases hb : b = n
    · subst hb; simp
    · rw [if_neg hb, List.map_cons, List.mem_cons, ih, List.map_cons, List.mem_cons]
      tauto

theorem nodup_push (n : String) (i : Nat) (m : List (String × List Nat)) (h : (m.map (·.1)).Nodup) :
    ((pushIndex n i m).map (·.1)).Nodup := by
  induction m with
  | nil => simp [pushIndex]
  | cons a r ih =>
    obtain ⟨b, is⟩ := a
    unfold pushIndex
    rw [List.map_cons, List.nodup_cons] at h
    by_cases hb : b = n
    · subst hb; simpa using h
    · rw [if_neg hb, List.map_cons, List.nodup_cons, mem_push]
      exact ⟨fun e => e.elim hb h.1, ih h.2⟩

theorem lookup_names (name : String) (i : Nat) (ns : List String) (hn : ns.Nodup) : ∀ m : List (String × List Nat),
    (ns.foldl (fun m n => pushIndex n i m) m).lookup name =
      if name ∈ ns then some ((m.lookup name).getD [] ++ [i]) else m.lookup name := by
  induction ns with
  | nil => intro m; simp
  | cons a r ih =>
    intro m
    rw [List.nodup_cons] at hn
    rw [List.foldl_cons, ih hn.2, lookup_push]
    by_cases ha : a = name
    · subst ha
      simp [hn.1]
    · have : ¬ name = a := fun e => ha e.symm
      simp [ha, this]

theorem mem_names (name : String) (i : Nat) (ns : List String) : ∀ m : List (String × List Nat),
    name ∈ (ns.foldl (fun m n => pushIndex n i m) m).map (·.1) ↔ name ∈ ns ∨ name ∈ m.map (·.1) := by
  induction ns with
  | nil => intro m; simp
  | cons a r ih => intro m; rw [List.foldl_cons, ih, mem_push, List.mem_cons]; tauto

theorem nodup_names (i : Nat) (ns : List String) : ∀ m : List (String × List Nat), (m.map (·.1)).Nodup →
    ((ns.foldl (fun m n => pushIndex n i m) m).map (·.1)).Nodup := by
  induction ns with
  | nil => intro m h; exact h
  | cons a r ih => intro m h; rw [List.foldl_cons]; exact ih _ (nodup_push _ _ _ h)

/-- The positions of the members that have the input, counted from `k`. -/
def idsFrom (ops : MemberOps μ P) (name : String) : Nat → List μ → List Nat
  | _, [] => []
  | k, e :: r => if ops.Has name e then k :: idsFrom ops name (k + 1) r else idsFrom ops name (k + 1) r

theorem lookup_index (name : String) (fs : List μ) (hn : ∀ e ∈ fs, ((ops.inputs e).getD []).Nodup) :
    ∀ (k : Nat) (m : List (String × List Nat)),
    ((fs.zipIdx k).foldl (indexMember ops) m).lookup name =
      if idsFrom ops name k fs = [] then m.lookup name else some ((m.lookup name).getD [] ++ idsFrom ops name k fs) := by
  induction fs with
  | nil => intro k m; simp [idsFrom]
  | cons e r ih =>
    intro k m
    rw [List.zipIdx_cons, List.foldl_cons, ih (fun e' he => hn e' (List.mem_cons_of_mem _ he))]
    unfold indexMember
    rw [lookup_names name k _ (hn e (by simp))]
    have hids : idsFrom ops name k (e :: r) = if name ∈ (ops.inputs e).getD [] then k :: idsFrom ops name (k + 1) r else
        idsFrom ops name (k + 1) r := rfl
    rw [hids]
    by_cases h : name ∈ (ops.inputs e).getD []
    · simp only [if_pos h]
      rw [if_neg (by simp : ¬ (k :: idsFrom ops name (k + 1) r = []))]
      split_ifs with h2 <;> simp [h2]
    · simp only [if_neg h]

theorem mem_index (name : String) (fs : List μ) : ∀ (k : Nat) (m : List (String × List Nat)),
    name ∈ ((fs.zipIdx k).foldl (indexMember ops) m).map (·.1) ↔ (∃ e ∈ fs, ops.Has name e) ∨ name ∈ m.map (·.1) := by
  induction fs with
  | nil => intro k m; simp
  | cons e r ih =>
    intro k m
    rw [List.zipIdx_cons, List.foldl_cons, ih]
    unfold indexMember
    rw [mem_names]
    constructor
    · rintro (⟨e', h1, h2⟩ | h | h)
      · exact Or.inl ⟨e', List.mem_cons_of_mem _ h1, h2⟩
      · exact Or.inl ⟨e, by simp, h⟩
      · exact Or.inr h
    · rintro (⟨e', h1, h2⟩ | h)
      · rcases List.mem_cons.1 h1 with rfl | h1
        · exact Or.inr (Or.inl h2)
        · exact Or.inl ⟨e', h1, h2⟩
      · exact Or.inr (Or.inr h)

theorem nodup_index (fs : List μ) : ∀ (k : Nat) (m : List (String × List Nat)), (m.map (·.1)).Nodup →
    (((fs.zipIdx k).foldl (indexMember ops) m).map (·.1)).Nodup := by
  induction fs with
  | nil => intro k m h; simpa using h
  | cons e r ih => intro k m h; rw [List.zipIdx_cons, List.foldl_cons]; exact ih _ _ (nodup_names _ _ _ h)

theorem idsFrom_eq_nil (name : String) (fs : List μ) : ∀ k, idsFrom ops name k fs = [] ↔ ∀ e ∈ fs, ¬ ops.Has name e := by
  induction fs with
  | nil => intro k; simp [idsFrom]
  | cons e r ih =>
    intro k
    unfold idsFrom
    by_cases h : ops.Has name e <;> simp [h, ih]

theorem loop_ids {S : Type} (name : String) (f : S → μ → Option S) (r : List μ) : ∀ (pre : List μ) (s : S),
    (idsFrom ops name pre.length r).foldlM (fun s i => (pre ++ r)[i]?.bind (f s)) s =
      (r.filter fun e => ops.Has name e).foldlM f s := by
  induction r with
  | nil => intro pre s; simp [idsFrom]
  | cons e r ih =>
    intro pre s
    have hp : pre ++ e :: r = (pre ++ [e]) ++ r := by simp
    have ih' := ih (pre ++ [e])
    rw [List.length_append, List.length_singleton] at ih'
    unfold idsFrom
    by_cases h : ops.Has name e
    · rw [if_pos h, List.filter_cons_of_pos (by simpa using h), List.foldlM_cons, List.foldlM_cons]
      have : (pre ++ e :: r)[pre.length]? = some e := by simp
      rw [this, Option.bind_some]
      cases hf : f s e with
      | none => rfl
      | some s' =>
        change List.foldlM _ s' _ = List.foldlM _ s' _
        rw [hp]
        exact ih' s'
    · rw [if_neg h, List.filter_cons_of_neg (by simpa using h), hp]
      exact ih' s

/-! ## The loops over members -/

/-- The value of an input. -/
def getAll (ops : MemberOps μ P) (name : String) : List μ → Option (List ℝ)
  | [] => some []
  | e :: r => if ops.Has name e then (ops.getInput e name).bind fun a => (getAll ops name r).map (a ++ ·) else getAll ops name r

/-- Its size. -/
def sizeAll (ops : MemberOps μ P) (name : String) : List μ → Option Nat
  | [] => some 0
  | e :: r => if ops.Has name e then (ops.getInputSize e name).bind fun a => (sizeAll ops name r).map (a + ·) else sizeAll ops name r

/-- The products of the derivatives. -/
def dotAll (ops : MemberOps μ P) (name : String) (p : P) (v : Nat → ℝ) : List μ → Option (List ℝ)
  | [] => some []
  | e :: r => if ops.Has name e then (ops.dGradientDot e name p v).bind fun a => (dotAll ops name p v r).map (a ++ ·)
      else dotAll ops name p v r

/-- Setting the input. -/
def setAll (ops : MemberOps μ P) (name : String) : List μ → List ℝ → Option (List μ)
  | [], _ => some []
  | e :: r, y =>
    if ops.Has name e then (ops.getInputSize e name).bind fun n => (ops.setInput e name (y.take n)).bind fun e' =>
      (setAll ops name r (y.drop n)).map (e' :: ·)
    else (setAll ops name r y).map (e :: ·)

/-- The gradient of all members, added to zero. -/
def gradAll (ops : MemberOps μ P) (p : P) : List μ → Option (ℝ × (Nat → ℝ))
  | [] => some (0, fun _ => 0)
  | e :: r => (ops.addGradient e p fun _ => 0).bind fun a => (gradAll ops p r).map fun b => (a.1 + b.1, fun i => a.2 i + b.2 i)

theorem fold_list (name : String) (q : μ → Option (List ℝ)) (A : List μ → Option (List ℝ)) (h0 : A [] = some [])
    (h1 : ∀ e r, A (e :: r) = if ops.Has name e then (q e).bind fun a => (A r).map (a ++ ·) else A r) (r : List μ) : ∀ l,
    (r.filter fun e => ops.Has name e).foldlM (fun l e => (q e).map (l ++ ·)) l = (A r).map (l ++ ·) := by
  induction r with
  | nil => intro l; simp [h0]
  | cons e r ih =>
    intro l
    rw [h1]
    by_cases h : ops.Has name e
    · rw [if_pos h, List.filter_cons_of_pos (by simpa using h), List.foldlM_cons]
      cases hq : q e with
      | none => rfl
      | some a =>
        change List.foldlM _ (l ++ a) _ = _
        rw [ih, Option.bind_some, Option.map_map]
        congr 1
        funext b
        simp
    · rw [if_neg h, List.filter_cons_of_neg (by simpa using h)]
      exact ih l

theorem fold_size (name : String) (r : List μ) : ∀ l,
    (r.filter fun e => ops.Has name e).foldlM (fun l e => (ops.getInputSize e name).map (l + ·)) l = (sizeAll ops name r).map (l + ·) := by
  induction r with
  | nil => intro l; simp [sizeAll]
  | cons e r ih =>
    intro l
    unfold sizeAll
    by_cases h : ops.Has name e
    · rw [if_pos h, List.filter_cons_of_pos (by simpa using h), List.foldlM_cons]
      cases hq : ops.getInputSize e name with
      | none => rfl
      | some a =>
        change List.foldlM _ (l + a) _ = _
        rw [ih, Option.bind_some, Option.map_map]
        congr 1
        funext b
        simp only [Function.comp]
        omega
    · rw [if_neg h, List.filter_cons_of_neg (by simpa using h)]
      exact ih l

theorem fold_set (name : String) (y : List ℝ) (r : List μ) : ∀ (pre : List μ) (off : Nat),
    ((idsFrom ops name pre.length r).foldlM (UnionError.setStep ops name y) (pre ++ r, off)).map (·.1) =
      (setAll ops name r (y.drop off)).map (pre ++ ·) := by
  induction r with
  | nil => intro pre off; simp [idsFrom, setAll]
  | cons e r ih =>
    intro pre off
    unfold idsFrom setAll
    by_cases h : ops.Has name e
    · rw [if_pos h, if_pos h, List.foldlM_cons]
      have he : (pre ++ e :: r)[pre.length]? = some e := by simp
      cases hs : ops.getInputSize e name with
      | none => simp [UnionError.setStep, hs]
      | some n =>
        cases ht : ops.setInput e name ((y.drop off).take n) with
        | none => simp [UnionError.setStep, hs, ht]
        | some e' =>
          have hstep : UnionError.setStep ops name y (pre ++ e :: r, off) pre.length = some ((pre ++ [e']) ++ r, off + n) := by
            simp [UnionError.setStep, hs, ht]
          rw [hstep]
          have := ih (pre ++ [e']) (off + n)
          rw [List.length_append, List.length_singleton] at this
          change Option.map _ (List.foldlM _ (pre ++ [e'] ++ r, off + n) _) = _
          rw [this, Option.bind_some, ht, Option.bind_some, Option.map_map, List.drop_drop]
          congr 1
          funext b
          simp
    · rw [if_neg h, if_neg h]
      have := ih (pre ++ [e]) off
      rw [List.length_append, List.length_singleton, List.append_assoc, List.singleton_append] at this
      rw [this, Option.map_map]
      congr 1
      funext b
      simp

theorem fold_grad (p : P) (r : List μ) (ha : ∀ e ∈ r, ops.Adds e p) : ∀ s : ℝ × (Nat → ℝ),
    r.foldlM (UnionError.gradStep ops p) s = (gradAll ops p r).map fun b => (s.1 + b.1, fun i => s.2 i + b.2 i) := by
  induction r with
  | nil => intro s; simp [gradAll]
  | cons e r ih =>
    intro s
    rw [List.foldlM_cons]
    unfold UnionError.gradStep gradAll
    rw [ha e (by simp) s.2]
    cases hq : ops.addGradient e p fun _ => 0 with
    | none => rfl
    | some a =>
      have := ih (fun e' he => ha e' (List.mem_cons_of_mem _ he)) (s.1 + a.1, fun i => s.2 i + a.2 i)
      change List.foldlM (UnionError.gradStep ops p) (s.1 + a.1, fun i => s.2 i + a.2 i) r = _
      rw [this, Option.bind_some, Option.map_map]
      congr 1
      funext b
      simp only [Function.comp, add_assoc]

/-! ## The union -/

namespace UnionError

/-- What the constructor gives, and what setting inputs keeps. -/
structure Made (ops : MemberOps μ P) (U : UnionError μ) : Prop where
  nodup : ∀ e ∈ U.errorFunctions, ((ops.inputs e).getD []).Nodup
  index : U.index = U.errorFunctions.zipIdx.foldl (indexMember ops) []

variable {U : UnionError μ}

theorem Made.mem_inputs (hU : Made ops U) (name : String) : name ∈ U.inputs ↔ ∃ e ∈ U.errorFunctions, ops.Has name e := by
  unfold inputs
  rw [hU.index, mem_index]
  simp

theorem Made.lookup (hU : Made ops U) (name : String) : U.index.lookup name =
    if name ∈ U.inputs then some (idsFrom ops name 0 U.errorFunctions) else none := by
  rw [hU.index, lookup_index name _ hU.nodup]
  by_cases h : idsFrom ops name 0 U.errorFunctions = []
  · rw [if_pos h, if_neg]
    · rfl
    · rw [idsFrom_eq_nil] at h
      rw [hU.mem_inputs]
      push Not
      exact h
  · rw [if_neg h, if_pos]
    · rfl
    · rw [idsFrom_eq_nil] at h
      rw [hU.mem_inputs]
      push Not at h
      exact h

theorem Made.nodup_inputs (hU : Made ops U) : U.inputs.Nodup := by
  unfold inputs
  rw [hU.index]
  exact nodup_index _ _ _ (by simp)

theorem Made.getInput_eq (hU : Made ops U) (name : String) : U.getInput ops name =
    if name ∈ U.inputs then getAll ops name U.errorFunctions else none := by
  unfold getInput
  rw [hU.lookup]
  split_ifs with h
  · have := loop_ids (ops := ops) name (fun l e => (ops.getInput e name).map (l ++ ·)) U.errorFunctions [] []
    simp only [List.length_nil, List.nil_append] at this
    rw [Option.bind_some, this, fold_list name _ (getAll ops name) rfl fun _ _ => rfl]
    simp
  · rfl

theorem Made.dot_eq (hU : Made ops U) (name : String) (p : P) (v : Nat → ℝ) : U.dGradientDot ops name p v =
    if name ∈ U.inputs then (dotAll ops name p v U.errorFunctions).map fun l => l.map (· * U.weight) else none := by
  unfold dGradientDot
  rw [hU.lookup]
  split_ifs with h
  · have := loop_ids (ops := ops) name (fun l e => (ops.dGradientDot e name p v).map (l ++ ·)) U.errorFunctions [] []
    simp only [List.length_nil, List.nil_append] at this
    rw [Option.bind_some, this, fold_list name _ (dotAll ops name p v) rfl fun _ _ => rfl]
    simp
  · rfl

theorem Made.size_eq (hU : Made ops U) (name : String) : U.getInputSize ops name =
    if name ∈ U.inputs then sizeAll ops name U.errorFunctions else none := by
  unfold getInputSize
  rw [hU.lookup]
  split_ifs with h
  · have := loop_ids (ops := ops) name (fun l e => (ops.getInputSize e name).map (l + ·)) U.errorFunctions [] 0
    simp only [List.length_nil, List.nil_append] at this
    rw [Option.bind_some, this, fold_size]
    simp
  · rfl

theorem Made.set_eq (hU : Made ops U) (name : String) (y : List ℝ) : U.setInput ops name y =
    if name ∈ U.inputs then (sizeAll ops name U.errorFunctions).bind fun n =>
      if y.length = n then (setAll ops name U.errorFunctions y).map fun fs => { U with errorFunctions := fs } else none
    else none := by
  unfold setInput
  rw [hU.size_eq]
  by_cases h : name ∈ U.inputs
  · rw [if_pos h, if_pos h]
    congr 1
    funext n
    split_ifs with hn
    · have := fold_set (ops := ops) name y U.errorFunctions [] 0
      simp only [List.length_nil, List.nil_append, List.drop_zero, Option.map_id'] at this
      rw [hU.lookup, if_pos h, Option.bind_some, ← this, Option.map_map]
      rfl
    · rfl
  · rw [if_neg h, if_neg h, Option.bind_none]

theorem addGradient_eq (p : P) (ha : ∀ e ∈ U.errorFunctions, ops.Adds e p) (g : Nat → ℝ) : U.addGradient ops p g =
    (gradAll ops p U.errorFunctions).map fun b => (U.weight * b.1, fun i => (g i + b.2 i) * U.weight) := by
  unfold addGradient
  rw [fold_grad p _ ha, Option.map_map]
  simp [Function.comp_def]

end UnionError

end Momentum
