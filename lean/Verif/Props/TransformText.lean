import Verif.Lemmas.TransformText5

/-!
# C85: a text of parameter definitions means what it says

`Text read sk defs text` (Spec/TransformText.lean) says how definitions are written.
-/

namespace Momentum.TransformText

section
variable {K : Type} [CommRing K] [DecidableEq K] {sk : Skeleton K} {read : List Char → Option K}

/-- The parser accepts every well-written text without self references.  The parameters are the names in the text in the order of
their first appearance, and for all values `v` of the parameters the joint parameters are the values computed by the definitions one
after another (`linearPart`) plus the constants (`constantPart`). -/
theorem C85_value {defs : List (Definition K)} {text : List Char} (h : Text read sk defs text) (hself : NoSelfReference defs) :
    ∃ pt, parseParameterTransform read text sk = some (.ok pt) ∧ pt.name = (parameterNames defs).map String.ofList ∧
      ∀ v : List Char → K, pt.apply ((parameterNames defs).map v) =
        some ((List.range (sk.joints.length * 7)).map fun r => linearPart v defs r + constantPart defs r) := by
  obtain ⟨s', e1, e2, e3, e4, e5, _⟩ := text_spec h hself (s := initialState sk) Inv.initial
  refine ⟨finish sk s', by simp only [parseParameterTransform, e1, thenStep], ?_, fun v => ?_⟩
  · change s'.names.map String.ofList = _
    rw [e5]
    rfl
  · have hn : parameterNames defs = s'.names := by rw [e5]; rfl
    rw [hn, apply_finish e2 v, e3 v, e4, lin_initial, off_initial]
    rfl

/-- Definitions that can be read as equations hold: for all values of the parameters every defined joint parameter is the sum on the
right side of its definition, where a reference stands for the value of the joint parameter it names, and all other joint parameters
are zero.  The conditions in `Equational` are needed: see the counterexamples below. -/
theorem C85_equation_partial {defs : List (Definition K)} {text : List Char} (h : Text read sk defs text) (heq : Equational defs) :
    ∃ pt, parseParameterTransform read text sk = some (.ok pt) ∧ pt.name = (parameterNames defs).map String.ofList ∧
      ∀ v : List Char → K, ∃ y : Nat → K,
        pt.apply ((parameterNames defs).map v) = some ((List.range (sk.joints.length * 7)).map y) ∧
        (∀ d ∈ defs, y d.target = (d.terms.map (Term.value v y)).sum) ∧
        ∀ r, (∀ d ∈ defs, d.target ≠ r) → y r = 0 := by
  obtain ⟨pt, e1, e2, e3⟩ := C85_value h heq.noSelf
  exact ⟨pt, e1, e2, fun v => ⟨_, e3 v, fun d hd => equation_holds v heq hd, fun r hr => undefined_zero v hr⟩⟩

/-- No name appears twice and every value of the parameters can be given by name. -/
theorem C85_names (defs : List (Definition K)) : (parameterNames defs).Nodup ∧
    (∀ n, n ∈ parameterNames defs ↔ ∃ d ∈ defs, ∃ w, Term.param w n ∈ d.terms) ∧
    ∀ p : List K, p.length = (parameterNames defs).length → ∃ v : List Char → K, p = (parameterNames defs).map v := by
  have hnd : (parameterNames defs).Nodup := addName_nodup (by simp) _
  refine ⟨hnd, fun n => ?_, fun p hp => ?_⟩
  · unfold parameterNames
    rw [mem_addName]
    simp only [List.not_mem_nil, false_or, List.mem_flatMap, List.mem_filterMap]
    constructor
    · rintro ⟨d, hd, t, ht, e⟩
      cases t with
      | const c => simp [Term.name?] at e
      | ref w j a => simp [Term.name?] at e
      | param w m => exact ⟨d, hd, w, by simp only [Term.name?, Option.some.injEq] at e; rw [← e]; exact ht⟩
    · rintro ⟨d, hd, w, ht⟩
      exact ⟨d, hd, _, ht, rfl⟩
  · refine ⟨fun n => p.getD ((parameterNames defs).idxOf n) 0, ?_⟩
    refine List.ext_getElem (by simpa using hp) ?_
    intro i h1 h2
    have hi : i < (parameterNames defs).length := by simpa using h2
    rw [List.getElem_map, hnd.idxOf_getElem i hi]
    simp [List.getD_eq_getElem?_getD, List.getElem?_eq_getElem h1]

/-- The active joint parameters are the defined ones, and the matrix has a row for every joint parameter and a column for every name. -/
theorem C85_active {defs : List (Definition K)} {text : List Char} (h : Text read sk defs text) (hself : NoSelfReference defs) :
    ∃ pt, parseParameterTransform read text sk = some (.ok pt) ∧ pt.transform.rows = sk.joints.length * 7 ∧
      pt.transform.cols = (parameterNames defs).length ∧ pt.activeJointParams.length = sk.joints.length * 7 ∧
      ∀ r < sk.joints.length * 7, pt.activeJointParams[r]? = some (decide (∃ d ∈ defs, d.target = r)) := by
  obtain ⟨s', e1, e2, _, _, e5, e6⟩ := text_spec h hself (s := initialState sk) Inv.initial
  refine ⟨finish sk s', by simp only [parseParameterTransform, e1, thenStep], rfl, ?_, e2.active, fun r hr => ?_⟩
  · change s'.names.length = _
    rw [e5]
    rfl
  · change s'.active[r]? = _
    rw [e6]
    have := activeAfter_getElem? defs (initialState sk).active r (by simpa [initialState] using hr)
    rw [this]
    simp [initialState]

/-- A definition that refers to its own joint parameter after a weighted parameter is never finished: the parser does not return. -/
theorem C85_self_reference {pre : List (Definition K)} {text line rest : List Char} {j a : Nat} {ts1 ts2 : List (Term K)} {w w' : K}
    {n : List Char} (hpre : Text read sk pre text) (hself : NoSelfReference pre)
    (hline : DefinitionText read sk ⟨j, a, ts1 ++ .ref w j a :: ts2⟩ line) (hparam : Term.param w' n ∈ ts1)
    (hne : ∀ u i b, Term.ref u i b ∈ ts1 → 7 * i + b ≠ 7 * j + a) :
    parseParameterTransform read (text ++ (line ++ '\n' :: rest)) sk = none := by
  refine (parse_stops hpre hself hline.no_newline rest (Or.inl rfl) ?_).1 rfl
  intro s hs
  cases hline with
  | @intro j a ts b1 joint b2 b3 channel b4 sum comment h1 h2 h3 h4 hc hsum hother hcom =>
    rw [defineLine_text h1 h2 h3 h4 hc hsum hother hcom]
    have hj := hc.2.2.1.spec.2
    have ha := hc.2.2.2.spec.1
    refine sum_forever hj ha hsum (fun u i b hm => ?_) ⟨hs.cols, hs.names, hs.offsets, by simpa using hs.active⟩ (Or.inr ⟨w', n, hparam⟩)
    rw [Nat.mul_comm j 7]
    exact hne u i b hm

/-- A definition of a joint that does not exist is an exception, whatever comes after it. -/
theorem C85_unknown_joint {pre : List (Definition K)} {text rest b1 joint b2 right : List Char} (hpre : Text read sk pre text)
    (hself : NoSelfReference pre) (h1 : Blank b1) (h2 : Blank b2) (hw : Word joint) (hd : '.' ∉ joint) (hj : NoJoint sk joint)
    {channel sum : List Char} (hright : right = channel ++ '=' :: sum) (hch : Plain channel ∧ channel ≠ [] ∧ '.' ∉ channel)
    (hsum : Plain sum ∧ sum ≠ []) (hother : ¬ StartsOther (b1 ++ joint ++ b2 ++ '.' :: right)) :
    parseParameterTransform read (text ++ (b1 ++ joint ++ b2 ++ '.' :: right ++ '\n' :: rest)) sk = some .throws := by
  subst hright
  have hl : Plain (b1 ++ joint ++ b2 ++ '.' :: channel) :=
    ((h1.plain.append hw.plain).append h2.plain).append (Plain.cons (by decide) hch.1)
  have e0 : b1 ++ joint ++ b2 ++ '.' :: (channel ++ '=' :: sum) = (b1 ++ joint ++ b2 ++ '.' :: channel) ++ '=' :: sum := by simp
  refine (parse_stops hpre hself ?_ rest (Or.inr rfl) ?_).2 rfl
  · rw [e0]
    intro hm
    rcases List.mem_append.mp hm with hm | hm
    · exact (hl _ hm).2.2 rfl
    · rcases List.mem_cons.mp hm with e | hm
      · exact absurd e (by decide)
      · exact (hsum.1 _ hm).2.2 rfl
  · intro s hs
    rw [e0] at hother ⊢
    rw [defineLine_nocomment hl (by simp) hsum.1 hsum.2 hother]
    have hb1 := h1.no '.' (by decide)
    have hb2 := h2.no '.' (by decide)
    have hnd : ∀ {s : List Char}, '.' ∉ s → ∀ c ∈ s, decide (c = '.') = false := by
      intro s hs c hc
      simp only [decide_eq_false_iff_not]
      intro e
      exact hs (e ▸ hc)
    have htok : tokenize (· = '.') (b1 ++ joint ++ b2 ++ '.' :: channel) = [b1 ++ joint ++ b2, channel] := by
      rw [tokenize_cons _ _ (hnd (by simp [hb1, hb2, hd])) (by simp) (by simp [hw.1]), tokenize_none _ (hnd hch.2.2) hch.2.1]
    simp only [assign, htok, Word.trimmed h1 hw h2, NoJoint.spec.mpr hj]

/-- A weight times the name of a joint is an exception: model parameters cannot have the name of a joint. -/
theorem C85_joint_name {pre : List (Definition K)} {text rest : List Char} {j a i : Nat} {b1 joint b2 b3 channel b4 s name : List Char}
    {w : K} (hpre : Text read sk pre text) (hself : NoSelfReference pre) (h1 : Blank b1) (h2 : Blank b2) (h3 : Blank b3) (h4 : Blank b4)
    (hc : NamesChannel sk j a joint channel) (hn : Numeral read s w) (hw : Word name)
    (hi : IsJoint sk i name) (hdot : '.' ∉ name) (hch : ∀ c, ¬ IsChannel c name)
    (hother : ¬ StartsOther (b1 ++ joint ++ b2 ++ '.' :: (b3 ++ channel ++ b4 ++ '=' :: (s ++ '*' :: name)))) :
    parseParameterTransform read
      (text ++ (b1 ++ joint ++ b2 ++ '.' :: (b3 ++ channel ++ b4 ++ '=' :: (s ++ '*' :: name)) ++ '\n' :: rest)) sk = some .throws := by
  have hall : name.takeWhile (· ≠ '.') = name := by
    have := List.takeWhile_append_of_pos (p := fun x => decide (x ≠ '.')) (l₁ := name) (l₂ := []) (fun x hx => by
      simp only [decide_eq_true_eq]
      intro e
      exact hdot (e ▸ hx))
    simpa using this
  have href : refAttribute name = none := by
    rw [refAttribute, if_neg hdot]
    cases hx : attributeOf name with
    | none => rfl
    | some c => exact absurd (isChannel_of_attributeOf hx) (hch c)
  have hl := plain_left h1 h2 h3 h4 hc
  have hsum : Plain (s ++ '*' :: name) := hn.plain.append (Plain.cons (by decide) hw.plain)
  have e0 : b1 ++ joint ++ b2 ++ '.' :: (b3 ++ channel ++ b4 ++ '=' :: (s ++ '*' :: name))
      = (b1 ++ joint ++ b2 ++ '.' :: (b3 ++ channel ++ b4)) ++ '=' :: (s ++ '*' :: name) := by simp
  refine (parse_stops hpre hself ?_ rest (Or.inr rfl) ?_).2 rfl
  · rw [e0]
    intro hm
    rcases List.mem_append.mp hm with hm | hm
    · exact (hl _ hm).2.2 rfl
    · rcases List.mem_cons.mp hm with e | hm
      · exact absurd e (by decide)
      · exact (hsum _ hm).2.2 rfl
  · intro st hs
    rw [e0] at hother ⊢
    rw [defineLine_nocomment hl (by simp) hsum (by simp) hother]
    simp only [assign, left_spec h1 h2 h3 h4 hc, Word.trimmed h1 hc.1 h2, IsChannel.trimmed h3 hc.2.2.2 h4, hc.2.2.1.spec.1,
      hc.2.2.2.spec.2.1]
    have hplus : tokenize (· = '+') (s ++ '*' :: name) = [s ++ '*' :: name] := by
      refine tokenize_none _ (fun c hm => ?_) (by simp)
      simp only [decide_eq_false_iff_not]
      rintro rfl
      rcases List.mem_append.mp hm with hm | hm
      · exact (hn.2.1 _ hm).2.1 rfl
      · rcases List.mem_cons.mp hm with e | hm
        · exact absurd e (by decide)
        · exact (hw.2.1 _ hm).2.1 rfl
    have hstar := tokenize_weighted (fun c hc => (hn.2.1 c hc).2.2.1) (fun hm => (hw.2.1 _ hm).2.2.1 rfl) hn.1 hw.1
    have htrim : trim name = name := by simpa using trim_exact (a := []) (b := []) (by intro c h; simp at h) (by intro c h; simp at h) hw.2.2 hw.1
    have hf : st.names.findIdx? (· = name) = none := by
      rw [List.findIdx?_eq_none_iff]
      intro x hx
      simp only [decide_eq_false_iff_not]
      intro e
      have := hs.names x hx
      rw [e, hall] at this
      exact hi.not this
    rw [hplus]
    simp only [runSteps, addTerm, hstar, hn.2.2, htrim, addWeighted, hf, hall, hi.spec.1, href, thenStep]

/-- A summand with two `*`, as in `1*p - 2*q`, is passed over in silence: the values are those of the definitions before it. -/
theorem C85_product_ignored {pre : List (Definition K)} {text : List Char} {j a : Nat} {b1 joint b2 b3 channel b4 A B C : List Char}
    (hpre : Text read sk pre text) (hself : NoSelfReference pre) (h1 : Blank b1) (h2 : Blank b2) (h3 : Blank b3) (h4 : Blank b4)
    (hc : NamesChannel sk j a joint channel) (hA : Plain A ∧ A ≠ [] ∧ '*' ∉ A ∧ '+' ∉ A) (hB : Plain B ∧ B ≠ [] ∧ '*' ∉ B ∧ '+' ∉ B)
    (hC : Plain C ∧ C ≠ [] ∧ '*' ∉ C ∧ '+' ∉ C)
    (hother : ¬ StartsOther (b1 ++ joint ++ b2 ++ '.' :: (b3 ++ channel ++ b4 ++ '=' :: (A ++ '*' :: (B ++ '*' :: C))))) :
    ∃ pt, parseParameterTransform read
        (text ++ (b1 ++ joint ++ b2 ++ '.' :: (b3 ++ channel ++ b4 ++ '=' :: (A ++ '*' :: (B ++ '*' :: C))) ++ ['\n'])) sk = some (.ok pt) ∧
      pt.name = (parameterNames pre).map String.ofList ∧
      ∀ v : List Char → K, pt.apply ((parameterNames pre).map v) =
        some ((List.range (sk.joints.length * 7)).map fun r => linearPart v pre r + constantPart pre r) := by
  have hl := plain_left h1 h2 h3 h4 hc
  have hsum : Plain (A ++ '*' :: (B ++ '*' :: C)) := hA.1.append (Plain.cons (by decide) (hB.1.append (Plain.cons (by decide) hC.1)))
  have e0 : b1 ++ joint ++ b2 ++ '.' :: (b3 ++ channel ++ b4 ++ '=' :: (A ++ '*' :: (B ++ '*' :: C)))
      = (b1 ++ joint ++ b2 ++ '.' :: (b3 ++ channel ++ b4)) ++ '=' :: (A ++ '*' :: (B ++ '*' :: C)) := by simp
  have hno : ∀ {s : List Char} {x : Char}, x ∉ s → ∀ c ∈ s, decide (c = x) = false := by
    intro s x hs c hc
    simp only [decide_eq_false_iff_not]
    intro e
    exact hs (e ▸ hc)
  have hplus : tokenize (· = '+') (A ++ '*' :: (B ++ '*' :: C)) = [A ++ '*' :: (B ++ '*' :: C)] := by
    refine tokenize_none _ (hno ?_) (by simp)
    simp [hA.2.2.2, hB.2.2.2, hC.2.2.2]
  have hstar : tokenize (· = '*') (A ++ '*' :: (B ++ '*' :: C)) = [A, B, C] := by
    rw [tokenize_cons _ _ (hno hA.2.2.1) (by simp) hA.2.1, tokenize_cons _ _ (hno hB.2.2.1) (by simp) hB.2.1,
      tokenize_none _ (hno hC.2.2.1) hC.2.1]
  have hline : '\n' ∉ (b1 ++ joint ++ b2 ++ '.' :: (b3 ++ channel ++ b4)) ++ '=' :: (A ++ '*' :: (B ++ '*' :: C)) := by
    intro hm
    rcases List.mem_append.mp hm with hm | hm
    · exact (hl _ hm).2.2 rfl
    · rcases List.mem_cons.mp hm with e | hm
      · exact absurd e (by decide)
      · exact (hsum _ hm).2.2 rfl
  obtain ⟨s', e1, e2, e3, e4, e5, _⟩ := text_spec hpre hself (s := initialState sk) Inv.initial
  rw [e0] at hother ⊢
  have hrun : runSteps (defineLine read sk) (initialState sk)
      (LimitsText.getLines (text ++ ((b1 ++ joint ++ b2 ++ '.' :: (b3 ++ channel ++ b4)) ++ '=' :: (A ++ '*' :: (B ++ '*' :: C)) ++ ['\n']))) =
      some (.ok { s' with active := s'.active.set (j * 7 + a) true }) := by
    rw [text_lines hpre, runSteps_append, e1, LimitsText.getLines_cons hline]
    simp only [thenStep, runSteps, LimitsText.getLines]
    rw [defineLine_nocomment hl (by simp) hsum (by simp) hother]
    simp only [assign, left_spec h1 h2 h3 h4 hc, Word.trimmed h1 hc.1 h2, IsChannel.trimmed h3 hc.2.2.2 h4, hc.2.2.1.spec.1,
      hc.2.2.2.spec.2.1, hplus, runSteps, addTerm, hstar, thenStep]
  refine ⟨finish sk { s' with active := s'.active.set (j * 7 + a) true }, by simp only [parseParameterTransform, hrun, thenStep], ?_,
    fun v => ?_⟩
  · change s'.names.map String.ofList = _
    rw [e5]
    rfl
  · have hn : parameterNames pre = s'.names := by rw [e5]; rfl
    have := apply_finish (s := { s' with active := s'.active.set (j * 7 + a) true })
      ⟨e2.cols, e2.names, e2.offsets, by simpa using e2.active⟩ v
    rw [hn]
    refine this.trans ?_
    have q1 : lin { s' with active := s'.active.set (j * 7 + a) true } v = lin s' v := rfl
    have q2 : off { s' with active := s'.active.set (j * 7 + a) true } = off s' := rfl
    rw [q1, q2, e3 v, e4, lin_initial, off_initial]
    rfl

/-- A reference leaves out the constant of the joint parameter it names: after `A = w*n + c` and `B = u*A` the value of `B` is `u*(w*n)`
and not `u*(w*n + c)`. -/
theorem C85_reference_counterexample {text : List Char} {j a j' a' : Nat} {w c u : K} {n : List Char} (hne : 7 * j + a ≠ 7 * j' + a')
    (h : Text read sk [⟨j, a, [.param w n, .const c]⟩, ⟨j', a', [.ref u j a]⟩] text) (hc : u * c ≠ 0) :
    ∃ pt, parseParameterTransform read text sk = some (.ok pt) ∧ pt.name = [String.ofList n] ∧ ∀ x : K, ∃ y : Nat → K,
      pt.apply [x] = some ((List.range (sk.joints.length * 7)).map y) ∧ y (7 * j + a) = w * x + c ∧ y (7 * j' + a') = u * (w * x) ∧
      y (7 * j' + a') ≠ u * y (7 * j + a) := by
  obtain ⟨pt, e1, e2, e3⟩ := C85_value h (by
    intro d hd u' i b hm
    simp only [List.mem_cons, List.not_mem_nil, or_false] at hd
    rcases hd with rfl | rfl
    · simp at hm
    · simp only [List.mem_cons, List.not_mem_nil, or_false, Term.ref.injEq] at hm
      obtain ⟨-, rfl, rfl⟩ := hm
      exact hne)
  rw [show parameterNames _ = [n] from rfl] at e2 e3
  refine ⟨pt, e1, e2, fun x => ⟨_, e3 fun _ => x, ?_, ?_, ?_⟩⟩
  · simp [linearPart, constantPart, Definition.run, Definition.constants, Term.run, Term.constant, Definition.target, hne]
  · simp [linearPart, constantPart, Definition.run, Definition.constants, Term.run, Term.constant, Definition.target, hne.symm]
  · simp only [linearPart, constantPart, Definition.run, Definition.constants, Term.run, Term.constant, Definition.target, List.foldl_cons,
      List.foldl_nil, Function.update_self, Function.update_of_ne hne, Function.update_of_ne hne.symm]
    intro e
    apply hc
    linear_combination -e

/-- A reference to a joint parameter that is defined later gives zero: after `B = u*A` and `A = w*n` the value of `B` is zero. -/
theorem C85_order_counterexample {text : List Char} {j a j' a' : Nat} {w u : K} {n : List Char} (hne : 7 * j + a ≠ 7 * j' + a')
    (h : Text read sk [⟨j', a', [.ref u j a]⟩, ⟨j, a, [.param w n]⟩] text) :
    ∃ pt, parseParameterTransform read text sk = some (.ok pt) ∧ pt.name = [String.ofList n] ∧ ∀ x : K, ∃ y : Nat → K,
      pt.apply [x] = some ((List.range (sk.joints.length * 7)).map y) ∧ y (7 * j + a) = w * x ∧ y (7 * j' + a') = 0 := by
  obtain ⟨pt, e1, e2, e3⟩ := C85_value h (by
    intro d hd u' i b hm
    simp only [List.mem_cons, List.not_mem_nil, or_false] at hd
    rcases hd with rfl | rfl
    · simp only [List.mem_cons, List.not_mem_nil, or_false, Term.ref.injEq] at hm
      obtain ⟨-, rfl, rfl⟩ := hm
      exact hne
    · simp at hm)
  rw [show parameterNames _ = [n] from rfl] at e2 e3
  refine ⟨pt, e1, e2, fun x => ⟨_, e3 fun _ => x, ?_, ?_⟩⟩
  · simp [linearPart, constantPart, Definition.run, Definition.constants, Term.run, Term.constant, Definition.target, hne]
  · simp [linearPart, constantPart, Definition.run, Definition.constants, Term.run, Term.constant, Definition.target, hne.symm]

/-- Of several constants only the last counts: after `A = c + c'` the value of `A` is `c'`. -/
theorem C85_constants_counterexample {text : List Char} {j a : Nat} {c c' : K} (h : Text read sk [⟨j, a, [.const c, .const c']⟩] text) :
    ∃ pt, parseParameterTransform read text sk = some (.ok pt) ∧ pt.name = [] ∧ ∃ y : Nat → K,
      pt.apply [] = some ((List.range (sk.joints.length * 7)).map y) ∧ y (7 * j + a) = c' := by
  obtain ⟨pt, e1, e2, e3⟩ := C85_value h (by
    intro d hd u' i b hm
    simp only [List.mem_cons, List.not_mem_nil, or_false] at hd
    subst hd
    simp at hm)
  rw [show parameterNames _ = [] from rfl] at e2 e3
  refine ⟨pt, e1, e2, ⟨_, e3 fun _ => 0, ?_⟩⟩
  simp [linearPart, constantPart, Definition.run, Definition.constants, Term.run, Term.constant, Definition.target]

end
end Momentum.TransformText
