import Verif.Lemmas.LimitsText2

/-! Reading back a whole written text of limits. -/

namespace Momentum.LimitsText

variable {F : NumFormat} {sk : Skeleton ℝ} {pt : ParameterTransform ℝ} {decompose : Mat3 ℝ → Mat3 ℝ × Mat3 ℝ} {tol : ℝ}

theorem getLines_cons {l rest : List Char} (h : '\n' ∉ l) : getLines (l ++ '\n' :: rest) = l :: getLines rest := by
  induction l with
  | nil => simp [getLines]
  | cons c l ih =>
    have hc : c ≠ '\n' := fun e => h (by simp [e])
    have := ih fun hm => h (List.mem_cons_of_mem _ hm)
    show (if c = '\n' then [] :: getLines (l ++ '\n' :: rest) else
      match getLines (l ++ '\n' :: rest) with
      | [] => [[c]]
      | l :: ls => (c :: l) :: ls) = _
    rw [if_neg hc, this]

theorem lineStep_acc (pl : List LimitRecord) (line : List Char) :
    lineStep F sk pt pl line = (lineStep F sk pt [] line).map fun r => pl ++ r := by
  unfold lineStep
  split
  · cases parseLimitLine F sk pt (withoutComment line) <;> simp
  · simp

theorem lines_acc (ls : List (List Char)) : ∀ pl : List LimitRecord,
    ls.foldlM (lineStep F sk pt) pl = (ls.foldlM (lineStep F sk pt) []).map fun r => pl ++ r := by
  induction ls with
  | nil => intro pl; simp
  | cons l ls ih =>
    intro pl
    simp only [List.foldlM_cons, Option.bind_eq_bind]
    rw [lineStep_acc]
    cases h : lineStep F sk pt [] l with
    | none => rfl
    | some r =>
      simp only [Option.map_some, Option.bind_some]
      rw [ih (pl ++ r), ih r, Option.map_map]
      congr 1
      funext x
      simp

theorem parse_cons {l rest : List Char} (h : '\n' ∉ l) :
    parseParameterLimits F (l ++ '\n' :: rest) sk pt =
      (lineStep F sk pt [] l).bind fun r => (parseParameterLimits F rest sk pt).map fun q => r ++ q := by
  unfold parseParameterLimits
  rw [getLines_cons h, List.foldlM_cons, Option.bind_eq_bind]
  congr 1
  funext r
  exact lines_acc _ r

theorem Clean.no_newline {l : List Char} (h : Clean l) : '\n' ∉ l := fun hm => (h _ hm).1 rfl

theorem Clean.withoutComment {l : List Char} (h : Clean l) : withoutComment l = l := by
  unfold LimitsText.withoutComment
  have := List.takeWhile_append_of_pos (p := fun x => decide (x ≠ '#')) (l₁ := l) (l₂ := []) (fun c hc => by simpa using (h c hc).2)
  simpa using this

/-- A written line is read by `parseLimitLine`. -/
theorem parse_limit_line {body rest : List Char} (h : Clean ("limit ".toList ++ body)) :
    parseParameterLimits F ("limit ".toList ++ body ++ '\n' :: rest) sk pt =
      (parseLimitLine F sk pt ("limit ".toList ++ body)).bind fun r =>
        (parseParameterLimits F rest sk pt).map fun q => r ++ q := by
  rw [parse_cons h.no_newline]
  unfold lineStep
  rw [h.withoutComment, if_pos]
  · cases parseLimitLine F sk pt ("limit ".toList ++ body) <;> rfl
  · rfl

/-- The record of a linear limit as a segment. -/
theorem linearRecord_mk (r g : Nat) (scale offset a b w : ℝ) :
    linearRecord r g w ⟨scale, offset, a, b⟩ = .plain ⟨.linear r g scale offset a b, w⟩ := rfl

theorem goesOn_none (o : Option OpenLinear) (r g : Nat) (m : ℝ)
    (h : ∀ x, o = some x → ¬ (r = x.reference ∧ g = x.target ∧ m = x.prevRangeMax)) : goesOn o r g m = none := by
  unfold goesOn
  cases o with
  | none => rfl
  | some x => rw [Option.filter_some, if_neg (by simpa using h x rfl)]

theorem goesOn_some (x : OpenLinear) {r g : Nat} {m : ℝ} (h : r = x.reference ∧ g = x.target ∧ m = x.prevRangeMax) :
    goesOn (some x) r g m = some x := by
  unfold goesOn
  rw [Option.filter_some, if_pos (by simpa using h)]

/-- A limit that does not go on with the open line closes it first. -/
theorem writeLoop_close (o : OpenLinear) (l : LimitRecord) (ls : List LimitRecord)
    (h : ∀ scale offset a b w, l = .plain ⟨.linear o.reference o.target scale offset a b, w⟩ → a ≠ o.prevRangeMax) :
    writeLoop F decompose tol sk pt (some o) (l :: ls) =
      (writeLoop F decompose tol sk pt none (l :: ls)).map fun rest => ' ' :: (F.print o.weight ++ '\n' :: rest) := by
  match l, h with
  | .plain ⟨.linear r g scale offset a b, w⟩, h =>
    have h1 : goesOn (some o) r g a = none := by
      refine goesOn_none _ _ _ _ ?_
      rintro x hx ⟨rfl, rfl, e⟩
      injection hx with hx
      subst hx
      exact h scale offset a b w rfl e
    have h2 : goesOn none r g a = none := rfl
    rw [writeLoop, writeLoop, h1, h2]
    cases parameterName pt r with
    | none => rfl
    | some x =>
      cases parameterName pt g with
      | none => rfl
      | some y =>
        simp only [Option.bind_some]
        split
        · rw [Option.map_map]
          congr 1
          funext rest
          simp [closeLinear]
        · rw [Option.map_map]
          congr 1
          funext rest
          simp [closeLinear]
  | .plain ⟨.minMax .., w⟩, _ | .plain ⟨.minMaxJoint .., w⟩, _ | .plain ⟨.minMaxJointPassive .., w⟩, _
  | .plain ⟨.halfPlane .., w⟩, _ | .plain ⟨.ellipsoid .., w⟩, _ | .ellipsoid _, _ =>
    unfold writeLoop
    generalize writeBody F decompose tol sk pt _ = wb
    cases wb with
    | none => rfl
    | some x =>
      simp only [Option.bind_some]
      rw [Option.map_map]
      congr 1
      funext rest
      simp [closeLinear]

/-- `PieceOk` of a limit that does not go on holds without the limit before. -/
theorem PieceOk.start {b : Option LimitRecord} {l : LimitRecord} (h : PieceOk b l)
    (hn : ∀ r g s' o' m' scale offset a c w', b = some (.plain ⟨.linear r g s' o' m' a, w'⟩) →
      ∀ w, l ≠ .plain ⟨.linear r g scale offset a c, w⟩) : PieceOk none l := by
  match l, h, hn with
  | .plain ⟨.linear r g scale offset a c, w⟩, h, hn =>
    rcases h with ⟨s', o', m', h1, -, -⟩ | ⟨h1, -⟩
    · exact absurd rfl (hn r g s' o' m' scale offset a c w h1 w)
    · exact Or.inr ⟨h1, by simp⟩
  | .plain ⟨.minMax .., w⟩, _, _ | .plain ⟨.minMaxJoint .., w⟩, _, _ | .plain ⟨.minMaxJointPassive .., w⟩, _, _
  | .plain ⟨.halfPlane .., w⟩, _, _ | .plain ⟨.ellipsoid .., w⟩, _, _ | .ellipsoid _, _, _ => trivial

/-- The rest of a line of a linear limit. -/
theorem writeLoop_open (r g : Nat) (w : ℝ) : ∀ (ls : List LimitRecord) (b : LinearSegment),
    PiecesOk (some (linearRecord r g w b)) ls → (∀ l ∈ ls, LimitRecord.Expressible F decompose tol sk pt l) →
    ∃ segs ls', ls = segs.map (linearRecord r g w) ++ ls' ∧ PiecesOk none ls' ∧ SegmentChain b segs ∧
      (∀ s ∈ segs, SegmentFaithful F s) ∧
      writeLoop F decompose tol sk pt (some ⟨r, g, w, b.rangeMax⟩) ls =
        (writeLoop F decompose tol sk pt none ls').map fun rest => segsText F segs ++ ' ' :: (F.print w ++ '\n' :: rest) := by
  intro ls
  induction ls with
  | nil =>
    intro b _ _
    refine ⟨[], [], rfl, trivial, trivial, by simp, ?_⟩
    simp [writeLoop, closeLinear, segsText]
  | cons l ls ih =>
    intro b hp he
    obtain ⟨hl, hp'⟩ := hp
    by_cases hg : ∃ scale offset c w', l = .plain ⟨.linear r g scale offset b.rangeMax c, w'⟩
    · obtain ⟨scale, offset, c, w', rfl⟩ := hg
      rcases hl with ⟨s', o', m', h1, h2, h3⟩ | ⟨-, h2⟩
      · have h1' := h1
        simp only [linearRecord, Option.some.injEq, LimitRecord.plain.injEq, ParameterLimit.mk.injEq, LimitData.linear.injEq] at h1'
        obtain ⟨⟨-, -, e1, e2, e3, -⟩, rfl⟩ := h1'
        obtain ⟨segs, ls', q1, q2, q3, q4, q5⟩ := ih ⟨scale, offset, b.rangeMax, c⟩ hp' fun x hx => he x (List.mem_cons_of_mem _ hx)
        obtain ⟨-, -, f1, f2, f3, -⟩ := he _ (by simp : LimitRecord.plain ⟨.linear r g scale offset b.rangeMax c, w⟩ ∈ _)
        refine ⟨⟨scale, offset, b.rangeMax, c⟩ :: segs, ls', ?_, q2, ⟨⟨rfl, h2, ?_⟩, q3⟩, ?_, ?_⟩
        · rw [q1]; rfl
        · simpa [LinearSegment.eval, e1, e2] using h3
        · intro s hs
          rcases List.mem_cons.mp hs with h | h
          · subst h; exact ⟨f1, f2, f3⟩
          · exact q4 s h
        · rw [writeLoop, goesOn_some _ ⟨rfl, rfl, rfl⟩]
          simp only
          rw [q5, Option.map_map]
          congr 1
          funext rest
          simp [segsText]
      · exact absurd rfl (h2 b.scale b.offset b.rangeMin w)
    · refine ⟨[], l :: ls, rfl, ⟨hl.start ?_, hp'⟩, trivial, by simp, ?_⟩
      · intro r' g' s' o' m' scale offset a c w' h1 w'' h2
        simp only [linearRecord, Option.some.injEq, LimitRecord.plain.injEq, ParameterLimit.mk.injEq, LimitData.linear.injEq] at h1
        obtain ⟨⟨rfl, rfl, -, -, -, rfl⟩, -⟩ := h1
        exact hg ⟨scale, offset, c, w'', h2⟩
      · rw [writeLoop_close]
        · simp [segsText]
        · rintro scale offset a c w' h1 h2
          simp only at h1 h2
          subst h2
          exact hg ⟨scale, offset, c, w', h1⟩

theorem PieceOk_none_of_notLinear {ls : List LimitRecord} {l : LimitRecord} (hl : ∀ r g s o a b w, l ≠ .plain ⟨.linear r g s o a b, w⟩)
    (h : PiecesOk (some l) ls) : PiecesOk none ls := by
  cases ls with
  | nil => trivial
  | cons x ls =>
    refine ⟨h.1.start ?_, h.2⟩
    intro r g s' o' m' scale offset a c w' h1 w
    injection h1 with h1
    exact absurd h1 (hl _ _ _ _ _ _ _)

/-- Written and read: the whole list. -/
theorem roundtrip (n : Nat) : ∀ ls : List LimitRecord, ls.length ≤ n → PiecesOk none ls →
    (∀ l ∈ ls, LimitRecord.Expressible F decompose tol sk pt l) →
    ∃ text, writeLoop F decompose tol sk pt none ls = some text ∧ parseParameterLimits F text sk pt = some ls := by
  induction n with
  | zero =>
    intro ls hn _ _
    have : ls = [] := List.length_eq_zero_iff.mp (by omega)
    subst this
    exact ⟨[], rfl, rfl⟩
  | succ n ih =>
    intro ls hn hp he
    cases ls with
    | nil => exact ⟨[], rfl, rfl⟩
    | cons l ls =>
      by_cases hl : ∃ r g s o a b w, l = .plain ⟨.linear r g s o a b, w⟩
      · obtain ⟨r, g, scale, offset, a, c, w, rfl⟩ := hl
        obtain ⟨hp1, hp2⟩ := hp
        have ha : a = -kFloatMax := by
          rcases hp1 with ⟨_, _, _, h, -⟩ | ⟨h, -⟩
          · exact absurd h (by simp)
          · exact h
        have hr := he _ (by simp : LimitRecord.plain ⟨.linear r g scale offset a c, w⟩ ∈ _)
        obtain ⟨f0, f00, f1, f2, f3, f4⟩ := hr
        obtain ⟨segs, ls', q1, q2, q3, q4, q5⟩ := writeLoop_open r g w ls ⟨scale, offset, a, c⟩ hp2 fun x hx =>
          he x (List.mem_cons_of_mem _ hx)
        obtain ⟨text, t1, t2⟩ := ih ls' (by rw [q1] at hn; simp at hn; omega) q2 fun x hx =>
          he x (List.mem_cons_of_mem _ (by rw [q1]; exact List.mem_append_right _ hx))
        obtain ⟨x, x1, x2, x3, -⟩ := f0.spec
        obtain ⟨y, y1, y2, y3, -⟩ := f00.spec
        have hz : ¬ (a = 0 ∧ c = 0) := by
          rintro ⟨h, -⟩
          have := kFloatMax_pos
          linarith
        have hsf : ∀ s ∈ (⟨scale, offset, a, c⟩ : LinearSegment) :: segs, SegmentFaithful F s := by
          intro s hs
          rcases List.mem_cons.mp hs with h | h
          · subst h; exact ⟨f1, f2, f3⟩
          · exact q4 s h
        refine ⟨_, by rw [writeLoop, show goesOn none r g a = none from rfl]; simp only [x1, y1, Option.bind_some]; rw [if_neg hz, q5, t1,
          Option.map_some, Option.map_some], ?_⟩
        have e : closeLinear F none ++ "limit ".toList ++ x ++ " linear ".toList ++ y ++ segmentText F scale offset c ++
            (segsText F segs ++ ' ' :: (F.print w ++ '\n' :: text)) =
            "limit ".toList ++ (x ++ " linear ".toList ++ y ++ segmentText F scale offset c ++
              (segsText F segs ++ ' ' :: F.print w)) ++ '\n' :: text := by
          simp [closeLinear]
        have e2 : "limit ".toList ++ (x ++ " linear ".toList ++ y ++ segmentText F scale offset c ++
              (segsText F segs ++ ' ' :: F.print w)) =
            "limit ".toList ++ x ++ " linear ".toList ++ y ++ segmentText F scale offset c ++
              (segsText F segs ++ ' ' :: F.print w) := by
          simp only [List.append_assoc]
        have hc : Clean ("limit ".toList ++ (x ++ " linear ".toList ++ y ++ segmentText F scale offset c ++
              (segsText F segs ++ ' ' :: F.print w))) := by
          refine Clean.append (by decide) (Clean.append (Clean.append (Clean.append (Clean.append x2.clean (by decide)) y2.clean) ?_)
            (Clean.append (segsText_clean q4) (Clean.cons (by decide) f4.1.clean)))
          have := segsText_clean (segs := [⟨scale, offset, a, c⟩]) (F := F) fun s hs => hsf s (by simp at hs; simp [hs])
          simpa [segsText] using this
        rw [e, parse_limit_line hc, e2, linear_roundtrip (s := ⟨scale, offset, a, c⟩) x2 y2 x3 y3 f4 hsf ha q3, t2, Option.bind_some,
          Option.map_some]
        conv_rhs => rw [q1]
        rfl
      · have hl' : ∀ r g s o a b w, l ≠ .plain ⟨.linear r g s o a b, w⟩ := fun r g s o a b w h => hl ⟨r, g, s, o, a, b, w, h⟩
        obtain ⟨body, b1, b2, b3⟩ := body_roundtrip (he l (by simp)) hl'
        obtain ⟨text, t1, t2⟩ := ih ls (by simpa using hn) (PieceOk_none_of_notLinear hl' hp.2) fun x hx =>
          he x (List.mem_cons_of_mem _ hx)
        refine ⟨"limit ".toList ++ (body ++ weightText F l.weight) ++ '\n' :: text, ?_, ?_⟩
        · rw [writeLoop.eq_3 _ _ _ _ _ _ _ _ (by intros; exact hl' _ _ _ _ _ _ _ ‹_›), b1, Option.bind_some, t1, Option.map_some]
          simp [closeLinear, weightText]
        · rw [List.append_assoc] at b2 b3
          rw [parse_limit_line b2, b3, t2]
          rfl

end Momentum.LimitsText
