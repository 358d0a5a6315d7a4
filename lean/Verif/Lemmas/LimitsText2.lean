import Verif.Lemmas.LimitsText
import Mathlib.Tactic.NormNum
import Mathlib.Tactic.Positivity

/-! Reading back the lines that the writer of limits prints. -/

namespace Momentum.LimitsText

variable {F : NumFormat} {sk : Skeleton ℝ} {pt : ParameterTransform ℝ}

instance (s : List Char) : Decidable (Clean s) := by unfold Clean; infer_instance

theorem kFloatMax_pos : 0 < kFloatMax := by
  unfold kFloatMax
  norm_num

theorem neg_kFloatMax_ne : -kFloatMax ≠ kFloatMax := by
  have := kFloatMax_pos
  intro h
  linarith

theorem Clean.append {a b : List Char} (ha : Clean a) (hb : Clean b) : Clean (a ++ b) := by
  intro c hc
  rcases List.mem_append.mp hc with h | h
  · exact ha c h
  · exact hb c h

theorem Clean.cons {c : Char} {b : List Char} (hc : c ≠ '\n' ∧ c ≠ '#') (hb : Clean b) : Clean (c :: b) := by
  intro x hx
  rcases List.mem_cons.mp hx with h | h
  · subst h; exact hc
  · exact hb x h

theorem Clean.nil : Clean [] := by intro c hc; simp at hc

theorem isName_limit : IsName "limit".toList := ⟨'l', "imit".toList, by decide, by decide, by decide⟩

/-- The line with its first three identifiers read. -/
theorem parseLimitLine_at {name type s : List Char} {t : Tokenizer} (h1 : IsName name) (h2 : IsName type)
    (ht : advance s = some t) :
    parseLimitLine F sk pt ("limit".toList ++ ' ' :: (name ++ ' ' :: (type ++ ' ' :: s))) =
      (parseBody F sk pt name type t).bind fun r => if r.2.token = .eof then some r.1 else none := by
  unfold parseLimitLine
  rw [advance_name isName_limit (Boundary.space _), Option.bind_some, getIdentifier_at, advance_space,
    advance_name h1 (Boundary.space _), Option.map_some, Option.bind_some, getIdentifier_at, advance_space,
    advance_name h2 (Boundary.space _), Option.map_some, Option.bind_some, getIdentifier_at, advance_space, ht, Option.map_some,
    Option.bind_some]

theorem isName_minmax : IsName "minmax".toList := ⟨'m', "inmax".toList, by decide, by decide, by decide⟩
theorem isName_minmax_passive : IsName "minmax_passive".toList := ⟨'m', "inmax_passive".toList, by decide, by decide, by decide⟩
theorem isName_linear : IsName "linear".toList := ⟨'l', "inear".toList, by decide, by decide, by decide⟩
theorem isName_halfplane : IsName "halfplane".toList := ⟨'h', "alfplane".toList, by decide, by decide, by decide⟩
theorem isName_ellipsoid : IsName "ellipsoid".toList := ⟨'e', "llipsoid".toList, by decide, by decide, by decide⟩

theorem weightText_clean {w : ℝ} (h : w = 1 ∨ F.Faithful w) : Clean (weightText F w) := by
  unfold weightText
  split
  · exact Clean.nil
  · rename_i h1
    exact Clean.cons (by decide) (h.resolve_left h1).1.clean

theorem vecToString_clean {v : List ℝ} (h : ∀ x ∈ v, F.Faithful x) : Clean (vecToString F v) := by
  unfold vecToString
  refine Clean.cons (by decide) (Clean.append ?_ (Clean.cons (by decide) Clean.nil))
  induction v with
  | nil => exact Clean.nil
  | cons x v ih =>
    cases v with
    | nil => exact (h x (by simp)).1.clean
    | cons y v =>
      refine Clean.append (Clean.append (h x (by simp)).1.clean ?_) (ih fun z hz => h z (List.mem_cons_of_mem _ hz))
      exact Clean.cons (by decide) (Clean.cons (by decide) Clean.nil)

theorem vecToString_two (x y : ℝ) (r : List Char) :
    vecToString F [x, y] ++ r = '[' :: (F.print x ++ ',' :: ' ' :: (F.print y ++ ']' :: r)) := by
  simp [vecToString, joinValues]

theorem vecToString_three (x y z : ℝ) (r : List Char) :
    vecToString F [x, y, z] ++ r =
      '[' :: (F.print x ++ ',' :: ' ' :: (F.print y ++ ',' :: ' ' :: (F.print z ++ ']' :: r))) := by
  simp [vecToString, joinValues]

/-- A limit that is not linear, written and read. -/
theorem body_roundtrip {decompose : Mat3 ℝ → Mat3 ℝ × Mat3 ℝ} {tol : ℝ} {l : LimitRecord}
    (h : LimitRecord.Expressible F decompose tol sk pt l)
    (hl : ∀ r g s o a b w, l ≠ .plain ⟨.linear r g s o a b, w⟩) :
    ∃ body, writeBody F decompose tol sk pt l = some body ∧
      Clean ("limit ".toList ++ body ++ weightText F l.weight) ∧
      parseLimitLine F sk pt ("limit ".toList ++ body ++ weightText F l.weight) = some [l] := by
  have elim : "limit ".toList = "limit".toList ++ [' '] := by decide
  have emm : " minmax ".toList = ' ' :: ("minmax".toList ++ [' ']) := by decide
  have emp : " minmax_passive ".toList = ' ' :: ("minmax_passive".toList ++ [' ']) := by decide
  have ehp : " halfplane ".toList = ' ' :: ("halfplane".toList ++ [' ']) := by decide
  have eel : " ellipsoid ".toList = ' ' :: ("ellipsoid".toList ++ [' ']) := by decide
  have clim : Clean "limit ".toList := by decide
  match l, h, hl with
  | .plain ⟨.minMax i lo hi, w⟩, h, _ =>
    obtain ⟨h1, h2, h3, h4, h5⟩ := h
    obtain ⟨n, n1, n2, n3, n4⟩ := h1.spec
    refine ⟨_, by rw [writeBody, n1, Option.map_some], ?_, ?_⟩
    · refine Clean.append (Clean.append clim (Clean.append (Clean.append n2.clean (by decide)) ?_)) (weightText_clean h5)
      exact vecToString_clean (by simp [h3, h4])
    · have e : "limit ".toList ++ (n ++ " minmax ".toList ++ vecToString F [lo, hi]) ++ weightText F w =
          "limit".toList ++ ' ' :: (n ++ ' ' :: ("minmax".toList ++ ' ' :: (vecToString F [lo, hi] ++ weightText F w))) := by
        rw [elim, emm]; simp only [List.append_assoc, List.cons_append, List.nil_append]
      rw [show (LimitRecord.plain ⟨.minMax i lo hi, w⟩).weight = w from rfl, e, vecToString_two,
        parseLimitLine_at n2 isName_minmax (advance_open _)]
      unfold parseBody
      rw [if_pos rfl]
      unfold parseMinmax
      rw [if_neg (n4 h2), n3, Option.bind_some, parseRange_at _ h3 h4 h5]
      rfl
  | .plain ⟨.minMaxJoint j d lo hi, w⟩, h, _ =>
    obtain ⟨h1, h2, h2', h3, h4, h5⟩ := h
    obtain ⟨n, n1, n2, n3, n4⟩ := h1.param h2 h2'
    refine ⟨_, by rw [writeBody, n1, Option.map_some], ?_, ?_⟩
    · refine Clean.append (Clean.append clim (Clean.append (Clean.append n2.clean (by decide)) ?_)) (weightText_clean h5)
      exact vecToString_clean (by simp [h3, h4])
    · have e : "limit ".toList ++ (n ++ " minmax ".toList ++ vecToString F [lo, hi]) ++ weightText F w =
          "limit".toList ++ ' ' :: (n ++ ' ' :: ("minmax".toList ++ ' ' :: (vecToString F [lo, hi] ++ weightText F w))) := by
        rw [elim, emm]; simp only [List.append_assoc, List.cons_append, List.nil_append]
      rw [show (LimitRecord.plain ⟨.minMaxJoint j d lo hi, w⟩).weight = w from rfl, e, vecToString_two,
        parseLimitLine_at n2 isName_minmax (advance_open _)]
      unfold parseBody
      rw [if_pos rfl]
      unfold parseMinmax
      rw [if_pos n3, n4, Option.bind_some, parseRange_at _ h3 h4 h5]
      rfl
  | .plain ⟨.minMaxJointPassive j d lo hi, w⟩, h, _ =>
    obtain ⟨h1, h2, h2', h3, h4, h5⟩ := h
    obtain ⟨n, n1, n2, n3, n4⟩ := h1.param h2 h2'
    refine ⟨_, by rw [writeBody, n1, Option.map_some], ?_, ?_⟩
    · refine Clean.append (Clean.append clim (Clean.append (Clean.append n2.clean (by decide)) ?_)) (weightText_clean h5)
      exact vecToString_clean (by simp [h3, h4])
    · have e : "limit ".toList ++ (n ++ " minmax_passive ".toList ++ vecToString F [lo, hi]) ++ weightText F w =
          "limit".toList ++ ' ' :: (n ++ ' ' :: ("minmax_passive".toList ++ ' ' :: (vecToString F [lo, hi] ++ weightText F w))) := by
        rw [elim, emp]; simp only [List.append_assoc, List.cons_append, List.nil_append]
      rw [show (LimitRecord.plain ⟨.minMaxJointPassive j d lo hi, w⟩).weight = w from rfl, e, vecToString_two,
        parseLimitLine_at n2 isName_minmax_passive (advance_open _)]
      unfold parseBody
      rw [if_neg (by decide), if_pos rfl]
      unfold parseMinmaxPassive
      rw [n4, Option.bind_some, parseRange_at _ h3 h4 h5]
      rfl
  | .plain ⟨.halfPlane i j x y o, w⟩, h, _ =>
    obtain ⟨h1, h2, hn, h3, h4, ho, h5⟩ := h
    obtain ⟨n, n1, n2, n3, -⟩ := h1.spec
    obtain ⟨m, m1, m2, m3, -⟩ := h2.spec
    refine ⟨_, by rw [writeBody, n1, m1, Option.bind_some, Option.map_some], ?_, ?_⟩
    · refine Clean.append (Clean.append clim ?_) (weightText_clean h5)
      refine Clean.append (Clean.append (Clean.append (Clean.append (Clean.append (Clean.append n2.clean (by decide)) m2.clean)
        (by decide)) (vecToString_clean (by simp [h3, h4]))) (by decide)) ho.1.clean
    · have e : "limit ".toList ++ (n ++ " halfplane ".toList ++ m ++ [' '] ++ vecToString F [x, y] ++ [' '] ++ F.print o)
            ++ weightText F w =
          "limit".toList ++ ' ' :: (n ++ ' ' :: ("halfplane".toList ++ ' ' :: (m ++ ' ' :: (vecToString F [x, y] ++
            (' ' :: (F.print o ++ weightText F w)))))) := by
        rw [elim, ehp]; simp only [List.append_assoc, List.cons_append, List.nil_append]
      rw [show (LimitRecord.plain ⟨.halfPlane i j x y o, w⟩).weight = w from rfl, e, vecToString_two,
        parseLimitLine_at n2 isName_halfplane (advance_name m2 (Boundary.space _))]
      obtain ⟨t, t1, t2⟩ := weightText_at h5
      have hs : Real.sqrt (x * x + y * y) = 1 := by
        rw [show x * x + y * y = 1 by nlinarith, Real.sqrt_one]
      unfold parseBody
      rw [if_neg (by decide), if_neg (by decide), if_neg (by decide), if_pos rfl]
      unfold parseHalfPlane getModelParameterIndex
      rw [n3, Option.bind_some, getIdentifier_at, advance_space, advance_open, Option.map_some, Option.bind_some, m3,
        Option.map_some, Option.bind_some, getPair_at h3 h4, advance_space, advance_numeral ho.1 (weightText_boundary w),
        Option.map_some, Option.bind_some, getNumber_at ho, t1, Option.map_some, Option.bind_some]
      simp only [hs, t2, Option.map_some, one_ne_zero, if_false, div_one, Option.bind_some, if_true]
  | .plain ⟨.linear r g s o a b, w⟩, _, hl => exact absurd rfl (hl r g s o a b w)
  | .ellipsoid e, h, _ =>
    obtain ⟨h1, h2, hf, h5, ha, hi⟩ := h
    obtain ⟨n, n1, n2, n3, -⟩ := h1.spec
    obtain ⟨m, m1, m2, m3, -⟩ := h2.spec
    simp only [List.forall_mem_cons, List.not_mem_nil, false_imp_iff, implies_true, and_true] at hf
    obtain ⟨f1, f2, f3, f4, f5, f6, f7, f8, f9, f10, f11, f12⟩ := hf
    refine ⟨_, by rw [writeBody, n1, m1]; simp only [Option.bind_some, Option.map_some]; rfl, ?_, ?_⟩
    · refine Clean.append (Clean.append clim ?_) (weightText_clean h5)
      refine Clean.append (Clean.append (Clean.append (Clean.append (Clean.append (Clean.append (Clean.append (Clean.append
        (Clean.append (Clean.append n2.clean (by decide)) (vecToString_clean (by simp [vecEntries, f1, f2, f3]))) (by decide))
        m2.clean) (by decide)) (vecToString_clean (by simp [vecEntries, f4, f5, f6]))) (by decide))
        (vecToString_clean (by simp [vecEntries, f7, f8, f9]))) (by decide)) (vecToString_clean (by simp [f10, f11, f12]))
    · rw [show (LimitRecord.ellipsoid e).weight = e.weight from rfl]
      set rs := decompose e.ellipsoid.linear with hrs
      have e' : "limit ".toList ++ (n ++ " ellipsoid ".toList ++ vecToString F (vecEntries e.offset) ++ [' '] ++ m ++ [' ']
          ++ vecToString F (vecEntries e.ellipsoid.translation) ++ [' '] ++ vecToString F (vecEntries (anglesOf tol rs.1)) ++ [' ']
          ++ vecToString F [rs.2.m00, rs.2.m11, rs.2.m22]) ++ weightText F e.weight =
        "limit".toList ++ ' ' :: (n ++ ' ' :: ("ellipsoid".toList ++ ' ' :: (vecToString F (vecEntries e.offset) ++
          (' ' :: (m ++ ' ' :: (vecToString F (vecEntries e.ellipsoid.translation) ++ (' ' ::
          (vecToString F (vecEntries (anglesOf tol rs.1)) ++ (' ' ::
          (vecToString F [rs.2.m00, rs.2.m11, rs.2.m22] ++ weightText F e.weight)))))))))) := by
        rw [elim, eel]; simp only [List.append_assoc, List.cons_append, List.nil_append]
      obtain ⟨t, t1, t2⟩ := weightText_at h5
      have g1 := getVec3_at (v := e.offset) f1 f2 f3
      have g2 := getVec3_at (v := e.ellipsoid.translation) f4 f5 f6
      have g3 := getVec3_at (v := anglesOf tol rs.1) f7 f8 f9
      have g4 := getVec3_at (v := ⟨rs.2.m00, rs.2.m11, rs.2.m22⟩) f10 f11 f12
      rw [e']
      simp only [vecEntries, vecToString_three]
      rw [parseLimitLine_at n2 isName_ellipsoid (advance_open _)]
      unfold parseBody
      rw [if_neg (by decide), if_neg (by decide), if_neg (by decide), if_neg (by decide), if_pos rfl]
      unfold parseEllipsoid getJointIndex
      rw [n3, Option.bind_some, g1, advance_space, advance_name m2 (Boundary.space _), Option.map_some, Option.bind_some,
        getIdentifier_at, advance_space, advance_open, Option.map_some, Option.bind_some, m3, Option.map_some, Option.bind_some,
        g2, advance_space, advance_open, Option.map_some, Option.bind_some, g3, advance_space, advance_open, Option.map_some,
        Option.bind_some, g4, t1, Option.map_some, Option.bind_some, t2, Option.map_some, Option.bind_some]
      simp only [if_true]
      rw [← ha, ← hi]

/-- A list of segments that go on where `b` ends. -/
def SegmentChain : LinearSegment → List LinearSegment → Prop
  | _, [] => True
  | b, s :: r => (s.rangeMin = b.rangeMax ∧ s.rangeMin ≠ kFloatMax ∧ |b.eval s.rangeMin - s.eval s.rangeMin| ≤ 1 / 1000) ∧
      SegmentChain s r

def SegmentFaithful (F : NumFormat) (s : LinearSegment) : Prop :=
  F.Faithful s.scale ∧ F.Faithful s.offset ∧ (s.rangeMax = kFloatMax ∨ F.Faithful s.rangeMax)

noncomputable def segsText (F : NumFormat) (segs : List LinearSegment) : List Char :=
  segs.flatMap fun s => segmentText F s.scale s.offset s.rangeMax

theorem segment_at {s : LinearSegment} {done : List LinearSegment} {rest : List Char} {t : Tokenizer} (hf : SegmentFaithful F s)
    (hm : s.rangeMin ≠ kFloatMax) (hj : joins done.getLast? s = true) (ht : advance rest = some t) :
    ∃ u, advance (segmentText F s.scale s.offset s.rangeMax ++ rest) = some u ∧ u.token = .openBracket ∧
      segmentLoop F s.rangeMin done u = segmentLoop F s.rangeMax (done ++ [s]) t := by
  obtain ⟨f1, f2, f3⟩ := hf
  unfold segmentText
  by_cases hr : s.rangeMax = kFloatMax
  · rw [if_pos hr, List.cons_append, advance_space, vecToString_two, advance_open]
    refine ⟨_, rfl, rfl, ?_⟩
    rw [segmentLoop, if_pos rfl, getDynamicVec_two f1 f2, ht]
    have e : segmentOf s.rangeMin [s.scale, s.offset] = some s := by
      cases s; simp only at hr; subst hr; rfl
    simp only [Option.map_some, Option.bind_eq_bind, Option.bind_some, e, hj, if_true]
  · rw [if_neg hr, List.cons_append, advance_space, vecToString_three, advance_open]
    refine ⟨_, rfl, rfl, ?_⟩
    rw [segmentLoop, if_pos rfl, getDynamicVec_three f1 f2 (f3.resolve_left hr), ht]
    have e : segmentOf s.rangeMin [s.scale, s.offset, s.rangeMax] = some s := by
      exact if_neg hm
    simp only [Option.map_some, Option.bind_eq_bind, Option.bind_some, e, hj, if_true]

theorem segments_at {w : ℝ} (hw : F.Faithful w) : ∀ (segs done : List LinearSegment) (b : LinearSegment),
    done.getLast? = some b → SegmentChain b segs → (∀ s ∈ segs, SegmentFaithful F s) →
    ∃ t, advance (segsText F segs ++ ' ' :: F.print w) = some t ∧
      segmentLoop F b.rangeMax done t = some (done ++ segs, ⟨.number (F.print w), []⟩) := by
  intro segs
  induction segs with
  | nil =>
    intro done b _ _ _
    refine ⟨⟨.number (F.print w), []⟩, ?_, ?_⟩
    · have := advance_numeral hw.1 Boundary.nil
      rw [List.append_nil] at this
      rw [segsText, List.flatMap_nil, List.nil_append, advance_space, this]
    · rw [segmentLoop, if_neg (by simp), List.append_nil]
  | cons s segs ih =>
    intro done b hb hc hf
    obtain ⟨⟨c1, c2, c3⟩, hc'⟩ := hc
    obtain ⟨t, t1, t2⟩ := ih (done ++ [s]) s (by simp) hc' fun x hx => hf x (List.mem_cons_of_mem _ hx)
    have hj : joins done.getLast? s = true := by
      rw [hb]
      simpa [joins] using c3
    obtain ⟨u, u1, -, u3⟩ := segment_at (hf s (by simp)) c2 hj t1
    refine ⟨u, ?_, ?_⟩
    · rw [← u1]; simp [segsText]
    · rw [← c1, u3, t2]
      simp

theorem segsText_clean {segs : List LinearSegment} (h : ∀ s ∈ segs, SegmentFaithful F s) : Clean (segsText F segs) := by
  induction segs with
  | nil => exact Clean.nil
  | cons s segs ih =>
    have e : segsText F (s :: segs) = segmentText F s.scale s.offset s.rangeMax ++ segsText F segs := by simp [segsText]
    rw [e]
    refine Clean.append (Clean.cons (by decide) ?_) (ih fun x hx => h x (List.mem_cons_of_mem _ hx))
    obtain ⟨f1, f2, f3⟩ := h s (by simp)
    split
    · exact vecToString_clean (by simp [f1, f2])
    · rename_i hr
      exact vecToString_clean (by simp [f1, f2, f3.resolve_left hr])

/-- The line of a linear limit, written and read. -/
theorem linear_roundtrip {r g : Nat} {w : ℝ} {s : LinearSegment} {segs : List LinearSegment} {a b : List Char}
    (ha : IsName a) (hb : IsName b) (hr : modelParameterIndexFromName pt a = some r) (hg : modelParameterIndexFromName pt b = some g)
    (hw : F.Faithful w) (hs : ∀ x ∈ s :: segs, SegmentFaithful F x) (hm : s.rangeMin = -kFloatMax) (hc : SegmentChain s segs) :
    parseLimitLine F sk pt ("limit ".toList ++ a ++ " linear ".toList ++ b ++ segmentText F s.scale s.offset s.rangeMax ++
      (segsText F segs ++ ' ' :: F.print w)) = some ((s :: segs).map (linearRecord r g w)) := by
  have e : "limit ".toList ++ a ++ " linear ".toList ++ b ++ segmentText F s.scale s.offset s.rangeMax ++
      (segsText F segs ++ ' ' :: F.print w) =
      "limit".toList ++ ' ' :: (a ++ ' ' :: ("linear".toList ++ ' ' :: (b ++ (segmentText F s.scale s.offset s.rangeMax ++
      (segsText F segs ++ ' ' :: F.print w))))) := by
    rw [show "limit ".toList = "limit".toList ++ [' '] by decide,
      show " linear ".toList = ' ' :: ("linear".toList ++ [' ']) by decide]
    simp only [List.append_assoc, List.cons_append, List.nil_append]
  have hbd : Boundary (segmentText F s.scale s.offset s.rangeMax ++ (segsText F segs ++ ' ' :: F.print w)) := by
    unfold segmentText
    exact Boundary.space _
  obtain ⟨t, t1, t2⟩ := segments_at hw segs [s] s rfl hc fun x hx => hs x (List.mem_cons_of_mem _ hx)
  obtain ⟨u, u1, u2, u3⟩ := segment_at (done := []) (hs s (by simp)) (by rw [hm]; exact neg_kFloatMax_ne) rfl t1
  rw [e, parseLimitLine_at ha isName_linear (advance_name hb hbd)]
  unfold parseBody
  rw [if_neg (by decide), if_neg (by decide), if_pos rfl]
  unfold parseLinear getModelParameterIndex
  rw [hr, Option.bind_some, getIdentifier_at, u1, Option.map_some, Option.bind_some, hg, Option.map_some, Option.bind_some,
    if_pos u2, ← hm, u3, List.nil_append, t2, Option.bind_some, weight_at hw, Option.map_some, Option.bind_some, if_pos rfl]
  rfl

end Momentum.LimitsText
