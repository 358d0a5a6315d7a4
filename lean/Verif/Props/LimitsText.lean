import Verif.Lemmas.LimitsText4

/-!
# C84: limits written as text are read back

The text format of `parseParameterLimits` and `writeParameterLimits`.  `Spec/LimitsText.lean` says which lists of limits the format can
hold (`Expressible`).
-/

namespace Momentum.LimitsText

attribute [local irreducible] kFloatMax

variable (F : NumFormat) (sk : Skeleton ℝ) (pt : ParameterTransform ℝ) (decompose : Mat3 ℝ → Mat3 ℝ × Mat3 ℝ) (tol : ℝ)

/-- Every list that the format can hold is written, and reading the text gives back the list: every limit, in order, with its names
resolved to the same indices, its numbers and its weight.  Missing: lists that `Expressible` leaves out (the theorems further below say
what becomes of them) and the rounding of printed numbers. -/
theorem C84_roundtrip_partial (limits : List LimitRecord) (h : Expressible F decompose tol sk pt limits) :
    ∃ text, writeParameterLimits F decompose tol limits sk pt = some text ∧ parseParameterLimits F text sk pt = some limits :=
  roundtrip limits.length limits le_rfl h.2 h.1

/-- An ellipsoid that is a rotation after a scaling along the axes, which the decomposition finds, is recomposed from the three angles
in degrees and the three scales, unless the rotation is at or near the gimbal lock. -/
theorem C84_ellipsoid (m R : Mat3 ℝ) (t s : Vec3 ℝ) (hR : IsRotation R) (htol : 0 ≤ tol)
    (hm : m = R.mul ⟨s.x, 0, 0, 0, s.y, 0, 0, 0, s.z⟩) (hd : decompose m = (R, ⟨s.x, 0, 0, 0, s.y, 0, 0, 0, s.z⟩))
    (hp : |eulerPivotXYZ R .extrinsic| < 1 - tol) :
    ellipsoidAffine t (anglesOf tol (decompose m).1) ⟨(decompose m).2.m00, (decompose m).2.m11, (decompose m).2.m22⟩ = ⟨m, t⟩ := by
  have := (C12_roundtrip_exact R hR tol htol .extrinsic).1 hp
  rw [hd]
  unfold ellipsoidAffine anglesOf
  simp only [toRad_toDeg]
  rw [this, hm]

/-- Whatever the text: every limit that is read refers to parameters and joints that exist, half planes have unit normals, and the
stored inverse of an ellipsoid is the inverse. -/
theorem C84_read_ok (data : List Char) (limits : List LimitRecord) (h : parseParameterLimits F data sk pt = some limits) :
    ∀ l ∈ limits,
      match l with
      | .plain ⟨.minMax i _ _, _⟩ => i < pt.name.length
      | .plain ⟨.minMaxJoint j d _ _, _⟩ => j < sk.joints.length ∧ d < 7
      | .plain ⟨.minMaxJointPassive j d _ _, _⟩ => j < sk.joints.length ∧ d < 7
      | .plain ⟨.linear r g _ _ _ _, _⟩ => r < pt.name.length ∧ g < pt.name.length
      | .plain ⟨.halfPlane i j n0 n1 _, _⟩ => i < pt.name.length ∧ j < pt.name.length ∧ n0 ^ 2 + n1 ^ 2 = 1
      | .plain ⟨.ellipsoid _ _, _⟩ => False
      | .ellipsoid e => e.parent < sk.joints.length ∧ e.ellipsoidParent < sk.joints.length ∧ e.ellipsoidInv = e.ellipsoid.inverse := by
  intro l hl
  have := lines_inRange (F := F) (sk := sk) (pt := pt) _ limits h l hl
  revert this
  match l with
  | .plain ⟨.minMax .., w⟩ | .plain ⟨.minMaxJoint .., w⟩ | .plain ⟨.minMaxJointPassive .., w⟩
  | .plain ⟨.halfPlane .., w⟩ | .plain ⟨.ellipsoid .., w⟩ | .plain ⟨.linear .., w⟩ | .ellipsoid _ => exact id

/-- Whatever the line: the linear limits read from one line are pieces of one function.  The first starts at the lowest number, each
later one starts where the one before ends, has the same parameters and the same weight, and has there the same value up to 1/1000. -/
theorem C84_pieces (line : List Char) (hline : '\n' ∉ line) (limits : List LimitRecord)
    (h : parseParameterLimits F line sk pt = some limits) (k r g : Nat) (scale offset a b w : ℝ)
    (hk : limits[k]? = some (.plain ⟨.linear r g scale offset a b, w⟩)) :
    (k = 0 → a = -kFloatMax) ∧
    (∀ j, k = j + 1 → ∃ scale' offset' a', limits[j]? = some (.plain ⟨.linear r g scale' offset' a' a, w⟩) ∧
      |(scale' * a - offset') - (scale * a - offset)| ≤ 1 / 1000) := by
  have h0 : line ≠ [] := by
    rintro rfl
    injection h with h
    subst h
    simp at hk
  unfold parseParameterLimits at h
  rw [getLines_single hline h0, List.foldlM_cons, Option.bind_eq_bind] at h
  obtain ⟨x, h1, h2⟩ := Option.bind_eq_some_iff.mp h
  change some x = some limits at h2
  injection h2 with h2
  subst h2
  rcases lineStep_result h1 with e | e
  · subst e; simp at hk
  · cases e with
    | single l hl _ =>
      cases k with
      | zero => exact absurd (by simpa using hk) (hl r g scale offset a b w)
      | succ k => simp at hk
    | linear r' g' w' segs _ _ hs =>
      rw [List.getElem?_map] at hk
      obtain ⟨s, hs1, hs2⟩ := Option.map_eq_some_iff.mp hk
      simp only [linearRecord, LimitRecord.plain.injEq, ParameterLimit.mk.injEq, LimitData.linear.injEq] at hs2
      obtain ⟨⟨rfl, rfl, rfl, rfl, rfl, rfl⟩, rfl⟩ := hs2
      cases segs with
      | nil => simp at hs1
      | cons s0 segs =>
        refine ⟨?_, ?_⟩
        · rintro rfl
          have : s0 = s := by simpa using hs1
          rw [← this]
          exact hs.1
        · rintro j rfl
          obtain ⟨p, hp⟩ : ∃ p, (s0 :: segs)[j]? = some p := by
            have := (List.getElem?_eq_some_iff.mp hs1).1
            exact ⟨_, List.getElem?_eq_getElem (by omega)⟩
          obtain ⟨q1, q2⟩ := hs.2 j p s hp hs1
          refine ⟨p.scale, p.offset, p.rangeMin, ?_, ?_⟩
          · rw [List.getElem?_map, hp, Option.map_some]
            unfold linearRecord
            rw [q1]
          · simpa [LinearSegment.eval] using q2

/-- Texts that are put together are read one after the other. -/
theorem C84_append (a b : List Char) :
    parseParameterLimits F (a ++ '\n' :: b) sk pt =
      (parseParameterLimits F a sk pt).bind fun p => (parseParameterLimits F b sk pt).map fun q => p ++ q :=
  parse_append a b

/-- Comments do not matter. -/
theorem C84_comment (line comment rest : List Char) (h1 : '\n' ∉ line) (h2 : '\n' ∉ comment) :
    parseParameterLimits F (line ++ '#' :: comment ++ '\n' :: rest) sk pt =
      parseParameterLimits F (line ++ '\n' :: rest) sk pt := by
  have hn : '\n' ∉ line ++ '#' :: comment := by
    intro h
    rcases List.mem_append.mp h with h | h
    · exact h1 h
    · rcases List.mem_cons.mp h with h | h
      · exact absurd h (by decide)
      · exact h2 h
  rw [parse_cons hn, parse_cons h1]
  congr 1
  have e : withoutComment (line ++ '#' :: comment) = withoutComment line := by
    unfold withoutComment
    induction line with
    | nil => simp
    | cons c l ih =>
      have := ih (fun h => h1 (List.mem_cons_of_mem _ h)) (fun h => hn (by
        rw [List.cons_append]; exact List.mem_cons_of_mem _ h))
      rw [List.cons_append, List.takeWhile_cons, List.takeWhile_cons, this]
  unfold lineStep
  rw [e]

/-- Lines that do not start with "limit" do not matter. -/
theorem C84_other_lines (line rest : List Char) (h1 : '\n' ∉ line) (h2 : ¬ "limit".toList <+: line) :
    parseParameterLimits F (line ++ '\n' :: rest) sk pt = parseParameterLimits F rest sk pt := by
  rw [parse_cons h1]
  unfold lineStep
  rw [if_neg]
  · simp
  · rw [List.isPrefixOf_iff_prefix]
    intro h
    exact h2 (h.trans (List.takeWhile_prefix _))

/-- FINDING: the weight of the later pieces of a linear limit is not written, so it comes back as the weight of the first piece. -/
theorem C84_weight_counterexample (r g : Nat) (s o m s' o' b w w' : ℝ) (hw : w ≠ w')
    (h : Expressible F decompose tol sk pt
      [.plain ⟨.linear r g s o (-kFloatMax) m, w⟩, .plain ⟨.linear r g s' o' m b, w⟩]) :
    ∃ text limits,
      writeParameterLimits F decompose tol
        [.plain ⟨.linear r g s o (-kFloatMax) m, w⟩, .plain ⟨.linear r g s' o' m b, w'⟩] sk pt = some text ∧
      parseParameterLimits F text sk pt = some limits ∧
      limits = [.plain ⟨.linear r g s o (-kFloatMax) m, w⟩, .plain ⟨.linear r g s' o' m b, w⟩] ∧
      limits ≠ [.plain ⟨.linear r g s o (-kFloatMax) m, w⟩, .plain ⟨.linear r g s' o' m b, w'⟩] := by
  obtain ⟨text, t1, t2⟩ := C84_roundtrip_partial F sk pt decompose tol _ h
  refine ⟨text, _, ?_, t2, rfl, ?_⟩
  · rw [← t1]
    unfold writeParameterLimits
    have hz : ¬ (-kFloatMax = 0 ∧ m = 0) := by
      rintro ⟨h, -⟩
      have := kFloatMax_pos
      linarith
    have e : goesOn (some (⟨r, g, w, m⟩ : OpenLinear)) r g m = some ⟨r, g, w, m⟩ := goesOn_some _ ⟨rfl, rfl, rfl⟩
    simp only [writeLoop, show goesOn none r g (-kFloatMax) = none from rfl, if_neg hz, e]
  · intro e
    simp only [List.cons.injEq, LimitRecord.plain.injEq, ParameterLimit.mk.injEq, true_and, and_true] at e
    exact hw e

/-- FINDING: the start of the range of the first piece is not written: it comes back as the lowest number, unless the range is
empty at zero. -/
theorem C84_start_counterexample (r g : Nat) (s o a b w : ℝ) (ha : a ≠ -kFloatMax) (hab : ¬ (a = 0 ∧ b = 0))
    (h : Expressible F decompose tol sk pt [.plain ⟨.linear r g s o (-kFloatMax) b, w⟩]) :
    ∃ text limits, writeParameterLimits F decompose tol [.plain ⟨.linear r g s o a b, w⟩] sk pt = some text ∧
      parseParameterLimits F text sk pt = some limits ∧ limits = [.plain ⟨.linear r g s o (-kFloatMax) b, w⟩] ∧
      limits ≠ [.plain ⟨.linear r g s o a b, w⟩] := by
  obtain ⟨text, t1, t2⟩ := C84_roundtrip_partial F sk pt decompose tol _ h
  refine ⟨text, _, ?_, t2, rfl, ?_⟩
  · rw [← t1]
    unfold writeParameterLimits
    have hz : ¬ (-kFloatMax = 0 ∧ b = 0) := by
      rintro ⟨h, -⟩
      have := kFloatMax_pos
      linarith
    simp only [writeLoop, show ∀ x, goesOn none r g x = none from fun _ => rfl, if_neg hz, if_neg hab]
  · intro e
    simp only [List.cons.injEq, LimitRecord.plain.injEq, ParameterLimit.mk.injEq, LimitData.linear.injEq, true_and, and_true] at e
    exact ha e.symm

/-- The range from zero to zero, which stands for a range without bounds, comes back as the whole range of the numbers: the limit
applies to the same values. -/
theorem C84_default_range (r g : Nat) (s o w : ℝ)
    (h : Expressible F decompose tol sk pt [.plain ⟨.linear r g s o (-kFloatMax) kFloatMax, w⟩]) :
    (∃ text, writeParameterLimits F decompose tol [.plain ⟨.linear r g s o 0 0, w⟩] sk pt = some text ∧
      parseParameterLimits F text sk pt = some [.plain ⟨.linear r g s o (-kFloatMax) kFloatMax, w⟩]) ∧
    ∀ x, -kFloatMax ≤ x → x < kFloatMax → isInRange 0 0 x = isInRange (-kFloatMax) kFloatMax x := by
  obtain ⟨text, t1, t2⟩ := C84_roundtrip_partial F sk pt decompose tol _ h
  have hz : ¬ (-kFloatMax = 0 ∧ kFloatMax = 0) := by
    rintro ⟨-, h⟩
    exact kFloatMax_pos.ne' h
  refine ⟨⟨text, ?_, t2⟩, ?_⟩
  · rw [← t1]
    unfold writeParameterLimits
    have hst : segmentText F s o kFloatMax = ' ' :: vecToString F [s, o] := by
      unfold segmentText
      rw [if_pos rfl]
    rw [writeLoop_linear_zero r g s o 0 0 w ⟨rfl, rfl⟩, writeLoop_linear_one r g s o _ _ w hz, hst]
  · intro x h1 h2
    unfold isInRange
    rw [if_neg hz, if_pos ⟨rfl, rfl⟩]
    simp [h1, h2]

/-- FINDING: a half plane whose normal is not a unit vector comes back with normal and offset divided by the length of the normal. -/
theorem C84_normal (i j : Nat) (x y o w : ℝ) (hi : NamesParameter pt i) (hj : NamesParameter pt j) (hx : F.Faithful x)
    (hy : F.Faithful y) (ho : F.Faithful o) (hw : w = 1 ∨ F.Faithful w) (h0 : x ^ 2 + y ^ 2 ≠ 0) :
    ∃ text, writeParameterLimits F decompose tol [.plain ⟨.halfPlane i j x y o, w⟩] sk pt = some text ∧
      parseParameterLimits F text sk pt = some [.plain ⟨.halfPlane i j (x / Real.sqrt (x ^ 2 + y ^ 2)) (y / Real.sqrt (x ^ 2 + y ^ 2))
        (o / Real.sqrt (x ^ 2 + y ^ 2)), w⟩] := by
  obtain ⟨n, n1, n2, n3, -⟩ := hi.spec
  obtain ⟨m, m1, m2, m3, -⟩ := hj.spec
  obtain ⟨t, t1, t2⟩ := weightText_at hw
  have hs : Real.sqrt (x * x + y * y) = Real.sqrt (x ^ 2 + y ^ 2) := by congr 1; ring
  have hs0 : Real.sqrt (x ^ 2 + y ^ 2) ≠ 0 := by
    rw [Real.sqrt_ne_zero (by positivity)]
    exact h0
  have e : "limit ".toList ++ (n ++ " halfplane ".toList ++ m ++ [' '] ++ vecToString F [x, y] ++ [' '] ++ F.print o
        ++ weightText F w) =
      "limit".toList ++ ' ' :: (n ++ ' ' :: ("halfplane".toList ++ ' ' :: (m ++ ' ' :: (vecToString F [x, y] ++
        (' ' :: (F.print o ++ weightText F w)))))) := by
    rw [show "limit ".toList = "limit".toList ++ [' '] by decide,
      show " halfplane ".toList = ' ' :: ("halfplane".toList ++ [' ']) by decide]
    simp only [List.append_assoc, List.cons_append, List.nil_append]
  have hc : Clean ("limit ".toList ++ (n ++ " halfplane ".toList ++ m ++ [' '] ++ vecToString F [x, y] ++ [' '] ++ F.print o
        ++ weightText F w)) := by
    refine Clean.append (by decide) (Clean.append (Clean.append (Clean.append (Clean.append (Clean.append (Clean.append
      (Clean.append n2.clean (by decide)) m2.clean) (by decide)) (vecToString_clean (by simp [hx, hy]))) (by decide)) ho.1.clean)
      (weightText_clean hw))
  refine ⟨"limit ".toList ++ (n ++ " halfplane ".toList ++ m ++ [' '] ++ vecToString F [x, y] ++ [' '] ++ F.print o
        ++ weightText F w) ++ '\n' :: [], ?_, ?_⟩
  · unfold writeParameterLimits
    simp only [writeLoop, writeBody, n1, m1, Option.bind_some, Option.map_some, closeLinear]
    simp [weightText, LimitRecord.weight]
    rfl
  · rw [parse_limit_line hc, e, vecToString_two, parseLimitLine_at n2 isName_halfplane (advance_name m2 (Boundary.space _))]
    unfold parseBody
    rw [if_neg (by decide), if_neg (by decide), if_neg (by decide), if_pos rfl]
    unfold parseHalfPlane getModelParameterIndex
    rw [n3, Option.bind_some, getIdentifier_at, advance_space, advance_open, Option.map_some, Option.bind_some, m3,
      Option.map_some, Option.bind_some, getPair_at hx hy, advance_space, advance_numeral ho.1 (weightText_boundary w),
      Option.map_some, Option.bind_some, getNumber_at ho, t1, Option.map_some, Option.bind_some]
    simp only [hs, t2, Option.map_some, hs0, if_false, Option.bind_some, if_true]
    rfl

/-- FINDING: a limit of a model parameter whose name contains a dot is not read back: the name is taken for a joint and one of its
parameters. -/
theorem C84_dotted_counterexample (i : Nat) (lo hi w : ℝ) (hi' : NamesParameter pt i) (hdot : ¬ PlainParameter pt i)
    (hlo : F.Faithful lo) (hhi : F.Faithful hi) (hw : w = 1 ∨ F.Faithful w) :
    ∃ text, writeParameterLimits F decompose tol [.plain ⟨.minMax i lo hi, w⟩] sk pt = some text ∧
      parseParameterLimits F text sk pt ≠ some [.plain ⟨.minMax i lo hi, w⟩] := by
  obtain ⟨str, e1, hname, -⟩ := hi'
  have hd : '.' ∈ str.toList := by
    by_contra hn
    refine hdot fun n hn' => ?_
    rw [e1] at hn'
    injection hn' with hn'
    rw [← hn']
    exact hn
  have hc : Clean ("limit ".toList ++ (str.toList ++ " minmax ".toList ++ vecToString F [lo, hi] ++ weightText F w)) :=
    Clean.append (by decide) (Clean.append (Clean.append (Clean.append hname.clean (by decide))
      (vecToString_clean (by simp [hlo, hhi]))) (weightText_clean hw))
  have e : "limit ".toList ++ (str.toList ++ " minmax ".toList ++ vecToString F [lo, hi] ++ weightText F w) =
      "limit".toList ++ ' ' :: (str.toList ++ ' ' :: ("minmax".toList ++ ' ' :: (vecToString F [lo, hi] ++ weightText F w))) := by
    rw [show "limit ".toList = "limit".toList ++ [' '] by decide,
      show " minmax ".toList = ' ' :: ("minmax".toList ++ [' ']) by decide]
    simp only [List.append_assoc, List.cons_append, List.nil_append]
  refine ⟨"limit ".toList ++ (str.toList ++ " minmax ".toList ++ vecToString F [lo, hi] ++ weightText F w) ++ '\n' :: [], ?_, ?_⟩
  · unfold writeParameterLimits
    simp only [writeLoop, writeBody, parameterName, e1, Option.bind_some, Option.map_some, closeLinear]
    simp [weightText, LimitRecord.weight]
    rfl
  · rw [parse_limit_line hc, e, vecToString_two, parseLimitLine_at hname isName_minmax (advance_open _)]
    unfold parseBody
    rw [if_pos rfl]
    unfold parseMinmax
    rw [if_pos hd]
    intro h
    obtain ⟨r, h1, h2⟩ := Option.bind_eq_some_iff.mp h
    obtain ⟨r', h3, h4⟩ := Option.bind_eq_some_iff.mp h1
    obtain ⟨jd, -, h5⟩ := Option.bind_eq_some_iff.mp h3
    obtain ⟨lo', hi'', w', h6⟩ := parseRange_eq (L := r'.1) (t' := r'.2) h5
    split at h4
    · injection h4 with h4
      subst h4
      have : (parseParameterLimits F [] sk pt) = some [] := rfl
      rw [this, Option.map_some] at h2
      injection h2 with h2
      rw [h6] at h2
      simp at h2
    · exact absurd h4 (by simp)

end Momentum.LimitsText
