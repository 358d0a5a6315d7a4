import Verif.Lemmas.LimitsText3
import Verif.Props.Euler

/-! What any text can be read as. -/

namespace Momentum.LimitsText

variable {F : NumFormat} {sk : Skeleton ℝ} {pt : ParameterTransform ℝ}

/-- The indices of a limit exist. -/
def RecordInRange (sk : Skeleton ℝ) (pt : ParameterTransform ℝ) : LimitRecord → Prop
  | .plain ⟨.minMax i _ _, _⟩ => i < pt.name.length
  | .plain ⟨.minMaxJoint j d _ _, _⟩ => j < sk.joints.length ∧ d < 7
  | .plain ⟨.minMaxJointPassive j d _ _, _⟩ => j < sk.joints.length ∧ d < 7
  | .plain ⟨.linear r g _ _ _ _, _⟩ => r < pt.name.length ∧ g < pt.name.length
  | .plain ⟨.halfPlane i j n0 n1 _, _⟩ => i < pt.name.length ∧ j < pt.name.length ∧ n0 ^ 2 + n1 ^ 2 = 1
  | .plain ⟨.ellipsoid _ _, _⟩ => False
  | .ellipsoid e => e.parent < sk.joints.length ∧ e.ellipsoidParent < sk.joints.length ∧ e.ellipsoidInv = e.ellipsoid.inverse

theorem findIdx?_lt {α : Type} {p : α → Bool} {l : List α} {i : Nat} (h : l.findIdx? p = some i) : i < l.length := by
  obtain ⟨hi, -⟩ := List.findIdx?_eq_some_iff_getElem.mp h
  exact hi

theorem modelParameterIndexFromName_lt {w : List Char} {i : Nat} (h : modelParameterIndexFromName pt w = some i) :
    i < pt.name.length := findIdx?_lt h

theorem jointIndexFromName_lt {w : List Char} {i : Nat} (h : jointIndexFromName sk w = some i) : i < sk.joints.length :=
  findIdx?_lt h

theorem jointParameterIndexFromName_lt {w : List Char} {jd : Nat × Nat} (h : jointParameterIndexFromName sk w = some jd) :
    jd.1 < sk.joints.length ∧ jd.2 < 7 := by
  unfold jointParameterIndexFromName at h
  split at h
  · obtain ⟨j, h1, h2⟩ := Option.bind_eq_some_iff.mp h
    obtain ⟨d, h3, rfl⟩ := Option.map_eq_some_iff.mp h2
    exact ⟨jointIndexFromName_lt h1, findIdx?_lt h3⟩
  · exact absurd h (by simp)

theorem parseRange_eq {data : ℝ → ℝ → LimitData ℝ} {t t' : Tokenizer} {L : List LimitRecord}
    (h : parseRange F data t = some (L, t')) : ∃ lo hi w, L = [.plain ⟨data lo hi, w⟩] := by
  unfold parseRange at h
  obtain ⟨r, -, h2⟩ := Option.bind_eq_some_iff.mp h
  obtain ⟨w, -, h4⟩ := Option.map_eq_some_iff.mp h2
  injection h4 with h4 _
  exact ⟨_, _, _, h4.symm⟩

theorem getModelParameterIndex_lt {t : Tokenizer} {r : Nat × Tokenizer} (h : getModelParameterIndex pt t = some r) :
    r.1 < pt.name.length := by
  unfold getModelParameterIndex at h
  obtain ⟨x, -, h2⟩ := Option.bind_eq_some_iff.mp h
  obtain ⟨i, h3, rfl⟩ := Option.map_eq_some_iff.mp h2
  exact modelParameterIndexFromName_lt h3

theorem getJointIndex_lt {t : Tokenizer} {r : Nat × Tokenizer} (h : getJointIndex sk t = some r) : r.1 < sk.joints.length := by
  unfold getJointIndex at h
  obtain ⟨x, -, h2⟩ := Option.bind_eq_some_iff.mp h
  obtain ⟨i, h3, rfl⟩ := Option.map_eq_some_iff.mp h2
  exact jointIndexFromName_lt h3

/-- Segments that start at the lowest number and go on from one another. -/
def SegmentsOk : List LinearSegment → Prop
  | [] => True
  | s :: r => s.rangeMin = -kFloatMax ∧ ∀ k a b, (s :: r)[k]? = some a → (s :: r)[k + 1]? = some b →
      b.rangeMin = a.rangeMax ∧ |a.eval b.rangeMin - b.eval b.rangeMin| ≤ 1 / 1000

theorem SegmentsOk.snoc {segs : List LinearSegment} {cur : LinearSegment} (h : SegmentsOk segs)
    (h0 : segs = [] → cur.rangeMin = -kFloatMax) (hl : ∀ b, segs.getLast? = some b → cur.rangeMin = b.rangeMax)
    (hj : joins segs.getLast? cur = true) : SegmentsOk (segs ++ [cur]) := by
  cases segs with
  | nil => exact ⟨h0 rfl, by intro k a b _ h2; simp at h2⟩
  | cons s r =>
    refine ⟨h.1, ?_⟩
    intro k a b h1 h2
    change (s :: r ++ [cur])[k]? = some a at h1
    change (s :: r ++ [cur])[k + 1]? = some b at h2
    have hlen : k + 1 < (s :: r ++ [cur]).length := (List.getElem?_eq_some_iff.mp h2).1
    have hlen' : k + 1 < (s :: r).length + 1 := by simpa using hlen
    by_cases hk : k + 1 < (s :: r).length
    · rw [List.getElem?_append_left (by omega)] at h1
      rw [List.getElem?_append_left hk] at h2
      exact h.2 k a b h1 h2
    · have hk' : k + 1 = (s :: r).length := by omega
      rw [List.getElem?_append_left (by omega)] at h1
      rw [hk', List.getElem?_append_right (le_refl _), Nat.sub_self] at h2
      have hb : cur = b := by simpa using h2
      subst hb
      have ha : (s :: r).getLast? = some a := by
        rw [List.getLast?_eq_getElem?, ← hk']; simpa using h1
      refine ⟨hl a ha, ?_⟩
      rw [ha] at hj
      simpa [joins] using hj

theorem segmentOf_rangeMin {prev : ℝ} {v : List ℝ} {s : LinearSegment} (h : segmentOf prev v = some s) : s.rangeMin = prev := by
  match v, h with
  | [_, _], h => injection h with h; subst h; rfl
  | [_, _, _], h =>
    change (if prev = kFloatMax then none else _) = some s at h
    split at h
    · exact absurd h (by simp)
    · injection h with h; subst h; rfl
  | [], h => exact absurd h (by simp [segmentOf])
  | [_], h => exact absurd h (by simp [segmentOf])
  | _ :: _ :: _ :: _ :: _, h => exact absurd h (by simp [segmentOf])

theorem segmentLoop_ok {prev : ℝ} {segs : List LinearSegment} {t : Tokenizer} {r : List LinearSegment × Tokenizer} :
    segmentLoop F prev segs t = some r → SegmentsOk segs → (segs = [] → prev = -kFloatMax) →
      (∀ b, segs.getLast? = some b → prev = b.rangeMax) → SegmentsOk r.1 := by
  intro h
  refine segmentLoop.partial_correctness F (fun prev segs _ r => SegmentsOk segs → (segs = [] → prev = -kFloatMax) →
      (∀ b, segs.getLast? = some b → prev = b.rangeMax) → SegmentsOk r.1) ?_ prev segs t r h
  intro loop ih prev segs t r hr h1 h2 h3
  split at hr
  · obtain ⟨v, -, hr⟩ := Option.bind_eq_some_iff.mp hr
    obtain ⟨cur, hc, hr⟩ := Option.bind_eq_some_iff.mp hr
    have hm := segmentOf_rangeMin hc
    split at hr
    · rename_i hj
      refine ih _ _ _ _ hr (h1.snoc (fun e => by rw [hm]; exact h2 e) (fun b hb => by rw [hm]; exact h3 b hb) hj) ?_ ?_
      · intro e; simp at e
      · intro b hb; simp at hb; rw [hb]
    · exact absurd hr (by simp)
  · injection hr with hr
    subst hr
    exact h1

/-- The forms that a line can take. -/
inductive LineResult (sk : Skeleton ℝ) (pt : ParameterTransform ℝ) : List LimitRecord → Prop
  | single (l : LimitRecord) (hl : ∀ r g s o a b w, l ≠ .plain ⟨.linear r g s o a b, w⟩) (h : RecordInRange sk pt l) :
      LineResult sk pt [l]
  | linear (r g : Nat) (w : ℝ) (segs : List LinearSegment) (hr : r < pt.name.length) (hg : g < pt.name.length)
      (h : SegmentsOk segs) : LineResult sk pt (segs.map (linearRecord r g w))

theorem parseMinmax_result {name : List Char} {t t' : Tokenizer} {L : List LimitRecord}
    (h : parseMinmax F sk pt name t = some (L, t')) : LineResult sk pt L := by
  unfold parseMinmax at h
  split at h
  · obtain ⟨jd, h1, h2⟩ := Option.bind_eq_some_iff.mp h
    obtain ⟨lo, hi, w, rfl⟩ := parseRange_eq h2
    exact .single _ (by simp) (jointParameterIndexFromName_lt h1)
  · obtain ⟨i, h1, h2⟩ := Option.bind_eq_some_iff.mp h
    obtain ⟨lo, hi, w, rfl⟩ := parseRange_eq h2
    exact .single _ (by simp) (modelParameterIndexFromName_lt h1)

theorem parseMinmaxPassive_result {name : List Char} {t t' : Tokenizer} {L : List LimitRecord}
    (h : parseMinmaxPassive F sk name t = some (L, t')) : LineResult sk pt L := by
  unfold parseMinmaxPassive at h
  obtain ⟨jd, h1, h2⟩ := Option.bind_eq_some_iff.mp h
  obtain ⟨lo, hi, w, rfl⟩ := parseRange_eq h2
  exact .single _ (by simp) (jointParameterIndexFromName_lt h1)

theorem parseLinear_result {name : List Char} {t t' : Tokenizer} {L : List LimitRecord}
    (h : parseLinear F pt name t = some (L, t')) : LineResult sk pt L := by
  unfold parseLinear at h
  obtain ⟨r, h1, h2⟩ := Option.bind_eq_some_iff.mp h
  obtain ⟨g, h3, h4⟩ := Option.bind_eq_some_iff.mp h2
  split at h4
  · obtain ⟨s, h5, h6⟩ := Option.bind_eq_some_iff.mp h4
    obtain ⟨w, -, h7⟩ := Option.map_eq_some_iff.mp h6
    injection h7 with h7 _
    subst h7
    exact .linear _ _ _ _ (modelParameterIndexFromName_lt h1) (getModelParameterIndex_lt h3)
      (segmentLoop_ok h5 trivial (fun _ => rfl) (by simp))
  · exact absurd h4 (by simp)

theorem parseHalfPlane_result {name : List Char} {t t' : Tokenizer} {L : List LimitRecord}
    (h : parseHalfPlane F pt name t = some (L, t')) : LineResult sk pt L := by
  unfold parseHalfPlane at h
  obtain ⟨i, h1, h2⟩ := Option.bind_eq_some_iff.mp h
  obtain ⟨j, h3, h4⟩ := Option.bind_eq_some_iff.mp h2
  obtain ⟨n, -, h5⟩ := Option.bind_eq_some_iff.mp h4
  obtain ⟨o, -, h6⟩ := Option.bind_eq_some_iff.mp h5
  dsimp only at h6
  split at h6
  · exact absurd h6 (by simp)
  · rename_i hlen
    obtain ⟨w, -, h7⟩ := Option.map_eq_some_iff.mp h6
    injection h7 with h7 _
    subst h7
    refine .single _ (by simp) ⟨modelParameterIndexFromName_lt h1, getModelParameterIndex_lt h3, ?_⟩
    have hn : (0 : ℝ) ≤ n.1.1 * n.1.1 + n.1.2 * n.1.2 := add_nonneg (mul_self_nonneg _) (mul_self_nonneg _)
    have hs := Real.mul_self_sqrt hn
    have h0 : n.1.1 * n.1.1 + n.1.2 * n.1.2 ≠ 0 := fun e => hlen (by rw [e, Real.sqrt_zero])
    rw [div_pow, div_pow, ← add_div, pow_two (Real.sqrt _), hs, pow_two, pow_two, div_self h0]

theorem parseEllipsoid_result {name : List Char} {t t' : Tokenizer} {L : List LimitRecord}
    (h : parseEllipsoid F sk name t = some (L, t')) : LineResult sk pt L := by
  unfold parseEllipsoid at h
  obtain ⟨i, h1, h⟩ := Option.bind_eq_some_iff.mp h
  obtain ⟨a, -, h⟩ := Option.bind_eq_some_iff.mp h
  obtain ⟨b, h2, h⟩ := Option.bind_eq_some_iff.mp h
  obtain ⟨c, -, h⟩ := Option.bind_eq_some_iff.mp h
  obtain ⟨d, -, h⟩ := Option.bind_eq_some_iff.mp h
  obtain ⟨e, -, h⟩ := Option.bind_eq_some_iff.mp h
  obtain ⟨w, -, h⟩ := Option.map_eq_some_iff.mp h
  injection h with h _
  subst h
  exact .single _ (by simp) ⟨jointIndexFromName_lt h1, getJointIndex_lt h2, rfl⟩

theorem parseLimitLine_result {line : List Char} {L : List LimitRecord} (h : parseLimitLine F sk pt line = some L) :
    LineResult sk pt L := by
  unfold parseLimitLine at h
  obtain ⟨a, -, h⟩ := Option.bind_eq_some_iff.mp h
  obtain ⟨b, -, h⟩ := Option.bind_eq_some_iff.mp h
  obtain ⟨c, -, h⟩ := Option.bind_eq_some_iff.mp h
  obtain ⟨d, -, h⟩ := Option.bind_eq_some_iff.mp h
  obtain ⟨⟨L', t'⟩, h1, h⟩ := Option.bind_eq_some_iff.mp h
  split at h
  · injection h with h
    subst h
    unfold parseBody at h1
    split at h1
    · exact parseMinmax_result h1
    split at h1
    · exact parseMinmaxPassive_result h1
    split at h1
    · exact parseLinear_result h1
    split at h1
    · exact parseHalfPlane_result h1
    split at h1
    · exact parseEllipsoid_result h1
    split at h1
    · exact parseEllipsoid_result h1
    · exact absurd h1 (by simp)
  · exact absurd h (by simp)

theorem lineStep_result {line : List Char} {L : List LimitRecord} (h : lineStep F sk pt [] line = some L) :
    L = [] ∨ LineResult sk pt L := by
  unfold lineStep at h
  split at h
  · obtain ⟨r, h1, h2⟩ := Option.map_eq_some_iff.mp h
    rw [List.nil_append] at h2
    subst h2
    exact Or.inr (parseLimitLine_result h1)
  · injection h with h
    exact Or.inl h.symm

theorem LineResult.inRange {L : List LimitRecord} (h : LineResult sk pt L) : ∀ l ∈ L, RecordInRange sk pt l := by
  cases h with
  | single l _ h => intro x hx; simp at hx; subst hx; exact h
  | linear r g w segs hr hg _ =>
    intro x hx
    obtain ⟨s, -, rfl⟩ := List.mem_map.mp hx
    exact ⟨hr, hg⟩

theorem lines_inRange (ls : List (List Char)) : ∀ L, ls.foldlM (lineStep F sk pt) [] = some L → ∀ l ∈ L, RecordInRange sk pt l := by
  induction ls with
  | nil => intro L h; injection h with h; subst h; simp
  | cons line ls ih =>
    intro L h
    rw [List.foldlM_cons, Option.bind_eq_bind] at h
    obtain ⟨r, h1, h2⟩ := Option.bind_eq_some_iff.mp h
    rw [lines_acc] at h2
    obtain ⟨q, h3, rfl⟩ := Option.map_eq_some_iff.mp h2
    intro l hl
    rcases List.mem_append.mp hl with hl | hl
    · rcases lineStep_result h1 with e | e
      · subst e; simp at hl
      · exact e.inRange l hl
    · exact ih q h3 l hl

theorem getLines_single {line : List Char} (h : '\n' ∉ line) (h0 : line ≠ []) : getLines line = [line] := by
  induction line with
  | nil => exact absurd rfl h0
  | cons c l ih =>
    have hc : c ≠ '\n' := fun e => h (by simp [e])
    show (if c = '\n' then [] :: getLines l else
      match getLines l with
      | [] => [[c]]
      | l :: ls => (c :: l) :: ls) = _
    rw [if_neg hc]
    by_cases hl : l = []
    · subst hl; rfl
    · rw [ih (fun hm => h (List.mem_cons_of_mem _ hm)) hl]

/-- The lines of two texts with a line break between them. -/
theorem getLines_append (a b : List Char) :
    (getLines (a ++ '\n' :: b) = getLines a ++ getLines b) ∨ (getLines (a ++ '\n' :: b) = getLines a ++ [] :: getLines b) := by
  induction a with
  | nil => right; simp [getLines]
  | cons c a ih =>
    have e : ∀ x, getLines (c :: x) = if c = '\n' then [] :: getLines x else
      match getLines x with
      | [] => [[c]]
      | l :: ls => (c :: l) :: ls := fun _ => rfl
    rw [List.cons_append, e, e]
    by_cases hc : c = '\n'
    · rw [if_pos hc, if_pos hc]
      rcases ih with h | h <;> rw [h]
      · left; rfl
      · right; rfl
    · rw [if_neg hc, if_neg hc]
      rcases ih with h | h
      · cases ha : getLines a with
        | nil =>
          cases a with
          | nil => simp [getLines] at h
          | cons d a =>
            have : getLines (d :: a) ≠ [] := by
              show (if d = '\n' then [] :: getLines a else
                match getLines a with
                | [] => [[d]]
                | l :: ls => (d :: l) :: ls) ≠ []
              split
              · simp
              · split <;> simp
            exact absurd ha this
        | cons l ls =>
          rw [h, ha]
          left; rfl
      · cases ha : getLines a with
        | nil => rw [h, ha]; left; rfl
        | cons l ls => rw [h, ha]; right; rfl

theorem lineStep_empty (pl : List LimitRecord) : lineStep F sk pt pl [] = some pl := rfl

theorem parse_append (a b : List Char) :
    parseParameterLimits F (a ++ '\n' :: b) sk pt =
      (parseParameterLimits F a sk pt).bind fun p => (parseParameterLimits F b sk pt).map fun q => p ++ q := by
  unfold parseParameterLimits
  rcases getLines_append a b with h | h <;> rw [h, List.foldlM_append, Option.bind_eq_bind] <;> congr 1 <;> funext p
  · exact lines_acc _ p
  · rw [List.foldlM_cons, lineStep_empty, Option.bind_eq_bind, Option.bind_some]
    exact lines_acc _ p

theorem toRad_toDeg (x : ℝ) : toRad (toDeg x) = x := by
  have := Real.pi_ne_zero
  unfold toRad toDeg
  field_simp

theorem writeLoop_linear_zero {decompose : Mat3 ℝ → Mat3 ℝ × Mat3 ℝ} {tol : ℝ} (r g : Nat) (s o a b w : ℝ) (h : a = 0 ∧ b = 0) :
    writeLoop F decompose tol sk pt none [.plain ⟨.linear r g s o a b, w⟩] =
      (parameterName pt r).bind fun x => (parameterName pt g).bind fun y =>
        some ("limit ".toList ++ x ++ " linear ".toList ++ y ++ ' ' :: vecToString F [s, o] ++ ' ' :: (F.print w ++ ['\n'])) := by
  rw [writeLoop, show goesOn none r g a = none from rfl]
  cases parameterName pt r <;> cases parameterName pt g <;> try rfl
  simp only [Option.bind_some]
  rw [if_pos h, writeLoop]
  simp [closeLinear]

theorem writeLoop_linear_one {decompose : Mat3 ℝ → Mat3 ℝ × Mat3 ℝ} {tol : ℝ} (r g : Nat) (s o a b w : ℝ) (h : ¬ (a = 0 ∧ b = 0)) :
    writeLoop F decompose tol sk pt none [.plain ⟨.linear r g s o a b, w⟩] =
      (parameterName pt r).bind fun x => (parameterName pt g).bind fun y =>
        some ("limit ".toList ++ x ++ " linear ".toList ++ y ++ segmentText F s o b ++ ' ' :: (F.print w ++ ['\n'])) := by
  rw [writeLoop, show goesOn none r g a = none from rfl]
  cases parameterName pt r <;> cases parameterName pt g <;> try rfl
  simp only [Option.bind_some]
  rw [if_neg h, writeLoop]
  simp [closeLinear]

end Momentum.LimitsText
