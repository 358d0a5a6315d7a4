import Verif.Spec.TrcText
import Verif.Lemmas.LineReader3
import Mathlib.Tactic.Ring

/-! Helper lemmas for C88. -/

namespace Momentum.TrcText

open TransformText (Blank pieces tokenize isWhite tokenize_skip tokenize_skips tokenize_none tokenize_cons pieces_none pieces_cons white_blank)
open LineReader

theorem IsWord.white {w : List Char} (h : IsWord w) : ∀ c ∈ w, isWhite c = false := by
  intro c hc
  have := h.2 c hc
  simp [isWhite, this.1, this.2.1, this.2.2.1, this.2.2.2]

theorem Words.tokens {ws : List (List Char)} {l : List Char} (h : Words ws l) : tokenize isWhite l = ws := by
  induction h with
  | @nil b hb =>
    have := tokenize_skips isWhite (white_blank hb) []
    rw [List.append_nil] at this
    rw [this]
    rfl
  | last ha hw => rw [tokenize_skips _ (white_blank ha), tokenize_none _ hw.white hw.1]
  | @cons a w b r ws ha hw hb h0 _ ih =>
    cases b with
    | nil => exact absurd rfl h0
    | cons c b =>
      have hcb := white_blank hb
      have e : a ++ w ++ c :: b ++ r = a ++ (w ++ c :: (b ++ r)) := by simp
      rw [e, tokenize_skips _ (white_blank ha), tokenize_cons _ _ hw.white (hcb c (by simp)) hw.1,
        tokenize_skips _ (fun x hx => hcb x (List.mem_cons_of_mem _ hx)), ih]

theorem containsText_of {text s : List Char} (h : ∃ p q, s = p ++ text ++ q) : containsText text s = true := by
  obtain ⟨p, q, rfl⟩ := h
  unfold containsText
  rw [List.any_eq_true]
  refine ⟨text ++ q, ?_, ?_⟩
  · rw [List.mem_tails]
    exact ⟨p, by simp⟩
  · rw [List.isPrefixOf_iff_prefix]
    exact ⟨q, rfl⟩

theorem containsText_not {text s : List Char} (h : ¬ ∃ p q, s = p ++ text ++ q) : containsText text s = false := by
  rw [Bool.eq_false_iff]
  intro hc
  unfold containsText at hc
  rw [List.any_eq_true] at hc
  obtain ⟨t, ht, hp⟩ := hc
  rw [List.mem_tails] at ht
  rw [List.isPrefixOf_iff_prefix] at hp
  obtain ⟨p, rfl⟩ := ht
  obtain ⟨q, rfl⟩ := hp
  exact h ⟨p, q, by simp⟩

theorem IsRow.pieces {line : List Char} {fields : List (List Char)} (h : IsRow line fields) :
    TransformText.pieces (· = '\t') line = fields := by
  obtain ⟨h0, ht, rfl⟩ := h
  induction fields with
  | nil => exact absurd rfl h0
  | cons f fs ih =>
    have hf : ∀ c ∈ f, (fun c => decide (c = '\t')) c = false := by
      intro c hc
      simp only [decide_eq_false_iff_not]
      rintro rfl
      exact ht f (by simp) hc
    cases fs with
    | nil =>
      rw [show List.intercalate ['\t'] [f] = f by simp [List.intercalate]]
      exact pieces_none _ hf
    | cons g gs =>
      have e : List.intercalate ['\t'] (f :: g :: gs) = f ++ '\t' :: List.intercalate ['\t'] (g :: gs) := by
        simp [List.intercalate]
      rw [e, pieces_cons _ _ hf (by simp), ih (by simp) fun x hx => ht x (List.mem_cons_of_mem _ hx)]

theorem IsRow.nil_length {fields : List (List Char)} (h : IsRow [] fields) : fields.length = 1 := by
  rw [← h.pieces]
  rfl

theorem toUnit_unknown {s : List Char} (h : ¬ IsUnitName s) : toUnit s = .unknown := by
  unfold IsUnitName at h
  simp only [List.mem_cons, List.not_mem_nil, or_false, not_or] at h
  obtain ⟨h1, h2, h3, h4, h5, h6, h7, h8⟩ := h
  unfold toUnit
  rw [if_neg (not_or.mpr ⟨h1, h2⟩), if_neg (not_or.mpr ⟨h3, h4⟩), if_neg (not_or.mpr ⟨h5, h6⟩), if_neg (not_or.mpr ⟨h7, h8⟩)]

section
variable {K : Type} [Field K]

theorem toMomentum_unknown (v : Vec3 K) (up : UpVector) : toMomentum v up .unknown = toMomentum v up .cm := rfl

theorem collect_ok {α : Type} {f : Nat → Outcome α} {is : List Nat} {as : List α} (h : List.Forall₂ (fun i a => f i = .ok a) is as) :
    collect f is = .ok as := by
  induction h with
  | nil => rfl
  | cons h _ ih => simp [collect, h, ih, Outcome.bind]

variable {stod : List Char → Option K} {up : UpVector} {names : List (List Char)}

theorem readMarker_ok {fields : List (List Char)} (hu : ∀ f, fields[4]? = some f → ¬ IsUnitName f) {i : Nat} {name a b c : List Char} {m : TrcMarker K}
    (hn : names[i]? = some name) (ha : fields[i * 3 + 2]? = some a) (hb : fields[i * 3 + 3]? = some b) (hc : fields[i * 3 + 4]? = some c)
    (h : MarkerOf stod up .cm name a b c m) : readMarker stod up names fields i = .ok m := by
  have h4 : ∃ u, fields[4]? = some u := by
    have h1 : i * 3 + 4 < fields.length := (List.getElem?_eq_some_iff.mp hc).1
    exact ⟨_, List.getElem?_eq_getElem (by omega)⟩
  obtain ⟨u, h4⟩ := h4
  unfold readMarker
  rw [hn, ha, hb, hc, h4]
  cases h with
  | occluded ho => exact if_pos ho
  | visible h1 h2 h3 hx hy hz =>
    refine (if_neg ?_).trans ?_
    · simp [h1, h2, h3]
    · rw [hx, hy, hz, toUnit_unknown (hu u h4)]
      rfl

theorem frameLine_frame {line : List Char} {fields : List (List Char)} {ms : List (TrcMarker K)} (hr : IsRow line fields)
    (hf : FrameOf stod up .cm names fields ms) (hu : ∀ f, fields[4]? = some f → ¬ IsUnitName f) (fs : List (List (TrcMarker K))) :
    frameLine stod up names.length names fs line = .ok (fs ++ [ms]) := by
  have h0 : line ≠ [] := by
    rintro rfl
    have := hr.nil_length
    have := hf.1
    omega
  have hp : allPieces (fun c => decide (c = '\t')) line = fields := by
    unfold allPieces
    rw [if_neg h0, hr.pieces]
  unfold frameLine
  dsimp only
  rw [hp, if_neg (by rw [hf.1]; push_cast; simp), Int.toNat_natCast, collect_ok (as := ms)]
  · rfl
  · rw [List.forall₂_iff_get]
    refine ⟨by simp [hf.2.1], ?_⟩
    intro i h1 h2
    have hi : i < names.length := by simpa using h1
    obtain ⟨a, b, c, m, ha, hb, hc, hm, h⟩ := hf.2.2 i _ (List.getElem?_eq_getElem hi)
    rw [List.get_eq_getElem, List.get_eq_getElem, List.getElem_range]
    have : ms[i] = m := by
      have := List.getElem?_eq_some_iff.mp hm
      exact this.2
    simp only [this]
    exact readMarker_ok hu (List.getElem?_eq_getElem hi) ha hb hc h

theorem frameLine_other {line : List Char} {fields : List (List Char)} (hr : IsRow line fields) (hl : fields.length ≠ names.length * 3 + 2)
    (fs : List (List (TrcMarker K))) : frameLine stod up names.length names fs line = .ok fs := by
  unfold frameLine
  dsimp only
  refine if_pos ?_
  unfold allPieces
  split
  · simp only [List.length_nil]
    push_cast
    omega
  · rw [hr.pieces]
    intro h
    exact hl (by exact_mod_cast h)

theorem frameLine_empty (n : Nat) (fs : List (List (TrcMarker K))) : frameLine stod up n names fs [] = .ok fs := by
  unfold frameLine
  refine if_pos ?_
  simp only [allPieces, if_true, List.length_nil]
  push_cast
  omega

theorem Frames.steps {ls : List (List Char)} {fs : List (List (TrcMarker K))} (h : Frames stod up .cm names ls fs) (acc : List (List (TrcMarker K))) :
    stepsOf (frameLine stod up names.length names) acc ls = .ok (acc ++ fs) := by
  induction h generalizing acc with
  | nil => simp [stepsOf]
  | frame hr hf hu _ ih =>
    unfold stepsOf
    rw [frameLine_frame hr hf hu]
    dsimp only
    rw [ih]
    simp
  | other hr hl _ ih =>
    unfold stepsOf
    rw [frameLine_other hr hl]
    exact ih acc

/-- After a right header the frames are read. -/
theorem loadTrc_header {stoi : List Char → Option Int} {unit : List Char} {fps : K} {h : Fin 5 → List Char} (hh : Header stod stoi unit fps names h)
    {ls : List (List Char)} {text rest : List Char} (hl : Lines (h 0 :: h 1 :: h 2 :: h 3 :: h 4 :: ls) text rest) :
    ∃ t, Lines ls t rest ∧ loadTrc stod stoi up text =
      thenStep (lineLoop (frameLine stod up names.length names) [] (Stream.ofText t)) fun fs => some (.ok ⟨fps, fs⟩) := by
  obtain ⟨t1, e1, l1⟩ := hl.getLine
  obtain ⟨t2, e2, l2⟩ := l1.getLine
  obtain ⟨t3, e3, l3⟩ := l2.getLine
  obtain ⟨t4, e4, l4⟩ := l3.getLine
  obtain ⟨t5, e5, l5⟩ := l4.getLine
  refine ⟨t5, l5, ?_⟩
  have hm : containsText trcMagic (h 0) = true := containsText_of hh.magic
  have hc : containsText trcColumns (h 1) = true := containsText_of hh.columns
  obtain ⟨rate, camera, frames, number, orate, ostart, oframes, hw, hfps, hn⟩ := hh.rates
  obtain ⟨a, b, hnames⟩ := hh.names
  unfold loadTrc
  dsimp only
  rw [e1, hm, if_neg (by simp)]
  dsimp only
  rw [e2, hc, if_neg (by simp)]
  unfold loadRates
  dsimp only
  rw [e3]
  dsimp only
  rw [hw.tokens]
  dsimp only
  rw [hfps, hn]
  dsimp only
  unfold loadFrames
  dsimp only
  rw [e4]
  dsimp only
  rw [hnames.tokens, if_neg (by simp only [List.length_cons, ne_eq, not_not]; push_cast; ring), e5]
  rfl

end

end Momentum.TrcText
