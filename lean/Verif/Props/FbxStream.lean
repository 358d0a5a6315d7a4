import Verif.Spec.FbxStream
import Mathlib.Tactic.Linarith

/-!
# C94: the memory stream of FBX files
-/

namespace Momentum.Fbx

/-- One read inside the file. -/
theorem read_inside (newSdk : Bool) (s : Stream) (small : (s.data.length : Int) < 2 ^ 63) (h0 : 0 ≤ s.position) (h1 : s.position ≤ s.data.length)
    (count : Int) (hc : 0 ≤ count) :
    read newSdk s count = if count ≤ s.data.length - s.position then
      .ok ({ s with position := s.position + count }, (s.data.drop s.position.toNat).take count.toNat) else .ok ({ s with error := some 1 }, []) := by
  have hr : (if newSdk then ((s.data.length : Int) - s.position) % 2 ^ 64 else (s.data.length : Int) - s.position) = s.data.length - s.position := by
    split
    · exact Int.emod_eq_of_lt (by omega) (by omega)
    · rfl
  unfold read
  dsimp only
  rw [hr]
  by_cases hle : count ≤ s.data.length - s.position
  · have h2 : ¬ count > s.data.length - s.position := by omega
    rw [if_neg h2, if_pos hle]
    by_cases hz : count = 0
    · subst hz
      simp
    · have h3 : ¬ (count < 0 ∨ s.position < 0 ∨ s.position + count > s.data.length) := by omega
      rw [if_neg hz, if_neg h3]
  · have h2 : count > s.data.length - s.position := by omega
    rw [if_pos h2, if_neg hle]

theorem step_inside (newSdk : Bool) (s : Stream) (small : (s.data.length : Int) < 2 ^ 63) (h0 : 0 ≤ s.position) (h1 : s.position ≤ s.data.length)
    (op : Op) (hc : ∀ count, op = .read count → 0 ≤ count) :
    ∃ s', step newSdk s op = .ok (s', bytesAt s.data s.position op) ∧ s'.data = s.data ∧ s'.position = moved s.data.length s.position op ∧
      (s'.error = if fails s.data.length s.position op then some 1 else match op with | .clearError => some 0 | _ => s.error) := by
  cases op with
  | openIt => exact ⟨_, rfl, rfl, rfl, rfl⟩
  | closeIt => exact ⟨_, rfl, rfl, rfl, rfl⟩
  | flush => exact ⟨_, rfl, rfl, rfl, rfl⟩
  | write count => exact ⟨_, rfl, rfl, rfl, rfl⟩
  | seek offset pos => cases pos <;> exact ⟨_, rfl, rfl, rfl, rfl⟩
  | setPosition p => exact ⟨_, rfl, rfl, rfl, rfl⟩
  | clearError => exact ⟨_, rfl, rfl, rfl, rfl⟩
  | read count =>
    rw [step, read_inside newSdk s small h0 h1 count (hc count rfl)]
    simp only [bytesAt, moved]
    by_cases hle : count ≤ s.data.length - s.position
    · rw [if_pos hle, if_pos hle, if_pos hle]
      refine ⟨_, rfl, rfl, rfl, ?_⟩
      have hf : ¬ fails s.data.length s.position (.read count) = true := by
        simp only [fails, decide_eq_true_eq]
        omega
      rw [if_neg hf]
    · rw [if_neg hle, if_neg hle, if_neg hle]
      refine ⟨_, rfl, rfl, rfl, ?_⟩
      have hf : fails s.data.length s.position (.read count) = true := by
        simp only [fails, decide_eq_true_eq]
        omega
      rw [if_pos hf]

/-- C94, partial: any history of calls on the stream that keeps the position inside the file gives for every read exactly the bytes of the file
at the position, or none if there are fewer left, and nothing outside the buffer is touched, with either SDK.  What is missing is that positions
outside are refused, see below. -/
theorem C94_history_partial (newSdk : Bool) (data : List UInt8) (small : (data.length : Int) < 2 ^ 63) (ops : List Op)
    (inside : Inside data.length 0 ops) :
    ∃ s, run newSdk ops (create data) = .ok (s, expected data 0 ops) ∧ s.data = data ∧ 0 ≤ s.position ∧ s.position ≤ data.length := by
  have key : ∀ (ops : List Op) (s : Stream), s.data = data → 0 ≤ s.position → s.position ≤ data.length → Inside data.length s.position ops →
      ∃ s', run newSdk ops s = .ok (s', expected data s.position ops) ∧ s'.data = data ∧ 0 ≤ s'.position ∧ s'.position ≤ data.length := by
    intro ops
    induction ops with
    | nil => intro s hd h0 h1 _; exact ⟨s, rfl, hd, h0, h1⟩
    | cons op ops ih =>
      intro s hd h0 h1 hin
      obtain ⟨hc, m0, m1, hrest⟩ := hin
      obtain ⟨t, t1, t2, t3, _⟩ := step_inside newSdk s (by rw [hd]; exact small) h0 (by rw [hd]; exact h1) op hc
      rw [hd] at t1 t2 t3
      obtain ⟨s', r1, r2⟩ := ih t t2 (by rw [t3]; exact m0) (by rw [t3]; exact m1) (by rw [t3]; exact hrest)
      refine ⟨s', ?_, r2⟩
      rw [run, t1]
      simp only [Outcome.bind]
      rw [r1, t3]
      rfl
  exact key ops (create data) rfl le_rfl (by simp [create]) inside

/-- Not vacuous: reads, a seek from the end, a read of too much, and a read after it. -/
example : Inside 5 0 [.openIt, .read 2, .seek 2 .fromEnd, .read 4, .read 1] ∧
    expected [1, 2, 3, 4, 5] 0 [.openIt, .read 2, .seek 2 .fromEnd, .read 4, .read 1] = [[], [1, 2], [], [], [4]] := by
  refine ⟨?_, by decide⟩
  simp [Inside, moved]

/-- C94. Reads alone, of whatever sizes, never fail badly: what they give together is the start of the file, up to the position, and a read that
gives nothing leaves the position. -/
theorem C94_reads (newSdk : Bool) (data : List UInt8) (small : (data.length : Int) < 2 ^ 63) (counts : List Nat) :
    ∃ s out, run newSdk (reads counts) (create data) = .ok (s, out) ∧ out.flatten = data.take s.position.toNat ∧ 0 ≤ s.position ∧
      s.position ≤ data.length ∧ out.length = counts.length ∧ ∀ (i : Nat) (o : List UInt8), out[i]? = some o → o = [] ∨ counts[i]? = some o.length := by
  have key : ∀ (counts : List Nat) (s : Stream), s.data = data → 0 ≤ s.position → s.position ≤ data.length →
      ∃ s' out, run newSdk (reads counts) s = .ok (s', out) ∧ data.take s.position.toNat ++ out.flatten = data.take s'.position.toNat ∧
        0 ≤ s'.position ∧ s'.position ≤ data.length ∧ out.length = counts.length ∧
        ∀ (i : Nat) (o : List UInt8), out[i]? = some o → o = [] ∨ counts[i]? = some o.length := by
    intro counts
    induction counts with
    | nil => intro s hd h0 h1; exact ⟨s, [], rfl, by simp, h0, h1, rfl, fun i o h => by simp at h⟩
    | cons c cs ih =>
      intro s hd h0 h1
      have hread := read_inside newSdk s (by rw [hd]; exact small) h0 (by rw [hd]; exact h1) c (by omega)
      rw [hd] at hread
      by_cases hle : (c : Int) ≤ data.length - s.position
      · rw [if_pos hle] at hread
        obtain ⟨s', out, r1, r2, r3, r4, r5, r6⟩ := ih { s with position := s.position + c, data := data } rfl (by dsimp only; omega)
          (by dsimp only; omega)
        dsimp only at r2
        refine ⟨s', (data.drop s.position.toNat).take c :: out, ?_, ?_, r3, r4, by simp [r5], ?_⟩
        · show run newSdk (.read c :: reads cs) s = _
          rw [run, step, hread]
          simp only [Outcome.bind]
          rw [r1]
          simp
        · rw [← r2, List.flatten_cons, ← List.append_assoc]
          congr 1
          rw [show (s.position + (c : Int)).toNat = s.position.toNat + c by omega, List.take_add]
        · intro i o hi
          cases i with
          | zero =>
            simp only [List.getElem?_cons_zero, Option.some.injEq] at hi ⊢
            right
            rw [← hi, List.length_take, List.length_drop]
            omega
          | succ i =>
            rw [List.getElem?_cons_succ] at hi ⊢
            exact r6 i o hi
      · rw [if_neg hle] at hread
        obtain ⟨s', out, r1, r2, r3, r4, r5, r6⟩ := ih { s with error := some 1, data := data } rfl h0 h1
        refine ⟨s', [] :: out, ?_, by simpa using r2, r3, r4, by simp [r5], ?_⟩
        · show run newSdk (.read c :: reads cs) s = _
          rw [run, step, hread]
          simp only [Outcome.bind]
          rw [r1]
        · intro i o hi
          cases i with
          | zero =>
            simp only [List.getElem?_cons_zero, Option.some.injEq] at hi
            exact Or.inl hi.symm
          | succ i =>
            rw [List.getElem?_cons_succ] at hi ⊢
            exact r6 i o hi
  obtain ⟨s, out, h1, h2, h3, h4, h5, h6⟩ := key counts (create data) rfl le_rfl (by simp [create])
  exact ⟨s, out, h1, by simpa [create] using h2, h3, h4, h5, h6⟩

/-- Not vacuous: three reads, the second of too much. -/
example : (run true (reads [2, 9, 3]) (create [1, 2, 3, 4, 5])) = .ok (⟨[1, 2, 3, 4, 5], 5, false, some 1⟩, [[1, 2], [], [3, 4, 5]]) := by
  decide +kernel

/-- C94. The error says whether a call has failed since it was last cleared, for calls that stay inside the file. -/
theorem C94_error (newSdk : Bool) (s s' : Stream) (out : List UInt8) (small : (s.data.length : Int) < 2 ^ 63) (h0 : 0 ≤ s.position)
    (h1 : s.position ≤ s.data.length) (op : Op) (hc : ∀ count, op = .read count → 0 ≤ count) (h : step newSdk s op = .ok (s', out)) :
    (fails s.data.length s.position op = true → s'.error = some 1) ∧ (op = .clearError → s'.error = some 0) ∧
    (fails s.data.length s.position op = false → op ≠ .clearError → s'.error = s.error) := by
  obtain ⟨t, t1, _, _, t4⟩ := step_inside newSdk s small h0 h1 op hc
  rw [h] at t1
  simp only [Outcome.ok.injEq, Prod.mk.injEq] at t1
  rw [t1.1]
  refine ⟨fun hf => by rw [t4, if_pos hf], fun ho => by subst ho; rw [t4]; rfl, fun hf ho => ?_⟩
  rw [t4, if_neg (by simp [hf])]
  cases op <;> simp_all

/-- C94 fails for a new stream: its error is not set, so that asking for it before the first failure gives an indeterminate value. -/
theorem C94_error_counterexample (newSdk : Bool) (data : List UInt8) (ops : List Op)
    (calm : ∀ op ∈ ops, (∃ n, op = .setPosition n) ∨ op = .openIt ∨ op = .flush ∨ op = .closeIt) :
    ∃ s out, run newSdk ops (create data) = .ok (s, out) ∧ s.error = none := by
  have key : ∀ (ops : List Op) (s : Stream), (∀ op ∈ ops, (∃ n, op = .setPosition n) ∨ op = .openIt ∨ op = .flush ∨ op = .closeIt) → s.error = none →
      ∃ s' out, run newSdk ops s = .ok (s', out) ∧ s'.error = none := by
    intro ops
    induction ops with
    | nil => intro s _ h; exact ⟨s, [], rfl, h⟩
    | cons op ops ih =>
      intro s hops h
      have h2 := hops op (by simp)
      have : ∃ t, step newSdk s op = .ok (t, []) ∧ t.error = none := by
        rcases h2 with ⟨n, rfl⟩ | rfl | rfl | rfl <;> exact ⟨_, rfl, h⟩
      obtain ⟨t, t1, t2⟩ := this
      obtain ⟨s', out, r1, r2⟩ := ih t (fun x hx => hops x (List.mem_cons_of_mem _ hx)) t2
      refine ⟨s', [] :: out, ?_, r2⟩
      rw [run, t1]
      simp only [Outcome.bind]
      rw [r1]
  exact key ops (create data) calm rfl

/-- C94 fails for positions outside the file.  Positions are not checked; with the new SDK a read behind the end of the file passes the check for every
size below 2^63, because what remains is converted to an unsigned number, while with the old one it is refused; with both a read before the start reads
outside of the buffer. -/
theorem C94_outside_counterexample (data : List UInt8) (small : (data.length : Int) < 2 ^ 62) :
    (∀ (past count : Int), 0 < past → past < 2 ^ 62 → 0 < count → count < 2 ^ 63 →
      run true [.openIt, .setPosition (data.length + past), .read count] (create data) = .ub ∧
      ∃ s, run false [.openIt, .setPosition (data.length + past), .read count] (create data) = .ok (s, [[], [], []]) ∧ s.error = some 1) ∧
    (∀ (newSdk : Bool), run newSdk [.openIt, .seek (-1) .begin, .read 1] (create data) = .ub) := by
  constructor
  · intro past count hp hp' hc hc'
    constructor
    · have hr : ((data.length : Int) - (data.length + past)) % 2 ^ 64 = 2 ^ 64 - past := by
        rw [show (data.length : Int) - (data.length + past) = (2 ^ 64 - past) + 2 ^ 64 * (-1) by ring, Int.add_mul_emod_self_left]
        exact Int.emod_eq_of_lt (by omega) (by omega)
      have h1 : ¬ count > 2 ^ 64 - past := by omega
      have h2 : count < 0 ∨ (data.length : Int) + past < 0 ∨ (data.length : Int) + past + count > data.length := by omega
      have h3 : ¬ count = 0 := by omega
      simp only [run, step, create, Outcome.bind, read, if_true, hr]
      rw [if_neg h1, if_neg h3, if_pos h2]
    · have h1 : count > (data.length : Int) - (data.length + past) := by omega
      simp only [run, step, create, Outcome.bind, read, Bool.false_eq_true, if_false]
      rw [if_pos h1]
      exact ⟨_, rfl, rfl⟩
  · intro newSdk
    have hr : (if newSdk then ((data.length : Int) - -1) % 2 ^ 64 else (data.length : Int) - -1) = data.length + 1 := by
      split
      · rw [Int.emod_eq_of_lt (by omega) (by omega)]
        omega
      · omega
    have h1 : ¬ (1 : Int) > data.length + 1 := by omega
    have h2 : (1 : Int) < 0 ∨ (-1 : Int) < 0 ∨ (-1 : Int) + 1 > data.length := by omega
    simp only [run, step, create, Outcome.bind, read, seek, hr]
    rw [if_neg h1, if_neg (by omega), if_pos h2]

/-- C94: a distance from the end is counted backwards, against the convention of `fseek`: a negative one, which means before the end there, goes behind
the end. -/
theorem C94_seek_end (newSdk : Bool) (s : Stream) (back : Nat) :
    (∃ t, step newSdk s (.seek back .fromEnd) = .ok (t, []) ∧ t.position = s.data.length - back) ∧
    (∃ t, step newSdk s (.seek (-(back : Int)) .fromEnd) = .ok (t, []) ∧ t.position = s.data.length + back) :=
  ⟨⟨_, rfl, rfl⟩, ⟨_, rfl, by simp [seek]⟩⟩

end Momentum.Fbx
