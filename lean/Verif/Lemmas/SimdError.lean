import Verif.Model.SimdError

/-!
# Threads on shared memory: disjoint cells, and undisturbed additions
-/

namespace Momentum
variable {α : Type} [DecidableEq α]

/-- The cells some assignments touch. -/
def cellsOf (ops : List (PacketOp α)) : List α := ops.flatMap fun op => op.cells.map (·.1)

omit [DecidableEq α] in
theorem mem_cellsOf {ops : List (PacketOp α)} {a : α} : a ∈ cellsOf ops ↔ ∃ op ∈ ops, a ∈ op.cells.map (·.1) := by
  simp [cellsOf]

theorem write_of_notMem (op : PacketOp α) (old : List ℝ) (mem : α → ℝ) (a : α) (h : a ∉ op.cells.map (·.1)) :
    op.write old mem a = mem a := by
  unfold PacketOp.write
  generalize hl : op.cells.zip old = l
  have hl' : ∀ c ∈ l, c.1.1 ≠ a := by
    intro c hc e
    rw [← hl] at hc
    exact h (List.mem_map.2 ⟨c.1, (List.of_mem_zip (a := c.1) (b := c.2) hc).1, e⟩)
  clear hl h
  induction l generalizing mem with
  | nil => rfl
  | cons c l ih =>
    rw [List.foldl_cons, ih _ fun c hc => hl' c (List.mem_cons_of_mem _ hc)]
    exact Function.update_of_ne (hl' c List.mem_cons_self).symm _ _

theorem write_congr (op : PacketOp α) (old : List ℝ) (mem mem' : α → ℝ) (a : α) (h : mem a = mem' a) :
    op.write old mem a = op.write old mem' a := by
  unfold PacketOp.write
  generalize op.cells.zip old = l
  induction l generalizing mem mem' with
  | nil => exact h
  | cons c l ih =>
    rw [List.foldl_cons, List.foldl_cons]
    apply ih
    by_cases e : a = c.1.1
    · subst e; simp
    · rw [Function.update_of_ne e, Function.update_of_ne e, h]

theorem execOps_append (l l' : List (PacketOp α)) (mem : α → ℝ) : execOps (l ++ l') mem = execOps l' (execOps l mem) := by
  simp [execOps, List.foldl_append]

theorem execOps_of_notMem (ops : List (PacketOp α)) (mem : α → ℝ) (a : α) (h : a ∉ cellsOf ops) :
    execOps ops mem a = mem a := by
  induction ops generalizing mem with
  | nil => rfl
  | cons op ops ih =>
    have h1 : a ∉ op.cells.map (·.1) := fun h1 => h (mem_cellsOf.2 ⟨op, by simp, h1⟩)
    have h2 : a ∉ cellsOf ops := fun h2 => by
      obtain ⟨o, ho, ha⟩ := mem_cellsOf.1 h2
      exact h (mem_cellsOf.2 ⟨o, by simp [ho], ha⟩)
    show execOps ops (op.exec mem) a = mem a
    rw [ih _ h2]
    exact write_of_notMem _ _ _ _ h1

/-- What an assignment with distinct cells does to one of them. -/
theorem exec_of_mem (op : PacketOp α) (mem : α → ℝ) (hn : (op.cells.map (·.1)).Nodup) (a : α) (x : ℝ) (h : (a, x) ∈ op.cells) :
    op.exec mem a = if op.load then mem a + x else x := by
  have key : ∀ (cells : List (α × ℝ)) (mem0 mem : α → ℝ), (cells.map (·.1)).Nodup → (a, x) ∈ cells →
      (cells.zip (cells.map fun c => mem0 c.1)).foldl (fun mem c => Function.update mem c.1.1
        (if op.load then c.2 + c.1.2 else c.1.2)) mem a = if op.load then mem0 a + x else x := by
    intro cells
    induction cells with
    | nil => intro _ _ _ h; simp at h
    | cons c cells ih =>
      intro mem0 mem hn h
      rw [List.map_cons, List.nodup_cons] at hn
      rw [List.map_cons, List.zip_cons_cons, List.foldl_cons]
      rcases List.mem_cons.1 h with h | h
      · subst h
        have hrest : ∀ (l : List (α × ℝ)) (m : α → ℝ), a ∉ l.map (·.1) →
            (l.zip (l.map fun c => mem0 c.1)).foldl (fun mem c => Function.update mem c.1.1
              (if op.load then c.2 + c.1.2 else c.1.2)) m a = m a := by
          intro l m hl
          exact write_of_notMem ⟨op.load, l⟩ _ m a hl
        rw [hrest cells _ hn.1]
        simp
      · exact ih mem0 _ hn.2 h
  exact key op.cells mem mem hn h

/-! ## Disjoint cells -/

/-- What holds for thread `i` while the threads run, on the cells `A` that no other thread touches. -/
structure Apart (tasks : List (List (PacketOp α))) (mem : α → ℝ) (i : Nat) (s : (α → ℝ) × List (Worker α)) : Prop where
  others : ∀ (j : Nat) (w : Worker α), s.2[j]? = some w → ∃ ops, tasks[j]? = some ops ∧ w.ops <:+ ops
  own : ∀ w : Worker α, s.2[i]? = some w → ∃ done, tasks[i]? = some (done ++ w.ops) ∧
    (∀ old, w.pending = some old → ∃ op rest, w.ops = op :: rest ∧ old = op.cells.map fun c => execOps done mem c.1) ∧
    ∀ a, (∀ (j : Nat) (ops : List (PacketOp α)), j ≠ i → tasks[j]? = some ops → a ∉ cellsOf ops) →
      s.1 a = execOps done mem a
  length : s.2.length = tasks.length

theorem Apart.step {tasks : List (List (PacketOp α))} {mem : α → ℝ} {i : Nat} {s : (α → ℝ) × List (Worker α)}
    (hd : ∀ (i j : Nat) (o o' : List (PacketOp α)), i ≠ j → tasks[i]? = some o → tasks[j]? = some o' →
      ∀ a ∈ cellsOf o, a ∉ cellsOf o')
    (h : Apart tasks mem i s) (t : Nat) : Apart tasks mem i (parStep s t) := by
  unfold parStep
  cases hw : s.2[t]? with
  | none => exact h
  | some w =>
    simp only
    cases ho : w.ops with
    | nil => exact h
    | cons op rest =>
      have htl := (List.getElem?_eq_some_iff.1 hw).1
      obtain ⟨ops, hops, hsuf⟩ := h.others t w hw
      cases hp : w.pending with
      | none =>
        simp only
        refine ⟨?_, ?_, by simpa using h.length⟩
        · intro j w' hj
          rw [List.getElem?_set] at hj
          split at hj
          · next e =>
            subst e
            cases hj
            exact ⟨ops, hops, by simpa [ho] using hsuf⟩
          · exact h.others j w' hj
        · intro w' hj
          rw [List.getElem?_set] at hj
          split at hj
          · next e =>
            subst e
            cases hj
            obtain ⟨done, d1, d2, d3⟩ := h.own w hw
            refine ⟨done, by simpa [ho] using d1, ?_, d3⟩
            intro old hold
            refine ⟨op, rest, rfl, ?_⟩
            simp only [Option.some.injEq] at hold
            rw [← hold]
            refine List.map_congr_left fun c hc => d3 c.1 ?_
            intro j ops' hj hops'
            refine hd t j _ _ (Ne.symm hj) d1 hops' c.1 (mem_cellsOf.2 ⟨op, ?_, List.mem_map.2 ⟨c, hc, rfl⟩⟩)
            simp [ho]
          · exact h.own w' hj
      | some old =>
        simp only
        refine ⟨?_, ?_, by simpa using h.length⟩
        · intro j w' hj
          rw [List.getElem?_set] at hj
          split at hj
          · next e =>
            subst e
            cases hj
            refine ⟨ops, hops, ?_⟩
            rw [ho] at hsuf
            exact (List.suffix_cons op rest).trans hsuf
          · exact h.others j w' hj
        · intro w' hj
          rw [List.getElem?_set] at hj
          split at hj
          · next e =>
            subst e
            cases hj
            obtain ⟨done, d1, d2, d3⟩ := h.own w hw
            obtain ⟨op', rest', e1, e2⟩ := d2 old hp
            rw [ho] at e1
            obtain ⟨rfl, rfl⟩ := List.cons.inj e1
            refine ⟨done ++ [op], by rw [d1, ho]; simp, by simp, ?_⟩
            intro a ha
            rw [execOps_append]
            show op.write old s.1 a = op.exec (execOps done mem) a
            rw [e2]
            exact write_congr _ _ _ _ _ (d3 a ha)
          · next e =>
            obtain ⟨done, d1, d2, d3⟩ := h.own w' hj
            refine ⟨done, d1, d2, ?_⟩
            intro a ha
            simp only
            rw [write_of_notMem]
            · exact d3 a ha
            · intro hmem
              refine ha t ops e hops (mem_cellsOf.2 ⟨op, hsuf.subset ?_, hmem⟩)
              rw [ho]; simp

/-- Threads that touch different cells: whatever the schedule, a cell ends up with what its own thread makes of it. -/
theorem parRun_disjoint {tasks : List (List (PacketOp α))} {mem mem' : α → ℝ} {schedule : List Nat}
    (hd : ∀ (i j : Nat) (o o' : List (PacketOp α)), i ≠ j → tasks[i]? = some o → tasks[j]? = some o' →
      ∀ a ∈ cellsOf o, a ∉ cellsOf o')
    (h : parRun tasks schedule mem = some mem') (i : Nat) (ops : List (PacketOp α)) (hi : tasks[i]? = some ops) (a : α)
    (ha : ∀ (j : Nat) (o : List (PacketOp α)), j ≠ i → tasks[j]? = some o → a ∉ cellsOf o) : mem' a = execOps ops mem a := by
  have h0 : Apart tasks mem i (mem, tasks.map fun ops => (⟨ops, none⟩ : Worker α)) := by
    refine ⟨?_, ?_, by simp⟩
    · intro j w hj
      rw [List.getElem?_map] at hj
      cases ht : tasks[j]? with
      | none => rw [ht] at hj; cases hj
      | some o => rw [ht] at hj; cases hj; exact ⟨o, rfl, List.suffix_refl _⟩
    · intro w hj
      rw [List.getElem?_map, hi] at hj
      cases hj
      exact ⟨[], by simpa using hi, by simp, fun a _ => rfl⟩
  have hrun : ∀ (l : List Nat) s, Apart tasks mem i s → Apart tasks mem i (l.foldl parStep s) := by
    intro l
    induction l with
    | nil => exact fun _ h => h
    | cons t l ih => exact fun s h => ih _ (h.step hd t)
  have h1 := hrun schedule _ h0
  unfold parRun at h
  simp only at h
  split at h
  swap
  · cases h
  next hall =>
  have e := Option.some.inj h
  subst e
  have hl : i < (schedule.foldl parStep (mem, tasks.map fun ops => (⟨ops, none⟩ : Worker α))).2.length := by
    rw [h1.length]; exact (List.getElem?_eq_some_iff.1 hi).1
  obtain ⟨done, d1, -, d3⟩ := h1.own _ (List.getElem?_eq_getElem hl)
  have hemp := List.all_eq_true.1 hall _ (List.getElem_mem hl)
  rw [List.isEmpty_iff] at hemp
  rw [hemp, List.append_nil, hi] at d1
  cases d1
  exact d3 a ha

/-- A cell that no thread touches. -/
theorem parRun_untouched {tasks : List (List (PacketOp α))} {mem mem' : α → ℝ} {schedule : List Nat}
    (h : parRun tasks schedule mem = some mem') (a : α)
    (ha : ∀ (j : Nat) (o : List (PacketOp α)), tasks[j]? = some o → a ∉ cellsOf o) : mem' a = mem a := by
  have hrun : ∀ (l : List Nat) (s : (α → ℝ) × List (Worker α)),
      (∀ (j : Nat) (w : Worker α), s.2[j]? = some w → a ∉ cellsOf w.ops) →
      (l.foldl parStep s).1 a = s.1 a := by
    intro l
    induction l with
    | nil => intro s _; rfl
    | cons t l ih =>
      intro s hs
      rw [List.foldl_cons]
      have hstep : (parStep s t).1 a = s.1 a ∧
          ∀ (j : Nat) (w : Worker α), (parStep s t).2[j]? = some w → a ∉ cellsOf w.ops := by
        unfold parStep
        cases hw : s.2[t]? with
        | none => exact ⟨rfl, hs⟩
        | some w =>
          simp only
          cases ho : w.ops with
          | nil => exact ⟨rfl, hs⟩
          | cons op rest =>
            have ht := hs t w hw
            have htl := (List.getElem?_eq_some_iff.1 hw).1
            cases hp : w.pending with
            | none =>
              simp only
              refine ⟨by trivial, ?_⟩
              intro j w' hj
              rw [List.getElem?_set] at hj
              split at hj
              · next e => subst e; cases hj; rw [ho] at ht; exact ht
              · exact hs j w' hj
            | some old =>
              simp only
              refine ⟨write_of_notMem _ _ _ _ fun hm => ht (mem_cellsOf.2 ⟨op, by simp [ho], hm⟩), ?_⟩
              intro j w' hj
              rw [List.getElem?_set] at hj
              split at hj
              · next e =>
                subst e
                cases hj
                intro hm
                obtain ⟨o, ho', hm⟩ := mem_cellsOf.1 hm
                exact ht (mem_cellsOf.2 ⟨o, by rw [ho]; simp [ho'], hm⟩)
              · exact hs j w' hj
      rw [ih _ hstep.2, hstep.1]
  unfold parRun at h
  simp only at h
  split at h
  swap
  · cases h
  have e := Option.some.inj h
  rw [← e, hrun]
  intro j w hj
  rw [List.getElem?_map] at hj
  cases ht : tasks[j]? with
  | none => rw [ht] at hj; cases hj
  | some o => rw [ht] at hj; cases hj; exact ha j o ht

/-! ## Additions to single cells -/

/-- `cell += x`. -/
def PacketOp.Adds (op : PacketOp α) : Prop := op.load = true ∧ ∃ c, op.cells = [c]

/-- What an assignment adds to cell `a`. -/
def PacketOp.added (op : PacketOp α) (a : α) : ℝ := (op.cells.map fun c => if c.1 = a then c.2 else 0).sum

/-- What some assignments add to cell `a`. -/
def addedBy (ops : List (PacketOp α)) (a : α) : ℝ := (ops.map fun op => op.added a).sum

theorem exec_adds {op : PacketOp α} (h : op.Adds) (mem : α → ℝ) (a : α) : op.exec mem a = mem a + op.added a := by
  obtain ⟨h1, c, h2⟩ := h
  by_cases e : c.1 = a
  · rw [exec_of_mem op mem (by rw [h2]; simp) a c.2 (by rw [h2, ← e]; simp), if_pos h1]
    simp [PacketOp.added, h2, e]
  · rw [show op.exec mem a = mem a from write_of_notMem _ _ _ _ (by rw [h2]; simpa using Ne.symm e)]
    simp [PacketOp.added, h2, e]

theorem execOps_adds {ops : List (PacketOp α)} (h : ∀ op ∈ ops, op.Adds) (mem : α → ℝ) (a : α) :
    execOps ops mem a = mem a + addedBy ops a := by
  induction ops generalizing mem with
  | nil => simp [execOps, addedBy]
  | cons op ops ih =>
    show execOps ops (op.exec mem) a = _
    rw [ih (fun o ho => h o (List.mem_cons_of_mem _ ho)), exec_adds (h op List.mem_cons_self)]
    simp only [addedBy, List.map_cons, List.sum_cons]; ring

theorem addedBy_append (l l' : List (PacketOp α)) (a : α) : addedBy (l ++ l') a = addedBy l a + addedBy l' a := by
  simp [addedBy]

theorem addedBy_flatMap {β : Type} (l : List β) (f : β → List (PacketOp α)) (a : α) :
    addedBy (l.flatMap f) a = (l.map fun x => addedBy (f x) a).sum := by
  induction l with
  | nil => simp [addedBy]
  | cons x l ih => rw [List.flatMap_cons, addedBy_append, ih, List.map_cons, List.sum_cons]

theorem sum_set_replace {β : Type} (l : List β) (f : β → ℝ) (t : Nat) (x y : β) (h : l[t]? = some x) :
    ((l.set t y).map f).sum = (l.map f).sum - f x + f y := by
  induction l generalizing t with
  | nil => simp at h
  | cons z l ih =>
    cases t with
    | zero => simp only [List.getElem?_cons_zero, Option.some.injEq] at h; subst h; simp; ring
    | succ t =>
      rw [List.getElem?_cons_succ] at h
      rw [List.set_cons_succ, List.map_cons, List.sum_cons, ih t h, List.map_cons, List.sum_cons]; ring

/-- When every `+=` is carried out undisturbed, the cells receive all additions, in whatever order. -/
theorem parRun_atomic {tasks : List (List (PacketOp α))} {mem mem' : α → ℝ} (order : List Nat)
    (hadd : ∀ ops ∈ tasks, ∀ op ∈ ops, op.Adds)
    (h : parRun tasks (order.flatMap fun t => [t, t]) mem = some mem') (a : α) :
    mem' a = mem a + (tasks.map fun ops => addedBy ops a).sum := by
  have hrun : ∀ (l : List Nat) (s : (α → ℝ) × List (Worker α)),
      (∀ w ∈ s.2, w.pending = none ∧ ∀ op ∈ w.ops, op.Adds) →
      (∀ w ∈ ((l.flatMap fun t => [t, t]).foldl parStep s).2, w.pending = none ∧ ∀ op ∈ w.ops, op.Adds) ∧
      ((l.flatMap fun t => [t, t]).foldl parStep s).1 a +
        (((l.flatMap fun t => [t, t]).foldl parStep s).2.map fun w => addedBy w.ops a).sum =
        s.1 a + (s.2.map fun w => addedBy w.ops a).sum := by
    intro l
    induction l with
    | nil => exact fun s hs => ⟨hs, rfl⟩
    | cons t l ih =>
      intro s hs
      rw [List.flatMap_cons, List.cons_append, List.cons_append, List.nil_append, List.foldl_cons, List.foldl_cons]
      have hstep : (∀ w ∈ (parStep (parStep s t) t).2, w.pending = none ∧ ∀ op ∈ w.ops, op.Adds) ∧
          (parStep (parStep s t) t).1 a + ((parStep (parStep s t) t).2.map fun w => addedBy w.ops a).sum =
            s.1 a + (s.2.map fun w => addedBy w.ops a).sum := by
        cases hw : s.2[t]? with
        | none =>
          have : parStep s t = s := by unfold parStep; rw [hw]
          rw [this, this]; exact ⟨hs, rfl⟩
        | some w =>
          obtain ⟨hp, hops⟩ := hs w (List.mem_of_getElem? hw)
          have htl := (List.getElem?_eq_some_iff.1 hw).1
          cases ho : w.ops with
          | nil =>
            have : parStep s t = s := by unfold parStep; rw [hw]; simp only [ho]
            rw [this, this]; exact ⟨hs, rfl⟩
          | cons op rest =>
            have e1 : parStep s t = (s.1, s.2.set t { w with pending := some (op.cells.map fun c => s.1 c.1) }) := by
              unfold parStep; rw [hw]; simp only [ho, hp]
            have e2 : parStep (parStep s t) t = (op.exec s.1, s.2.set t ⟨rest, none⟩) := by
              rw [e1]
              unfold parStep
              simp only [List.getElem?_set_self htl, ho, List.set_set]
              rfl
            rw [e2]
            constructor
            · intro w' hw'
              rcases List.mem_or_eq_of_mem_set hw' with h | h
              · exact hs w' h
              · subst h
                exact ⟨rfl, fun o ho' => hops o (by rw [ho]; exact List.mem_cons_of_mem _ ho')⟩
            · simp only
              rw [sum_set_replace _ _ _ w _ hw, exec_adds (hops op (by rw [ho]; simp)), ho]
              simp only [addedBy, List.map_cons, List.sum_cons]; ring
      obtain ⟨i1, i2⟩ := ih _ hstep.1
      exact ⟨i1, i2.trans hstep.2⟩
  obtain ⟨-, h2⟩ := hrun order (mem, tasks.map fun ops => (⟨ops, none⟩ : Worker α)) (by
    intro w hw
    obtain ⟨ops, ho, rfl⟩ := List.mem_map.1 hw
    exact ⟨rfl, hadd ops ho⟩)
  unfold parRun at h
  simp only at h
  split at h
  swap
  · cases h
  next hall =>
  have e := Option.some.inj h
  rw [← e]
  have hz : (((order.flatMap fun t => [t, t]).foldl parStep
      (mem, tasks.map fun ops => (⟨ops, none⟩ : Worker α))).2.map fun w => addedBy w.ops a).sum = 0 := by
    apply List.sum_eq_zero
    intro x hx
    obtain ⟨w, hw, rfl⟩ := List.mem_map.1 hx
    have := List.all_eq_true.1 hall w hw
    rw [List.isEmpty_iff] at this
    rw [this]; rfl
  rw [hz, add_zero] at h2
  rw [h2, List.map_map]; rfl

end Momentum
