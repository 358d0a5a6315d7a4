import Verif.Spec.TensorCheck
import Mathlib.Data.List.Forall2

/-!
# C98: the sizes of tensors that belong together
-/

namespace Momentum.TensorCheck

/-- What was bound stays. -/
def Keeps (c c' : Checker) : Prop := (∀ b, c.batch = some b → c'.batch = some b) ∧ ∀ e n, c.bound e = some n → c'.bound e = some n

theorem Matches.keeps {c c' : Checker} (h : Keeps c c') {es : List Int} {ds : List Nat} (hm : List.Forall₂ (Matches c.bound) es ds) :
    List.Forall₂ (Matches c'.bound) es ds :=
  hm.imp fun e n hen => ⟨fun he => h.2 e n (hen.1 he), hen.2⟩

theorem dims_ok : ∀ (es : List Int) (ns : List Nat) (bound bound' : Int → Option Nat), es.length = ns.length → dims bound es ns = .ok bound' →
    (∀ e n, bound e = some n → bound' e = some n) ∧ List.Forall₂ (Matches bound') es ns
  | [], [], bound, bound', _, h => by
    simp only [dims, Outcome.ok.injEq] at h
    subst h
    exact ⟨fun _ _ h => h, .nil⟩
  | [], _ :: _, _, _, hl, _ => by simp at hl
  | _ :: _, [], _, _, hl, _ => by simp at hl
  | e :: es, n :: ns, bound, bound', hl, h => by
    have hl' : es.length = ns.length := by simpa using hl
    rw [dims] at h
    split at h
    · rename_i he
      cases hb : bound e with
      | none =>
        rw [hb] at h
        obtain ⟨h1, h2⟩ := dims_ok es ns _ bound' hl' h
        have he' : bound' e = some n := h1 e n (by simp [bind])
        refine ⟨?_, .cons ⟨fun _ => he', fun h0 => by omega⟩ h2⟩
        intro x m hx
        refine h1 x m ?_
        have : x ≠ e := by
          rintro rfl
          rw [hb] at hx
          simp at hx
        simp [bind, this, hx]
      | some b =>
        rw [hb] at h
        dsimp only at h
        split at h
        · simp at h
        rename_i hn
        have hn' : n = b := by simpa using hn
        subst hn'
        obtain ⟨h1, h2⟩ := dims_ok es ns _ bound' hl' h
        exact ⟨h1, .cons ⟨fun _ => h1 e n hb, fun h0 => by omega⟩ h2⟩
    · rename_i he
      split at h
      · simp at h
      rename_i hn
      obtain ⟨h1, h2⟩ := dims_ok es ns _ bound' hl' h
      exact ⟨h1, .cons ⟨fun h0 => absurd h0 he, fun _ => by simpa using hn⟩ h2⟩

theorem batched_ok {c : Checker} {r : Request} {b : Nat × List Nat × Bool} (h : batched c r = .ok b) :
    ∃ ds, b.2.1 = b.1 :: ds ∧ r.expected.length = ds.length ∧ (∀ x, c.batch = some x → b.1 = x) ∧
      ((r.sizes = b.1 :: ds ∧ b.2.2 = false) ∨ (r.allowUnbatched = true ∧ r.sizes = ds ∧ b.2.2 = true ∧ b.1 = c.batch.getD 1)) := by
  unfold batched at h
  split at h
  · rename_i hl
    split at h
    · simp at h
    rename_i ha
    simp only [Outcome.ok.injEq] at h
    subst h
    exact ⟨r.sizes, rfl, hl.symm, fun x hx => by simp [hx], Or.inr ⟨by simpa using ha, rfl, rfl, rfl⟩⟩
  · split at h
    · rename_i hl
      split at h
      · simp at h
      · rename_i n ns hs hb
        simp only [Outcome.ok.injEq] at h
        subst h
        rw [hs] at hl
        exact ⟨ns, rfl, by simpa using hl.symm, fun x hx => by simp [hb] at hx, Or.inl ⟨hs, rfl⟩⟩
      · rename_i n ns b' hs hb
        split at h
        · simp at h
        rename_i hn
        have hn' : n = b' := by simpa using hn
        subst hn'
        simp only [Outcome.ok.injEq] at h
        subst h
        rw [hs] at hl
        exact ⟨ns, rfl, by simpa using hl.symm, fun x hx => by rw [hb] at hx; simpa using hx, Or.inl ⟨hs, rfl⟩⟩
    · simp at h

/-- What one call does. -/
theorem check_ok (c : Checker) (r : Request) : Keeps c (check c r).1 ∧ (check c r).2 ≠ .ub ∧ ((check c r).2 = .throws → (check c r).1 = c) ∧
    ∀ o, (check c r).2 = .ok o →
      (0 ∈ r.sizes ∧ r.allowEmpty = true ∧ o = ⟨r.sizes, none⟩ ∧ (check c r).1 = c) ∨
      (0 ∉ r.sizes ∧ ∃ size ds, (check c r).1.batch = some size ∧ o.sizes = size :: ds ∧ List.Forall₂ (Matches (check c r).1.bound) r.expected ds ∧
        ((r.sizes = size :: ds ∧ o.squeeze = some false) ∨ (r.allowUnbatched = true ∧ r.sizes = ds ∧ o.squeeze = some true))) := by
  have hdub : ∀ (es : List Int) (ns : List Nat) (bound : Int → Option Nat), dims bound es ns ≠ .ub := by
    intro es
    induction es with
    | nil => intro ns bound; simp [dims]
    | cons e es ih =>
      intro ns bound
      cases ns with
      | nil => simp [dims]
      | cons n ns =>
        rw [dims]
        split
        · split
          · exact ih _ _
          · split
            · simp
            · exact ih _ _
        · split
          · simp
          · exact ih _ _
  have hbub : batched c r ≠ .ub := by
    unfold batched
    split
    · split <;> simp
    · split
      · split
        · simp
        · simp
        · split <;> simp
      · simp
  have hk : Keeps c c := ⟨fun _ h => h, fun _ _ h => h⟩
  unfold check
  by_cases h0 : 0 ∈ r.sizes
  · rw [if_pos h0]
    cases ha : r.allowEmpty with
    | false => exact ⟨hk, by simp, by simp, by simp⟩
    | true =>
      refine ⟨hk, by simp, by simp, ?_⟩
      intro o ho
      simp only [if_true, Outcome.ok.injEq] at ho
      exact Or.inl ⟨h0, rfl, ho.symm, rfl⟩
  · rw [if_neg h0]
    cases hb : batched c r with
    | ub => exact absurd hb hbub
    | throws => exact ⟨hk, by simp, by simp, by simp⟩
    | ok b =>
      dsimp only
      cases hd : dims c.bound r.expected b.2.1.tail with
      | ub => exact absurd hd (hdub _ _ _)
      | throws => exact ⟨hk, by simp, by simp, by simp⟩
      | ok bound =>
        obtain ⟨ds, h1, h2, h3, h4⟩ := batched_ok hb
        rw [h1, List.tail_cons] at hd
        obtain ⟨d1, d2⟩ := dims_ok _ _ _ _ h2 hd
        refine ⟨⟨fun x hx => by rw [← h3 x hx], d1⟩, by simp, by simp, ?_⟩
        intro o ho
        simp only [Outcome.ok.injEq] at ho
        subst ho
        refine Or.inr ⟨h0, b.1, ds, rfl, h1, d2, ?_⟩
        rcases h4 with ⟨h5, h6⟩ | ⟨h5, h6, h7, _⟩
        · exact Or.inl ⟨h5, by simp [h6]⟩
        · exact Or.inr ⟨h5, h6, by simp [h7]⟩

theorem Keeps.trans {a b c : Checker} (h : Keeps a b) (h' : Keeps b c) : Keeps a c :=
  ⟨fun x hx => h'.1 x (h.1 x hx), fun e n hn => h'.2 e n (h.2 e n hn)⟩

theorem run_keeps : ∀ (rs : List Request) (c : Checker), Keeps c (run c rs).1
  | [], c => ⟨fun _ h => h, fun _ _ h => h⟩
  | r :: rs, c => (check_ok c r).1.trans (run_keeps rs _)

/-- **C98** (together). Whatever tensors were given to a checker, and whatever errors there were in between: all those with elements that passed have the size of
the batch and the values of the variables that the checker has in the end, the batch added where it was missing. -/
theorem C98_together : ∀ (rs : List Request) (c : Checker) (i : Nat) (r : Request) (o : Checked), rs[i]? = some r → (run c rs).2[i]? = some (.ok o) →
    0 ∉ r.sizes → ∃ size ds, (run c rs).1.batch = some size ∧ o.sizes = size :: ds ∧ List.Forall₂ (Matches (run c rs).1.bound) r.expected ds ∧
      ((r.sizes = size :: ds ∧ o.squeeze = some false) ∨ (r.allowUnbatched = true ∧ r.sizes = ds ∧ o.squeeze = some true))
  | [], c, i, r, o, hr, _, _ => by simp at hr
  | q :: rs, c, i, r, o, hr, ho, h0 => by
    cases i with
    | succ i => exact C98_together rs (check c q).1 i r o (by simpa using hr) (by simpa [run] using ho) h0
    | zero =>
      simp only [List.getElem?_cons_zero, Option.some.injEq] at hr
      subst hr
      simp only [run, List.getElem?_cons_zero, Option.some.injEq] at ho
      rcases (check_ok c q).2.2.2 o ho with ⟨h1, _⟩ | ⟨_, size, ds, h1, h2, h3, h4⟩
      · exact absurd h1 h0
      · have hk := run_keeps rs (check c q).1
        exact ⟨size, ds, hk.1 _ h1, h2, Matches.keeps hk h3, h4⟩

/-- **C98** (alone). A tensor without elements passes only where that is allowed, unchanged, and binds nothing; after an error the checker is as before. -/
theorem C98_unchanged (c : Checker) (r : Request) :
    (check c r).2 ≠ .ub ∧ ((check c r).2 = .throws → (check c r).1 = c) ∧
    (0 ∈ r.sizes → (check c r).1 = c ∧ (check c r).2 = if r.allowEmpty then .ok ⟨r.sizes, none⟩ else .throws) := by
  obtain ⟨_, h2, h3, _⟩ := check_ok c r
  refine ⟨h2, h3, fun h0 => ?_⟩
  unfold check
  rw [if_pos h0]
  exact ⟨rfl, rfl⟩

theorem dims_accepts {value : Int → Nat} : ∀ (es : List Int) (ns : List Nat) (bound : Int → Option Nat), (∀ e n, bound e = some n → n = value e) →
    List.Forall₂ (Matches fun e => some (value e)) es ns → ∃ bound', dims bound es ns = .ok bound' ∧ ∀ e n, bound' e = some n → n = value e
  | [], _, bound, hb, _ => ⟨bound, by simp [dims], hb⟩
  | e :: es, [], bound, _, h => by cases h
  | e :: es, n :: ns, bound, hb, h => by
    obtain ⟨h1, h2⟩ := List.forall₂_cons.mp h
    rw [dims]
    split
    · rename_i he
      have hv : value e = n := by simpa using h1.1 he
      cases hbe : bound e with
      | none =>
        refine dims_accepts es ns _ ?_ h2
        intro x m hx
        unfold bind at hx
        split at hx
        · rename_i hxe
          subst hxe
          simp only [Option.some.injEq] at hx
          omega
        · exact hb x m hx
      | some b =>
        have := hb e b hbe
        dsimp only
        rw [if_neg (by simp; omega)]
        exact dims_accepts es ns _ hb h2
    · rename_i he
      rw [if_neg (by simpa using h1.2 (by omega))]
      exact dims_accepts es ns _ hb h2

/-- The checker is right so far. -/
def Checker.Right (c : Checker) (size : Nat) (value : Int → Nat) : Prop := (∀ b, c.batch = some b → b = size) ∧ ∀ e n, c.bound e = some n → n = value e

theorem check_accepts {c : Checker} {r : Request} {size : Nat} {value : Int → Nat} (hc : c.Right size value) (hr : r.Right size value)
    (hb : c.batch = none → size = 1 ∨ r.sizes.length = r.expected.length + 1) :
    (∃ o, (check c r).2 = .ok o) ∧ (check c r).1.Right size value ∧ (check c r).1.batch = some size := by
  obtain ⟨h0, ds, hm, hs⟩ := hr
  have hlen := hm.length_eq
  have hbat : ∃ sq, batched c r = .ok (size, size :: ds, sq) := by
    unfold batched
    rcases hs with hs | ⟨ha, hs⟩
    · rw [if_neg (by rw [hs, hlen]; simp), if_pos (by rw [hs, hlen]; simp), hs]
      cases hcb : c.batch with
      | none => exact ⟨false, rfl⟩
      | some b =>
        have := hc.1 b hcb
        subst this
        exact ⟨false, by simp⟩
    · rw [if_pos (by rw [hs, hlen]), if_neg (by simp [ha]), hs]
      cases hcb : c.batch with
      | none =>
        rcases hb hcb with h1 | h1
        · subst h1
          exact ⟨true, rfl⟩
        · rw [hs, hlen] at h1
          omega
      | some b =>
        have := hc.1 b hcb
        subst this
        exact ⟨true, rfl⟩
  obtain ⟨sq, hbat⟩ := hbat
  obtain ⟨bound', hd, hv⟩ := dims_accepts r.expected ds c.bound hc.2 hm
  unfold check
  rw [if_neg h0, hbat]
  dsimp only [List.tail_cons]
  rw [hd]
  exact ⟨⟨_, rfl⟩, ⟨by simp, hv⟩, rfl⟩

/-- **C98** (accepted). Tensors whose sizes do belong together all pass, in any number, if the first of them has a batch or the batch has size one.  What is
missing: a first tensor without a batch, see `C98_order_counterexample`. -/
theorem C98_accepted_partial {size : Nat} {value : Int → Nat} (r : Request) (rs : List Request) (hr : ∀ q ∈ r :: rs, q.Right size value)
    (h1 : size = 1 ∨ r.sizes.length = r.expected.length + 1) : ∀ x ∈ (run .new (r :: rs)).2, ∃ o, x = .ok o := by
  have key : ∀ (rs : List Request) (c : Checker), c.Right size value → c.batch = some size → (∀ q ∈ rs, q.Right size value) →
      ∀ x ∈ (run c rs).2, ∃ o, x = .ok o := by
    intro rs
    induction rs with
    | nil => intro c _ _ _; simp [run]
    | cons q rs ih =>
      intro c hc hcb hq x hx
      obtain ⟨⟨o, ho⟩, h2, h3⟩ := check_accepts hc (hq q (by simp)) (by simp [hcb])
      simp only [run, List.mem_cons] at hx
      rcases hx with rfl | hx
      · exact ⟨o, ho⟩
      · exact ih _ h2 h3 (fun q' hq' => hq q' (List.mem_cons_of_mem _ hq')) x hx
  obtain ⟨⟨o, ho⟩, h2, h3⟩ := check_accepts (c := .new) (size := size) (value := value) ⟨by simp [Checker.new], by simp [Checker.new]⟩ (hr r (by simp))
    (fun _ => h1)
  intro x hx
  simp only [run, List.mem_cons] at hx
  rcases hx with rfl | hx
  · exact ⟨o, ho⟩
  · exact key rs _ h2 h3 (fun q hq => hr q (List.mem_cons_of_mem _ hq)) x hx

/-- **C98** (negated in part): the order of the arguments matters: after a tensor without a batch no tensor with a batch of another size than one passes, although
in the other order both may. -/
theorem C98_order_counterexample {r q : Request} {o : Checked} (h : (check .new r).2 = .ok o) (h0 : 0 ∉ r.sizes) (hr : r.sizes.length = r.expected.length)
    (hq0 : 0 ∉ q.sizes) (hq : q.sizes.length = q.expected.length + 1) (h1 : q.sizes.head? ≠ some 1) : (check (check .new r).1 q).2 = .throws := by
  have hb : (check .new r).1.batch = some 1 := by
    unfold check at h ⊢
    rw [if_neg h0] at h ⊢
    cases hb : batched .new r with
    | ub => rw [hb] at h; simp at h
    | throws => rw [hb] at h; simp at h
    | ok b =>
      rw [hb] at h
      dsimp only at h ⊢
      cases hd : dims Checker.new.bound r.expected b.2.1.tail with
      | ub => rw [hd] at h; simp at h
      | throws => rw [hd] at h; simp at h
      | ok bound =>
        obtain ⟨ds, _, h3, _, h5⟩ := batched_ok hb
        rcases h5 with ⟨h5, _⟩ | ⟨_, _, _, h5⟩
        · rw [h5, List.length_cons] at hr
          omega
        · simp [h5, Checker.new]
  have hbat : batched (check .new r).1 q = .throws := by
    unfold batched
    rw [if_neg (by omega), if_pos hq, hb]
    cases hs : q.sizes with
    | nil => rfl
    | cons n ns =>
      rw [hs] at h1
      simp only [List.head?_cons, ne_eq, Option.some.injEq] at h1
      simp [h1]
  rw [check, if_neg hq0, hbat]

/-- Seven parameters for each of `n` joints, in batches of five and for all of them: in one order both pass, in the other one does not. -/
example : (run .new [⟨[5, 3, 7], [-1, 7], true, false⟩, ⟨[3], [-1], true, false⟩]).2 = [.ok ⟨[5, 3, 7], some false⟩, .ok ⟨[5, 3], some true⟩] ∧
    (run .new [⟨[3], [-1], true, false⟩, ⟨[5, 3, 7], [-1, 7], true, false⟩]).2 = [.ok ⟨[1, 3], some true⟩, .throws] ∧
    (run .new [⟨[5, 3, 7], [-1, 7], true, false⟩, ⟨[4], [-1], true, false⟩, ⟨[0], [-1], true, true⟩, ⟨[3], [-1], true, false⟩]).2 =
      [.ok ⟨[5, 3, 7], some false⟩, .throws, .ok ⟨[0], none⟩, .ok ⟨[5, 3], some true⟩] := by decide +kernel

example : Request.Right ⟨[5, 3, 7], [-1, 7], true, false⟩ 5 (fun _ => 3) ∧ Request.Right ⟨[3], [-1], true, false⟩ 5 (fun _ => 3) := by
  refine ⟨⟨by decide, [3, 7], ?_, Or.inl rfl⟩, ⟨by decide, [3], ?_, Or.inr ⟨rfl, rfl⟩⟩⟩
  · exact .cons ⟨fun _ => rfl, fun h => by omega⟩ (.cons ⟨fun h => by omega, fun _ => rfl⟩ .nil)
  · exact .cons ⟨fun _ => rfl, fun h => by omega⟩ .nil

end Momentum.TensorCheck
