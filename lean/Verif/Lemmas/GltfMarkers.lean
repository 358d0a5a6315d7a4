import Verif.Spec.GltfBuffers
import Mathlib.Tactic.Ring
import Mathlib.Tactic.Linarith
import Mathlib.Tactic.FieldSimp
import Mathlib.Algebra.Order.Floor.Semiring
import Mathlib.Data.List.Perm.Basic

/-!
# Lemmas on glTF marker sequences
-/

namespace Momentum.Gltf

variable {K : Type}

/-- The markers of a sequence with the numbers of their frames, from `k` on. -/
def events (k : Nat) : List (List (Marker K)) → List (Nat × Marker K)
  | [] => []
  | f :: fs => f.map (fun m => (k, m)) ++ events (k + 1) fs

/-- The visible ones. -/
def visible (sequence : List (List (Marker K))) : List (Nat × Marker K) := (events 0 sequence).filter fun e => !e.2.occluded

theorem events_ge : ∀ (fs : List (List (Marker K))) (k : Nat), ∀ e ∈ events k fs, k ≤ e.1
  | [], _, e, h => by simp [events] at h
  | f :: fs, k, e, h => by
    rw [events, List.mem_append, List.mem_map] at h
    rcases h with ⟨m, _, rfl⟩ | h
    · exact le_rfl
    · have := events_ge fs (k + 1) e h
      omega

theorem events_sorted : ∀ (fs : List (List (Marker K))) (k : Nat), (events k fs).Pairwise fun a b => a.1 ≤ b.1
  | [], _ => List.Pairwise.nil
  | f :: fs, k => by
    rw [events, List.pairwise_append]
    refine ⟨?_, events_sorted fs (k + 1), ?_⟩
    · rw [List.pairwise_map]
      exact List.pairwise_of_forall (fun _ _ => le_rfl)
    · intro a ha b hb
      obtain ⟨m, _, rfl⟩ := List.mem_map.mp ha
      have := events_ge fs (k + 1) b hb
      show k ≤ b.1
      omega

theorem events_at : ∀ (fs : List (List (Marker K))) (k i : Nat),
    (events k fs).filter (fun e => e.1 = k + i) = (fs.getD i []).map fun m => (k + i, m)
  | [], _, _ => by simp [events]
  | f :: fs, k, 0 => by
    rw [events, List.filter_append, List.filter_eq_self.mpr, List.filter_eq_nil_iff.mpr]
    · simp
    · intro e he
      have := events_ge fs (k + 1) e he
      simp only [Nat.add_zero, decide_eq_true_eq]
      omega
    · intro e he
      obtain ⟨m, _, rfl⟩ := List.mem_map.mp he
      simp
  | f :: fs, k, i + 1 => by
    rw [events, List.filter_append, List.filter_eq_nil_iff.mpr, List.nil_append]
    · have := events_at fs (k + 1) i
      rw [show k + (i + 1) = k + 1 + i by omega, this]
      simp
    · intro e he
      obtain ⟨m, _, rfl⟩ := List.mem_map.mp he
      simp

theorem events_flatten : ∀ (fs : List (List (Marker K))) (k : Nat), (events k fs).map (·.2) = fs.flatten
  | [], _ => rfl
  | f :: fs, k => by simp [events, events_flatten fs (k + 1)]

theorem visible_at (sequence : List (List (Marker K))) (i : Nat) :
    (visible sequence).filter (fun e => e.1 = i) = (seen sequence i).map fun m => (i, m) := by
  have := events_at sequence 0 i
  rw [Nat.zero_add] at this
  rw [visible, List.filter_filter]
  rw [show (fun e : Nat × Marker K => decide (e.1 = i) && !e.2.occluded) = fun e => (!e.2.occluded) && decide (e.1 = i) by
    funext e; exact Bool.and_comm _ _, ← List.filter_filter, this, seen, List.filter_map]
  rfl

theorem visible_names (sequence : List (List (Marker K))) : ((visible sequence).map fun e => e.2.name).eraseDups = seenNames sequence := by
  rw [seenNames, visible, ← events_flatten sequence 0, List.filter_map, List.map_map]
  rfl

theorem mem_visible {sequence : List (List (Marker K))} {e : Nat × Marker K} : e ∈ visible sequence ↔ e.2 ∈ seen sequence e.1 := by
  have h := visible_at sequence e.1
  have : e ∈ visible sequence ↔ e ∈ (visible sequence).filter (fun x => x.1 = e.1) := by simp
  rw [this, h, List.mem_map]
  constructor
  · rintro ⟨m, hm, h'⟩
    rw [← h']
    exact hm
  · intro hm
    exact ⟨_, hm, rfl⟩

theorem visible_sorted (sequence : List (List (Marker K))) : (visible sequence).Pairwise fun a b => a.1 ≤ b.1 :=
  (events_sorted sequence 0).filter _

theorem eraseDups_concat (l : List String) (a : String) : (l ++ [a]).eraseDups = if a ∈ l then l.eraseDups else l.eraseDups ++ [a] := by
  rw [List.eraseDups_append]
  by_cases h : a ∈ l
  · rw [if_pos h]
    simp [List.removeAll, h]
  · rw [if_neg h]
    simp [List.removeAll, h, List.eraseDups_cons]

theorem eraseDups_nodup (l : List String) : l.eraseDups.Nodup := by
  induction l using List.reverseRecOn with
  | nil => simp
  | append_singleton l a ih =>
    rw [eraseDups_concat]
    split
    · exact ih
    · rename_i h
      refine List.nodup_append.mpr ⟨ih, by simp, ?_⟩
      intro x hx y hy hxy
      rw [List.mem_singleton] at hy
      subst hy
      subst hxy
      exact h (List.mem_eraseDups.mp hx)

theorem perm_names : ∀ (ns : List String) (_ : ns.Nodup) (l : List (Marker K)) (_ : ∀ m ∈ l, m.name ∈ ns),
    (ns.flatMap fun n => l.filter fun m => m.name = n).Perm l
  | [], _, l, h => by
    have : l = [] := List.eq_nil_iff_forall_not_mem.mpr fun m hm => by simpa using h m hm
    simp [this]
  | n :: ns, hnd, l, h => by
    rw [List.nodup_cons] at hnd
    rw [List.flatMap_cons]
    have ih := perm_names ns hnd.2 (l.filter fun m => !decide (m.name = n)) fun m hm => by
      have hm' := List.mem_filter.mp hm
      have h1 := h m hm'.1
      rw [List.mem_cons] at h1
      rcases h1 with h1 | h1
      · simp [h1] at hm'
      · exact h1
    have he : (ns.flatMap fun n' => (l.filter fun m => !decide (m.name = n)).filter fun m => m.name = n') =
        ns.flatMap fun n' => l.filter fun m => m.name = n' := by
      apply List.flatMap_congr
      intro n' hn'
      rw [List.filter_filter]
      apply List.filter_congr
      intro m _
      by_cases hm : m.name = n'
      · have : m.name ≠ n := by rintro h1; exact hnd.1 (by rw [← h1, hm]; exact hn')
        simp [hm, hm ▸ this]
      · simp [hm]
    rw [he] at ih
    exact (ih.append_left _).trans (List.filter_append_perm _ l)

variable [Field K] [LinearOrder K] [FloorSemiring K]

/-- The channel of a marker. -/
def chan (fps : K) (V : List (Nat × Marker K)) (n : String) : Channel K :=
  ⟨n, "translation", true, false, (V.filter fun e => e.2.name = n).map fun e => (e.1 : K) / fps,
    (V.filter fun e => e.2.name = n).map fun e => fromMomentum e.2.pos⟩

theorem addFrames_events (fps : K) : ∀ (fs : List (List (Marker K))) (k : Nat) (cs : List (Channel K)),
    (fs.zipIdx k).foldl (addFrame fps) cs = (events k fs).foldl (fun cs e => addMarker ((e.1 : K) / fps) cs e.2) cs
  | [], _, _ => rfl
  | f :: fs, k, cs => by
    rw [List.zipIdx_cons, List.foldl_cons, addFrames_events fps fs (k + 1), events, List.foldl_append, List.foldl_map]
    rfl

theorem addMarkers_visible (fps : K) : ∀ (es : List (Nat × Marker K)) (cs : List (Channel K)),
    es.foldl (fun cs e => addMarker ((e.1 : K) / fps) cs e.2) cs =
      (es.filter fun e => !e.2.occluded).foldl (fun cs e => addPosition e.2.name ((e.1 : K) / fps) (fromMomentum e.2.pos) cs) cs
  | [], _ => rfl
  | e :: es, cs => by
    rw [List.foldl_cons, addMarkers_visible fps es]
    by_cases h : e.2.occluded
    · rw [List.filter_cons_of_neg (by simp [h]), addMarker, if_pos h]
    · rw [List.filter_cons_of_pos (by simp [h]), addMarker, if_neg h, List.foldl_cons]

theorem chan_other (fps : K) (V : List (Nat × Marker K)) (e : Nat × Marker K) {n : String} (h : n ≠ e.2.name) : chan fps (V ++ [e]) n = chan fps V n := by
  unfold chan
  rw [List.filter_append, show [e].filter (fun e => decide (e.2.name = n)) = [] by simp [Ne.symm h], List.append_nil]

theorem chan_same (fps : K) (V : List (Nat × Marker K)) (e : Nat × Marker K) :
    chan fps (V ++ [e]) e.2.name = { chan fps V e.2.name with
      timestamps := (chan fps V e.2.name).timestamps ++ [(e.1 : K) / fps], positions := (chan fps V e.2.name).positions ++ [fromMomentum e.2.pos] } := by
  unfold chan
  rw [List.filter_append, show [e].filter (fun e' => decide (e'.2.name = e.2.name)) = [e] by simp, List.map_append, List.map_append]
  rfl

theorem addPosition_mem (fps : K) (V : List (Nat × Marker K)) (e : Nat × Marker K) : ∀ (ns : List String), ns.Nodup → e.2.name ∈ ns →
    addPosition e.2.name ((e.1 : K) / fps) (fromMomentum e.2.pos) (ns.map (chan fps V)) = ns.map (chan fps (V ++ [e]))
  | [], _, h => by simp at h
  | n :: ns, hnd, h => by
    rw [List.nodup_cons] at hnd
    rw [List.map_cons, List.map_cons, addPosition]
    by_cases hn : n = e.2.name
    · rw [if_pos (show (chan fps V n).name = e.2.name from hn)]
      subst hn
      rw [chan_same]
      congr 1
      apply List.map_congr_left
      intro x hx
      exact (chan_other fps V e (by rintro rfl; exact hnd.1 hx)).symm
    · rw [if_neg (show ¬ (chan fps V n).name = e.2.name from hn), chan_other fps V e hn, addPosition_mem fps V e ns hnd.2 (by
        rcases List.mem_cons.mp h with h | h
        · exact absurd h.symm hn
        · exact h)]

theorem addPosition_new (fps : K) (V : List (Nat × Marker K)) (e : Nat × Marker K) (hV : ∀ x ∈ V, x.2.name ≠ e.2.name) :
    ∀ (ns : List String), e.2.name ∉ ns →
    addPosition e.2.name ((e.1 : K) / fps) (fromMomentum e.2.pos) (ns.map (chan fps V)) = (ns ++ [e.2.name]).map (chan fps (V ++ [e]))
  | [], _ => by
    have : V.filter (fun x => decide (x.2.name = e.2.name)) = [] := List.filter_eq_nil_iff.mpr fun x hx => by simpa using hV x hx
    simp [addPosition, chan_same, chan, this]
  | n :: ns, h => by
    rw [List.mem_cons, not_or] at h
    rw [List.map_cons, addPosition, if_neg (show ¬ (chan fps V n).name = e.2.name from fun h' => h.1 h'.symm), addPosition_new fps V e hV ns h.2,
      List.cons_append, List.map_cons, chan_other fps V e (Ne.symm h.1)]

theorem addPositions (fps : K) (V : List (Nat × Marker K)) :
    V.foldl (fun cs e => addPosition e.2.name ((e.1 : K) / fps) (fromMomentum e.2.pos) cs) [] = (V.map fun e => e.2.name).eraseDups.map (chan fps V) := by
  induction V using List.reverseRecOn with
  | nil => simp
  | append_singleton V e ih =>
    rw [List.foldl_append, ih, List.foldl_cons, List.foldl_nil, List.map_append, List.map_singleton, eraseDups_concat]
    split
    · rename_i h
      exact addPosition_mem fps V e _ (eraseDups_nodup _) (List.mem_eraseDups.mpr h)
    · rename_i h
      refine addPosition_new fps V e (fun x hx hxe => h (List.mem_map.mpr ⟨x, hx, hxe⟩)) _ fun h' => h (List.mem_eraseDups.mp h')

theorem addActor_eq (fps : K) (sequence : List (List (Marker K))) :
    addActorAnimation fps sequence = (seenNames sequence).map (chan fps (visible sequence)) := by
  rw [addActorAnimation, addFrames_events, addMarkers_visible, addPositions, ← visible_names]
  rfl

variable [IsStrictOrderedRing K]

theorem to_from (v : Vec3 K) : toMomentum (fromMomentum v) = v := by
  have h (x : K) : x * (1 / 100) * 100 = x := by
    field_simp
  simp only [toMomentum, fromMomentum, h]

theorem frameIndex_eq {fps : K} (hf : 0 < fps) (i : Nat) : frameIndex fps ((i : K) / fps) = .ok i := by
  have h1 : (i : K) / fps * fps = i := div_mul_cancel₀ _ hf.ne'
  have h0 : (0 : K) ≤ i := Nat.cast_nonneg i
  rw [frameIndex, h1, if_neg (by linarith)]
  congr 1
  rw [Nat.floor_eq_iff (by linarith)]
  constructor <;> linarith

theorem placeAll_ok {fps : K} (hf : 0 < fps) (n : String) : ∀ (W : List (Nat × Marker K)) (frames : List (List (Marker K))),
    (∀ e ∈ W, e.1 < frames.length ∧ e.2.name = n ∧ e.2.occluded = false) →
    ∃ frames', placeAll fps n (W.map fun e => ((e.1 : K) / fps, fromMomentum e.2.pos)) frames = .ok frames' ∧ frames'.length = frames.length ∧
      ∀ i, frames'[i]? = frames[i]?.map fun ms => ms ++ (W.filter fun e => e.1 = i).map (·.2)
  | [], frames, _ => ⟨frames, rfl, rfl, fun i => by simp⟩
  | e :: W, frames, h => by
    obtain ⟨h1, h2, h3⟩ := h e (by simp)
    obtain ⟨frames', k1, k2, k3⟩ := placeAll_ok hf n W (frames.modify e.1 fun ms => ms ++ [⟨n, toMomentum (fromMomentum e.2.pos), false⟩])
      fun x hx => by
        rw [List.length_modify]
        exact h x (List.mem_cons_of_mem _ hx)
    refine ⟨frames', ?_, by rw [k2, List.length_modify], ?_⟩
    · rw [List.map_cons, placeAll, frameIndex_eq hf]
      show (if e.1 < frames.length then _ else _) = _
      rw [if_pos h1]
      exact k1
    · intro i
      have hm : (⟨n, toMomentum (fromMomentum e.2.pos), false⟩ : Marker K) = e.2 := by
        rw [to_from, ← h2, ← h3]
      rw [k3, hm, List.getElem?_modify]
      by_cases hi : e.1 = i
      · subst hi
        rw [List.filter_cons_of_pos (by simp)]
        cases frames[e.1]? <;> simp
      · rw [List.filter_cons_of_neg (by simpa using hi)]
        cases frames[i]? <;> simp [hi]

theorem loadMarker_ok {fps : K} (hf : 0 < fps) {V : List (Nat × Marker K)} (hs : V.Pairwise fun a b => a.1 ≤ b.1) (ho : ∀ e ∈ V, e.2.occluded = false)
    {n : String} (hn : ∃ e ∈ V, e.2.name = n) (frames : List (List (Marker K))) :
    ∃ frames', loadMarker fps frames (chan fps V n) = .ok frames' ∧
      (∃ e ∈ V, e.2.name = n ∧ frames'.length = max frames.length (e.1 + 1)) ∧
      (∀ e ∈ V, e.2.name = n → e.1 < frames'.length) ∧
      ∀ i, i < frames'.length → frames'[i]? = some (frames.getD i [] ++ ((V.filter fun e => e.2.name = n).filter fun e => e.1 = i).map (·.2)) := by
  set W := V.filter fun e => decide (e.2.name = n) with hW
  have hmem : ∀ e, e ∈ W ↔ e ∈ V ∧ e.2.name = n := fun e => by rw [hW, List.mem_filter, decide_eq_true_eq]
  have hne : W ≠ [] := by
    obtain ⟨e, he, hen⟩ := hn
    exact List.ne_nil_of_mem ((hmem e).mpr ⟨he, hen⟩)
  obtain ⟨W', last, hWl⟩ : ∃ W' last, W = W' ++ [last] := ⟨_, _, (List.dropLast_append_getLast hne).symm⟩
  have hlast : last ∈ W := by rw [hWl]; simp
  have hle : ∀ e ∈ W, e.1 ≤ last.1 := by
    have hsW : W.Pairwise fun a b => a.1 ≤ b.1 := hs.filter _
    rw [hWl, List.pairwise_append] at hsW
    intro e he
    rw [hWl, List.mem_append, List.mem_singleton] at he
    rcases he with he | rfl
    · exact hsW.2.2 e he last (by simp)
    · exact le_rfl
  set base := frames ++ List.replicate (last.1 + 1 - frames.length) ([] : List (Marker K)) with hbase
  have hbl : base.length = max frames.length (last.1 + 1) := by
    rw [hbase, List.length_append, List.length_replicate]
    omega
  obtain ⟨frames', k1, k2, k3⟩ := placeAll_ok hf n W base fun e he => ⟨by have := hle e he; omega, ((hmem e).mp he).2, ho e ((hmem e).mp he).1⟩
  refine ⟨frames', ?_, ⟨last, ((hmem _).mp hlast).1, ((hmem _).mp hlast).2, k2.trans hbl⟩, ?_, ?_⟩
  · unfold loadMarker
    have ht : (chan fps V n).timestamps = W.map fun e => (e.1 : K) / fps := rfl
    have hp : (chan fps V n).positions = W.map fun e => fromMomentum e.2.pos := rfl
    have hl : (W.map fun e => (e.1 : K) / fps).getLast? = some ((last.1 : K) / fps) := by
      rw [hWl, List.map_append, List.map_singleton, List.getLast?_concat]
    rw [ht, hp, if_neg (by simp), hl]
    dsimp only
    rw [frameIndex_eq hf, List.zip_map']
    exact k1
  · intro e he hen
    have := hle e ((hmem e).mpr ⟨he, hen⟩)
    omega
  · intro i hi
    rw [k3]
    have hib : i < base.length := by omega
    have : base[i]? = some (frames.getD i []) := by
      by_cases hif : i < frames.length
      · rw [hbase, List.getElem?_append_left hif, List.getD_eq_getElem?_getD, List.getElem?_eq_getElem hif]
        rfl
      · rw [hbase, List.getElem?_append_right (by omega), List.getElem?_replicate, if_pos (by omega), List.getD_eq_getElem?_getD,
          List.getElem?_eq_none (show frames.length ≤ i by omega)]
        rfl
    rw [this]
    rfl

theorem loadChannels_ok {fps : K} (hf : 0 < fps) {V : List (Nat × Marker K)} (hs : V.Pairwise fun a b => a.1 ≤ b.1)
    (ho : ∀ e ∈ V, e.2.occluded = false) : ∀ (ns : List String) (_ : ∀ n ∈ ns, ∃ e ∈ V, e.2.name = n) (frames : List (List (Marker K))),
    ∃ frames', loadChannels fps (ns.map (chan fps V)) frames = .ok frames' ∧ frames.length ≤ frames'.length ∧
      (frames'.length = frames.length ∨ ∃ e ∈ V, frames'.length = e.1 + 1) ∧
      (∀ e ∈ V, e.2.name ∈ ns → e.1 < frames'.length) ∧
      ∀ i, i < frames'.length →
        frames'[i]? = some (frames.getD i [] ++ ns.flatMap fun n => ((V.filter fun e => e.2.name = n).filter fun e => e.1 = i).map (·.2))
  | [], _, frames => ⟨frames, rfl, le_rfl, Or.inl rfl, fun _ _ h => by simp at h, fun i hi => by
      rw [List.getD_eq_getElem?_getD, List.getElem?_eq_getElem hi]; simp⟩
  | n :: ns, h, frames => by
    obtain ⟨mid, k1, ⟨e, he, _, k2⟩, k3, k4⟩ := loadMarker_ok hf hs ho (h n (by simp)) frames
    obtain ⟨frames', j1, j2, j3, j4, j5⟩ := loadChannels_ok hf hs ho ns (fun x hx => h x (List.mem_cons_of_mem _ hx)) mid
    refine ⟨frames', ?_, by omega, ?_, ?_, ?_⟩
    · rw [List.map_cons, loadChannels, if_neg (by simp [chan]), k1]
      exact j1
    · rcases j3 with j3 | j3
      · rcases Nat.le_total (e.1 + 1) frames.length with hl | hl
        · left; omega
        · right; exact ⟨e, he, by omega⟩
      · exact Or.inr j3
    · intro x hx hxn
      rcases List.mem_cons.mp hxn with hxn | hxn
      · have := k3 x hx hxn
        omega
      · exact j4 x hx hxn
    · intro i hi
      rw [j5 i hi, List.flatMap_cons, ← List.append_assoc]
      congr 2
      by_cases him : i < mid.length
      · rw [List.getD_eq_getElem?_getD, k4 i him]
        rfl
      · rw [List.getD_eq_getElem?_getD, List.getElem?_eq_none (by omega), List.getD_eq_getElem?_getD, List.getElem?_eq_none (by omega)]
        have : (V.filter fun e => decide (e.2.name = n)).filter (fun e => decide (e.1 = i)) = [] := by
          rw [List.filter_eq_nil_iff]
          intro x hx
          rw [List.mem_filter, decide_eq_true_eq] at hx
          have := k3 x hx.1 hx.2
          rw [decide_eq_true_eq]
          omega
        rw [this]
        rfl

end Momentum.Gltf
