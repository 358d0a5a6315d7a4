import Verif.Lemmas.GltfBuffers
import Verif.Lemmas.GltfMarkers
import Mathlib.Data.Rat.Floor

/-!
# C92: arrays and marker sequences in glTF documents
-/

namespace Momentum.Gltf

/-- C92. Into whatever document elements are stored, they are read back, bit for bit and in order, aligned or not, as long as the first buffer
stays below 4 GB; every array that could be read before is still read as before. -/
theorem C92_read_back (model : Document) (T : Element) (data : List (List UInt8)) (align normalized : Bool) :
    ((∀ e ∈ data, e.length = T.size) → (model.buffers.headD ⟨0, []⟩).data.length + (Request.mk T data align normalized).bytes < 2 ^ 32 →
      copyAccessorBuffer T.size (createAccessorBuffer model T data align normalized).1 (createAccessorBuffer model T data align normalized).2 =
        .ok data) ∧
    (∀ size id r, copyAccessorBuffer size model id = .ok r →
      copyAccessorBuffer size (createAccessorBuffer model T data align normalized).1 id = .ok r) := by
  refine ⟨fun h small => read_back h ?_, fun size id r h => read_kept h⟩
  rw [alignedSize_eq]
  exact small

/-- The first buffer after calls has the bytes of the calls. -/
theorem stored_length (rs : List Request) (good : ∀ r ∈ rs, r.Good) :
    (firstData (stored rs)).length = (rs.map Request.bytes).sum ∧ (stored rs).accessors.length = rs.length ∧
    (stored rs).bufferViews.length = rs.length ∧ (rs ≠ [] → (stored rs).buffers.length = 1) := by
  induction rs using List.reverseRecOn with
  | nil => exact ⟨rfl, rfl, rfl, fun h => absurd rfl h⟩
  | append_singleton rs r ih =>
    obtain ⟨h1, h2, h3, h4⟩ := ih fun x hx => good x (by simp [hx])
    have hs : stored (rs ++ [r]) = (createAccessorBuffer (stored rs) r.element r.data r.align r.normalized).1 := by
      rw [stored, List.foldl_append]; rfl
    rw [hs]
    refine ⟨?_, ?_, ?_, fun _ => ?_⟩
    · rw [create_first, List.length_append, h1, elementBytes_length (good r (by simp)), alignedSize_eq]
      simp [Request.bytes]
    · simp [createAccessorBuffer, h2]
    · simp [createAccessorBuffer, h3]
    · cases rs with
      | nil => rfl
      | cons a as =>
        have := h4 (by simp)
        simp only [createAccessorBuffer, List.length_cons, List.length_tail]
        rw [if_neg (by simp [← List.length_eq_zero_iff, this]), this]

/-- C92. After any history of calls on a new document that stays below 4 GB, each call has its own accessor, all of them share one buffer that holds
nothing else, and every accessor gives the elements of its call. -/
theorem C92_stored (rs : List Request) (good : ∀ r ∈ rs, r.Good) (small : (rs.map Request.bytes).sum < 2 ^ 32) :
    (stored rs).accessors.length = rs.length ∧
    (rs ≠ [] → ∃ b, (stored rs).buffers = [b] ∧ b.data.length = (rs.map Request.bytes).sum) ∧
    ∀ (k : Nat) (r : Request), rs[k]? = some r → copyAccessorBuffer r.element.size (stored rs) k = .ok r.data := by
  obtain ⟨h1, h2, -, h4⟩ := stored_length rs good
  refine ⟨h2, fun hne => ?_, ?_⟩
  · obtain ⟨b, hb⟩ := List.length_eq_one_iff.mp (h4 hne)
    refine ⟨b, hb, ?_⟩
    rw [← h1, firstData, hb]
    rfl
  · clear h1 h2 h4
    induction rs using List.reverseRecOn with
    | nil => intro k r h; simp at h
    | append_singleton rs r ih =>
      have good' : ∀ r ∈ rs, r.Good := fun x hx => good x (by simp [hx])
      obtain ⟨h1, h2, -, -⟩ := stored_length rs good'
      have hs : stored (rs ++ [r]) = (createAccessorBuffer (stored rs) r.element r.data r.align r.normalized).1 := by
        rw [stored, List.foldl_append]; rfl
      rw [List.map_append, List.sum_append] at small
      intro k x hk
      rw [hs]
      by_cases hkl : k < rs.length
      · rw [List.getElem?_append_left hkl] at hk
        exact read_kept (ih good' (by omega) k x hk)
      · rw [List.getElem?_append_right (by omega)] at hk
        have hk0 : k = rs.length := by
          have := (List.getElem?_eq_some_iff.mp hk).1
          simp only [List.length_singleton] at this
          omega
        subst hk0
        simp only [Nat.sub_self, List.getElem?_cons_zero, Option.some.injEq] at hk
        subst hk
        rw [← h2]
        refine read_back (good r (by simp)) ?_
        rw [h1, alignedSize_eq]
        simpa [Request.bytes] using small

/-- Not vacuous: three colours of bytes that are aligned, then two numbers. -/
example : let rs : List Request := [⟨.vector3b, [[1, 2, 3], [4, 5, 6], [7, 8, 9]], true, true⟩, ⟨.float, [[0, 0, 128, 63], [0, 0, 0, 64]], true, false⟩]
    (∀ r ∈ rs, r.Good) ∧ (rs.map Request.bytes).sum = 20 ∧
      (stored rs).buffers.map (·.data) = [[1, 2, 3, 0, 4, 5, 6, 0, 7, 8, 9, 0, 0, 0, 128, 63, 0, 0, 0, 64]] ∧
      copyAccessorBuffer 3 (stored rs) 0 = .ok [[1, 2, 3], [4, 5, 6], [7, 8, 9]] := by
  refine ⟨?_, by decide, by decide +kernel, by decide +kernel⟩
  intro r hr e he
  fin_cases hr <;> fin_cases he <;> rfl

/-- C92. If every call asks for alignment, or stores elements of a multiple of four bytes, every array starts at a multiple of four and so does each of
its elements. -/
theorem C92_aligned (rs : List Request) (good : ∀ r ∈ rs, r.Good) (small : (rs.map Request.bytes).sum < 2 ^ 32)
    (aligned : ∀ r ∈ rs, r.align = true ∨ r.element.size % 4 = 0) :
    ∀ view ∈ (stored rs).bufferViews, view.byteOffset % 4 = 0 ∧ view.byteStride % 4 = 0 ∧ view.byteLength % 4 = 0 := by
  have hb : ∀ r ∈ rs, r.bytes % 4 = 0 := by
    intro r hr
    unfold Request.bytes
    rcases aligned r hr with h | h
    · rw [if_pos h, ← Nat.mul_assoc]
      exact Nat.mul_mod_left _ _
    · split
      · rw [← Nat.mul_assoc]
        exact Nat.mul_mod_left _ _
      · rw [Nat.mul_mod, h, Nat.mul_zero, Nat.zero_mod]
  induction rs using List.reverseRecOn with
  | nil => intro view h; simp [stored] at h
  | append_singleton rs r ih =>
    have good' : ∀ r ∈ rs, r.Good := fun x hx => good x (by simp [hx])
    rw [List.map_append, List.sum_append] at small
    simp only [List.map_singleton, List.sum_singleton] at small
    obtain ⟨h1, -, -, -⟩ := stored_length rs good'
    have hs : stored (rs ++ [r]) = (createAccessorBuffer (stored rs) r.element r.data r.align r.normalized).1 := by
      rw [stored, List.foldl_append]; rfl
    have hsum : (rs.map Request.bytes).sum % 4 = 0 := by
      have : ∀ x ∈ rs, x.bytes % 4 = 0 := fun x hx => hb x (by simp [hx])
      clear * - this
      induction rs with
      | nil => rfl
      | cons a as ih =>
        have h1 := this a (by simp)
        have h2 := ih fun x hx => this x (by simp [hx])
        simp only [List.map_cons, List.sum_cons]
        omega
    intro view hv
    rw [hs] at hv
    unfold createAccessorBuffer at hv
    dsimp only at hv
    rw [List.mem_append, List.mem_singleton] at hv
    rcases hv with hv | hv
    · exact ih good' (by omega) (fun x hx => aligned x (by simp [hx])) (fun x hx => hb x (by simp [hx])) view hv
    · have hfirst : ((if (stored rs).buffers.isEmpty then [⟨0, []⟩] else (stored rs).buffers).headD ⟨0, []⟩).data = firstData (stored rs) := by
        rw [firstData]
        cases (stored rs).buffers <;> rfl
      rw [hfirst, h1] at hv
      have hr := hb r (by simp)
      have hbytes : r.data.length * alignedSize r.element.size r.align = r.bytes := by rw [alignedSize_eq]; rfl
      rw [hbytes] at hv
      subst hv
      dsimp only
      rw [Nat.mod_eq_of_lt (show (rs.map Request.bytes).sum < 2 ^ 32 by omega), Nat.mod_eq_of_lt (show r.bytes < 2 ^ 32 by omega)]
      refine ⟨hsum, ?_, hr⟩
      split
      · rename_i hc
        rw [alignedSize, if_pos hc]
        exact Nat.mul_mod_left _ _
      · rfl

/-- Without alignment numbers can start at any byte. -/
theorem C92_unaligned_counterexample : ∃ rs : List Request, (∀ r ∈ rs, r.Good) ∧
    ∃ view, (stored rs).bufferViews[1]? = some view ∧ view.byteOffset % 4 ≠ 0 := by
  refine ⟨[⟨.vector3b, [[1, 2, 3]], false, false⟩, ⟨.float, [[0, 0, 128, 63]], false, false⟩], ?_, ⟨0, 3, 4, 0⟩, rfl, by decide⟩
  intro r hr e he
  fin_cases hr <;> fin_cases he <;> rfl

/-- C92, partial: from a document with any accessors, an accessor of the size that is asked for, with a view inside its buffer and whose elements
lie inside the view, gives exactly the bytes of each element.  What is missing is that other accessors are refused, see below. -/
theorem C92_read_partial (size : Nat) (model : Document) (id : Int) (acc : Accessor) (view : BufferView) (buf : Buffer)
    (h1 : 0 ≤ id ∧ model.accessors[id.toNat]? = some acc) (h2 : 0 ≤ acc.bufferView ∧ model.bufferViews[acc.bufferView.toNat]? = some view)
    (h3 : 0 ≤ view.buffer ∧ model.buffers[view.buffer.toNat]? = some buf) (hsize : getTypeSize acc.type * getComponentSize acc.componentType = size)
    (hpos : 0 < size) (hview : view.byteOffset + view.byteLength ≤ buf.data.length) (hacc : acc.byteOffset ≤ view.byteLength)
    (hin : ∀ j < acc.count, acc.byteOffset + j * (if view.byteStride = 0 then size else view.byteStride) + size ≤ view.byteLength) :
    ∃ r, copyAccessorBuffer size model id = .ok r ∧ r.length = acc.count ∧
      ∀ (j : Nat) (e : List UInt8), r[j]? = some e → e.length = size ∧ ∀ (b : Nat), b < size →
        e[b]? = buf.data[view.byteOffset + acc.byteOffset + j * (if view.byteStride = 0 then size else view.byteStride) + b]? := by
  unfold copyAccessorBuffer at?
  rw [if_pos h1.1, h1.2]
  dsimp only
  rw [if_neg (by simpa using hsize), if_pos h2.1, h2.2]
  dsimp only
  rw [if_pos h3.1, h3.2]
  dsimp only
  unfold readView
  dsimp only
  rw [if_neg (by omega), if_neg (by omega)]
  generalize (if view.byteStride = 0 then size else view.byteStride) = stride at hin ⊢
  rw [readElements_ok]
  · refine ⟨_, rfl, by simp, fun j e he => ?_⟩
    rw [List.getElem?_map] at he
    by_cases hj : j < acc.count
    · have := hin j hj
      rw [List.getElem?_range' hj] at he
      simp only [Nat.zero_add, Nat.one_mul, Option.map_some, Option.some.injEq] at he
      subst he
      refine ⟨by rw [List.length_take, List.length_drop]; omega, fun b hb => ?_⟩
      rw [List.getElem?_take, if_pos hb, List.getElem?_drop]
    · rw [List.getElem?_eq_none (by simpa using by omega)] at he
      simp at he
  · intro j _ hj
    have := hin j (by omega)
    constructor <;> omega

/-- Not vacuous. -/
example : copyAccessorBuffer 4 ⟨[⟨0, 1, 2, .float, .scalar, false⟩], [⟨0, 1, 10, 5⟩], [⟨12, [9, 9, 1, 2, 3, 4, 9, 5, 6, 7, 8, 9]⟩]⟩ 0 =
    .ok [[1, 2, 3, 4], [5, 6, 7, 8]] := by decide +kernel

/-- An array that is read has all its elements, and each starts before the end. -/
theorem readElements_starts (data : List UInt8) (start len stride elsize : Nat) : ∀ (left i : Nat) (r : List (List UInt8)),
    readElements data start len stride elsize left i = .ok r →
    r.length = left ∧ ∀ j < left, (i + j) * stride < len ∧ start + (i + j) * stride + elsize ≤ data.length := by
  intro left
  induction left with
  | zero =>
    intro i r h
    rw [readElements] at h
    injection h with h
    subst h
    exact ⟨rfl, fun j hj => absurd hj (Nat.not_lt_zero j)⟩
  | succ left ih =>
    intro i r h
    rw [readElements] at h
    split at h
    · cases h
    · split at h
      · cases h
      · rename_i h1 h2
        cases hr : readElements data start len stride elsize left (i + 1) with
        | ub => rw [hr] at h; cases h
        | throws => rw [hr] at h; cases h
        | ok t =>
          rw [hr] at h
          injection h with h
          subst h
          obtain ⟨hl, hj⟩ := ih _ _ hr
          refine ⟨by rw [List.length_cons, hl], fun j hlt => ?_⟩
          cases j with
          | zero => rw [Nat.add_zero]; omega
          | succ j =>
            have := hj j (by omega)
            rwa [show i + 1 + j = i + (j + 1) by omega] at this

/-- C92, for the accessors of any document: if an array is read, it has as many elements as the accessor says, every element starts inside the view
and ends inside the buffer, and the view lies inside the buffer. What is missing, that each ends inside the view, is false, see below. -/
theorem C92_starts_partial (size : Nat) (model : Document) (id : Int) (acc : Accessor) (view : BufferView) (buf : Buffer) (r : List (List UInt8))
    (h1 : 0 ≤ id ∧ model.accessors[id.toNat]? = some acc) (h2 : 0 ≤ acc.bufferView ∧ model.bufferViews[acc.bufferView.toNat]? = some view)
    (h3 : 0 ≤ view.buffer ∧ model.buffers[view.buffer.toNat]? = some buf) (hsize : getTypeSize acc.type * getComponentSize acc.componentType = size)
    (h : copyAccessorBuffer size model id = .ok r) :
    r.length = acc.count ∧ view.byteOffset + view.byteLength ≤ buf.data.length ∧ acc.byteOffset ≤ view.byteLength ∧
    ∀ j < acc.count, acc.byteOffset + j * (if view.byteStride = 0 then size else view.byteStride) < view.byteLength ∧
      view.byteOffset + acc.byteOffset + j * (if view.byteStride = 0 then size else view.byteStride) + size ≤ buf.data.length := by
  unfold copyAccessorBuffer at? at h
  rw [if_pos h1.1, h1.2] at h
  dsimp only at h
  rw [if_neg (by simpa using hsize), if_pos h2.1, h2.2] at h
  dsimp only at h
  rw [if_pos h3.1, h3.2] at h
  dsimp only at h
  unfold readView at h
  dsimp only at h
  generalize (if view.byteStride = 0 then size else view.byteStride) = stride at h ⊢
  split at h
  · cases h
  · split at h
    · cases h
    · obtain ⟨hl, hj⟩ := readElements_starts _ _ _ _ _ _ _ _ h
      refine ⟨hl, by omega, by omega, fun j hlt => ?_⟩
      have := hj j hlt
      rw [Nat.zero_add] at this
      omega

/-- Not vacuous: the second element starts inside the view and ends after it. -/
example : copyAccessorBuffer 4 ⟨[⟨0, 0, 2, .float, .scalar, false⟩], [⟨0, 0, 5, 0⟩], [⟨8, [1, 2, 3, 4, 5, 6, 7, 8]⟩]⟩ 0 =
    .ok [[1, 2, 3, 4], [5, 6, 7, 8]] := by decide +kernel

/-- C92 fails for files whose accessors have more elements than their views: only the first byte of an element is checked, and the rest is read past
the end of the buffer. -/
theorem C92_reads_past_end_counterexample : ∃ model : Document, (∀ b ∈ model.buffers, b.byteLength = b.data.length) ∧
    (∀ v ∈ model.bufferViews, v.byteOffset + v.byteLength = 5) ∧ copyAccessorBuffer 4 model 0 = .ub :=
  ⟨⟨[⟨0, 0, 2, .float, .scalar, false⟩], [⟨0, 0, 5, 0⟩], [⟨5, [0, 0, 0, 0, 0]⟩]⟩, by decide, by decide, by decide⟩

/-- C92: an array of another size is silently read as an empty one, and one of the same size but another type is read as if it had the type that is
asked for. -/
theorem C92_wrong_type : (∀ (T U : Element) (data : List (List UInt8)) (align normalized : Bool) (model : Document), T.size ≠ U.size →
      copyAccessorBuffer U.size (createAccessorBuffer model T data align normalized).1 (createAccessorBuffer model T data align normalized).2 =
        .ok []) ∧
    (∃ (T U : Element), T.componentType ≠ U.componentType ∧ T.size = U.size) := by
  refine ⟨fun T U data align normalized model h => ?_, .vector3i, .vector3f, by decide, by decide⟩
  unfold copyAccessorBuffer createAccessorBuffer
  dsimp only
  rw [at?_nat, List.getElem?_concat_length]
  dsimp only
  rw [if_pos]
  rw [(size_eq T).1]
  exact fun h' => h (by exact_mod_cast h')

section
variable {K : Type} [Field K] [LinearOrder K] [FloorSemiring K] [IsStrictOrderedRing K]

/-- C92. A marker sequence that is saved and loaded at the same positive frame rate has in each frame the same visible markers at the same positions,
grouped by name in the order in which the names were first seen; it ends with the last frame that has a visible marker. -/
theorem C92_markers (fps : K) (hf : 0 < fps) (sequence : List (List (Marker K))) :
    ∃ frames, loadMarkerSequence fps (addActorAnimation fps sequence) = .ok frames ∧
      (∀ i, frames.length ≤ i → seen sequence i = []) ∧
      (frames ≠ [] → seen sequence (frames.length - 1) ≠ []) ∧
      ∀ (i : Nat) (ms : List (Marker K)), frames[i]? = some ms →
        ms = ((seenNames sequence).flatMap fun n => (seen sequence i).filter fun m => m.name = n) ∧ ms.Perm (seen sequence i) := by
  have ho : ∀ e ∈ visible sequence, e.2.occluded = false := fun e he => by simpa [visible] using (List.mem_filter.mp he).2
  have hnames : ∀ n, n ∈ seenNames sequence ↔ ∃ e ∈ visible sequence, e.2.name = n := by
    intro n
    rw [← visible_names, List.mem_eraseDups, List.mem_map]
  obtain ⟨frames, h1, -, h3, h4, h5⟩ := loadChannels_ok hf (visible_sorted sequence) ho (seenNames sequence) (fun n hn => (hnames n).mp hn) []
  refine ⟨frames, ?_, ?_, ?_, ?_⟩
  · rw [loadMarkerSequence, addActor_eq]
    exact h1
  · intro i hi
    rw [List.eq_nil_iff_forall_not_mem]
    intro m hm
    have hv : ((i, m) : Nat × Marker K) ∈ visible sequence := mem_visible.mpr hm
    have := h4 _ hv ((hnames _).mpr ⟨_, hv, rfl⟩)
    dsimp only at this
    omega
  · intro hne
    rcases h3 with h3 | ⟨e, he, h3⟩
    · exact absurd (List.length_eq_zero_iff.mp (by simpa using h3)) hne
    · rw [h3, Nat.add_sub_cancel]
      exact List.ne_nil_of_mem (mem_visible.mp he)
  · intro i ms hi
    have hl := (List.getElem?_eq_some_iff.mp hi).1
    rw [h5 i hl] at hi
    have key : ∀ n, (((visible sequence).filter fun e => decide (e.2.name = n)).filter fun e => decide (e.1 = i)).map (·.2) =
        (seen sequence i).filter fun m => m.name = n := by
      intro n
      rw [List.filter_filter, show (fun e : Nat × Marker K => decide (e.1 = i) && decide (e.2.name = n)) =
        fun e => decide (e.2.name = n) && decide (e.1 = i) by funext e; exact Bool.and_comm _ _, ← List.filter_filter, visible_at, List.filter_map,
        List.map_map]
      exact List.map_id' _
    simp only [key] at hi
    simp only [List.getD_nil, List.nil_append, Option.some.injEq] at hi
    refine ⟨hi.symm, ?_⟩
    rw [← hi]
    refine perm_names _ ?_ _ ?_
    · rw [← visible_names]
      exact eraseDups_nodup _
    · intro m hm
      exact (hnames _).mpr ⟨(i, m), mem_visible.mpr hm, rfl⟩

end

deriving instance DecidableEq for Marker

/-- A marker at a position. -/
def at' (name : String) (x : ℚ) (occluded : Bool) : Marker ℚ := ⟨name, ⟨x, 0, 0⟩, occluded⟩

/-- Not vacuous: two markers, one hidden in the second frame; the names are in the order of the first frame. -/
example : loadMarkerSequence (120 : ℚ) (addActorAnimation 120 [[at' "b" 1 false, at' "a" 2 false], [at' "b" 5 true, at' "a" 3 false],
      [at' "a" 4 false, at' "b" 6 false]]) =
    .ok [[at' "b" 1 false, at' "a" 2 false], [at' "a" 3 false], [at' "b" 6 false, at' "a" 4 false]] := by
  decide +kernel

/-- C92 fails for the number of frames: frames at the end without visible markers are lost, and so are hidden markers with their positions. -/
theorem C92_frames_lost : ∃ sequence : List (List (Marker ℚ)),
    loadMarkerSequence (120 : ℚ) (addActorAnimation 120 sequence) ≠ .ok sequence ∧ sequence.length = 3 ∧
    ∃ frames, loadMarkerSequence (120 : ℚ) (addActorAnimation 120 sequence) = .ok frames ∧ frames.length = 1 :=
  ⟨[[at' "a" 1 false], [at' "a" 1 true], []], by decide +kernel, rfl, [[at' "a" 1 false]], by decide +kernel, rfl⟩

/-- C92 fails for files of others: times that do not increase write past the end of the frames, and so does a marker without any. -/
theorem C92_times_counterexample : loadMarkerSequence (30 : ℚ) [⟨"a", "translation", true, false, [1, 0], [⟨0, 0, 0⟩, ⟨0, 0, 0⟩]⟩] = .ub ∧
    loadMarkerSequence (30 : ℚ) [⟨"a", "translation", true, false, [], []⟩] = .ub := by
  constructor <;> decide +kernel

/-- C92. Other channels, of joints, of cameras, of skins or of rotations, never change what is loaded. -/
theorem C92_other_channels {K : Type} [Field K] [LinearOrder K] [FloorSemiring K] (fps : K) (before after : List (Channel K)) (c : Channel K)
    (h : c.path ≠ "translation" ∨ c.skinOrCamera = true ∨ c.marker = false) :
    loadMarkerSequence fps (before ++ c :: after) = loadMarkerSequence fps (before ++ after) := by
  unfold loadMarkerSequence
  generalize ([] : List (List (Marker K))) = frames
  induction before generalizing frames with
  | nil =>
    rw [List.nil_append, List.nil_append, loadChannels, if_pos]
    simpa using h
  | cons b bs ih =>
    rw [List.cons_append, List.cons_append, loadChannels, loadChannels]
    split
    · exact ih frames
    · cases loadMarker fps frames b with
      | ok f => exact ih f
      | throws => rfl
      | ub => rfl

end Momentum.Gltf
