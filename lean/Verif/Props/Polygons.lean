import Verif.Lemmas.Polygons

/-! # C89: polygons and their triangles -/

namespace Momentum.Polygons

/-- The check accepts the arrays exactly when they describe polygons with three vertices or more, all of them vertices of the mesh, and
the texture array is empty or has an entry for each vertex. -/
theorem C89_check (p : PolygonData) (numVertices : Nat) : errorMessage p numVertices = "" ↔
    ∃ faces, Describes faces p.indices p.offsets ∧ ThreeVertices faces ∧ (∀ i ∈ p.indices, i < numVertices) ∧
      (p.textureIndices = [] ∨ p.textureIndices.length = p.indices.length) := by
  unfold errorMessage
  cases ho : p.offsets with
  | nil =>
    constructor
    · intro h; simp at h
    · rintro ⟨faces, ⟨-, h⟩, -⟩
      obtain ⟨r, hr⟩ := offsetsFrom_cons 0 faces
      rw [hr] at h
      simp at h
  | cons o os =>
    dsimp only
    constructor
    · intro h
      split at h
      · simp at h
      · rename_i h1
        split at h
        · simp at h
        · rename_i h2
          split at h
          · rename_i h3; exact absurd h h3
          · rename_i h3
            split at h
            · simp at h
            · rename_i h4
              split at h
              · simp at h
              · rename_i h5
                have e0 : o = 0 := not_not.mp h1
                subst e0
                have hf := (facesError_iff _ _).mp (not_not.mp h3)
                obtain ⟨faces, hc1, hc2, hc3⟩ := cut_of_offsets os 0 p.indices (fun k a b ha hb => (hf k a b ha hb).1)
                  (by rw [not_not.mp h5, Nat.zero_add])
                refine ⟨faces, ⟨hc1, hc2⟩, hc3, ?_, ?_⟩
                · intro i hi
                  by_contra hlt
                  exact h4 (List.any_eq_true.mpr ⟨i, hi, by simpa using hlt⟩)
                · by_cases ht : p.textureIndices = []
                  · exact Or.inl ht
                  · refine Or.inr ?_
                    by_contra hne
                    exact h2 ⟨ht, hne⟩
    · rintro ⟨faces, ⟨hi, hd⟩, h3, hv, ht⟩
      have ho0 : o = 0 := by
        obtain ⟨r, hr⟩ := offsetsFrom_cons 0 faces
        rw [hr] at hd
        exact (List.cons.inj hd).1
      have hfe : facesError p.indices (o :: os) = "" := by
        rw [facesError_iff, hd]
        intro k a b ha hb
        have := offsetsFrom_steps h3 0 k a b ha hb
        rw [hi]
        omega
      rw [if_neg (by simp [ho0]), if_neg, if_neg (by simp [hfe]), if_neg, if_neg]
      · rw [hd, offsetsFrom_getLast, hi]
        simp
      · rw [List.any_eq_true]
        rintro ⟨i, hi', h⟩
        have := hv i hi'
        simp at h
        omega
      · rintro ⟨h1, h2⟩
        rcases ht with h | h
        · exact h1 h
        · exact h2 h

section
variable {indices offsets : List Nat} {faces : List (List Nat)}

/-- Polygons with three vertices or more are cut into triangles that have the same boundary: for every function of edges that changes its
sign with the direction, the sum over the boundaries of the triangles is the sum over the boundaries of the polygons.  So inner edges
occur once in each direction, outer edges once in the direction of the polygon. -/
theorem C89_boundary {G : Type} [AddCommGroup G] (hd : Describes faces indices offsets) (h3 : ThreeVertices faces)
    (hlt : indices.length < 2 ^ 32) (hv : ∀ i ∈ indices, i < 2 ^ 31) :
    ∃ ts, triangulate indices offsets = .ok ts ∧
      ∀ w : Int → Int → G, (∀ a b, w a b = -w b a) → (ts.map (triangleSum w)).sum = (faces.map (boundarySum w)).sum := by
  refine ⟨_, triangulate_fans hd h3 hlt, ?_⟩
  intro w hw
  have hv' : ∀ f ∈ faces, ∀ i ∈ f, i < 2 ^ 31 := fun f hf i hi => hv i (hd.1 ▸ List.mem_flatten.mpr ⟨f, hf, hi⟩)
  clear hd hv hlt
  induction faces with
  | nil => rfl
  | cons f fs ih =>
    rw [List.flatMap_cons, List.map_append, List.sum_append, List.map_cons, List.sum_cons,
      fan_sum hw (h3 f (by simp)) (hv' f (by simp)), ih (fun g hg => h3 g (List.mem_cons_of_mem _ hg)) fun g hg => hv' g (List.mem_cons_of_mem _ hg)]

/-- There are as many triangles as vertices of polygons less two for each polygon. -/
theorem C89_count (hd : Describes faces indices offsets) (h3 : ThreeVertices faces) (hlt : indices.length < 2 ^ 32) :
    ∃ ts, triangulate indices offsets = .ok ts ∧ ts.length + 2 * faces.length = indices.length := by
  refine ⟨_, triangulate_fans hd h3 hlt, ?_⟩
  rw [hd.1]
  clear hd hlt
  induction faces with
  | nil => rfl
  | cons f fs ih =>
    have := ih fun g hg => h3 g (List.mem_cons_of_mem _ hg)
    have hf := h3 f (by simp)
    rw [List.flatMap_cons, List.length_append, fan_length, List.flatten_cons, List.length_append, List.length_cons]
    omega

/-- Each triangle has the first vertex of a polygon and two of its vertices that follow each other, in the order of the polygon; and each
polygon gives all of these, in order. -/
theorem C89_triangles (hd : Describes faces indices offsets) (h3 : ThreeVertices faces) (hlt : indices.length < 2 ^ 32)
    (hv : ∀ i ∈ indices, i < 2 ^ 31) :
    ∃ tss : List (List Triangle), triangulate indices offsets = .ok tss.flatten ∧ tss.length = faces.length ∧
      ∀ (k : Nat) (f : List Nat) (ts : List Triangle), faces[k]? = some f → tss[k]? = some ts → ts.length + 2 = f.length ∧
        ∀ (j : Nat) (t : Triangle), ts[j]? = some t → ∃ a b c : Nat, f[0]? = some a ∧ f[j + 1]? = some b ∧ f[j + 2]? = some c ∧
          t = ((a : Int), (b : Int), (c : Int)) := by
  refine ⟨faces.map fan, ?_, by simp, ?_⟩
  · rw [triangulate_fans hd h3 hlt, List.flatMap_def]
  · intro k f ts hf hts
    rw [List.getElem?_map, hf] at hts
    have hts : fan f = ts := by simpa using hts
    have hmem : f ∈ faces := List.mem_of_getElem? hf
    have h3f := h3 f hmem
    have hvf : ∀ i ∈ f, i < 2 ^ 31 := fun i hi => hv i (hd.1 ▸ List.mem_flatten.mpr ⟨f, hmem, hi⟩)
    subst hts
    refine ⟨by rw [fan_length]; omega, ?_⟩
    cases f with
    | nil => simp at h3f
    | cons a r =>
      have ea : asInt a = a := if_pos (hvf a (by simp))
      have key : ∀ (r : List Nat), (∀ i ∈ r, i < 2 ^ 31) → ∀ (j : Nat) (t : Triangle), (fanFrom a r)[j]? = some t →
          ∃ b c : Nat, r[j]? = some b ∧ r[j + 1]? = some c ∧ t = ((a : Int), (b : Int), (c : Int)) := by
        intro r
        induction r with
        | nil => intro _ j t h; simp [fanFrom] at h
        | cons b r ih =>
          intro hr j t h
          cases r with
          | nil => simp [fanFrom] at h
          | cons c r =>
            rw [fanFrom] at h
            cases j with
            | zero =>
              refine ⟨b, c, rfl, rfl, ?_⟩
              have eb : asInt b = b := if_pos (hr b (by simp))
              have ec : asInt c = c := if_pos (hr c (by simp))
              rw [ea, eb, ec] at h
              exact (Option.some.inj h).symm
            | succ j =>
              rw [List.getElem?_cons_succ] at h
              obtain ⟨x, y, h1, h2, h3⟩ := ih (fun i hi => hr i (List.mem_cons_of_mem _ hi)) j t h
              exact ⟨x, y, by simpa using h1, by simpa using h2, h3⟩
      intro j t ht
      obtain ⟨b, c, h1, h2, h3⟩ := key r (fun i hi => hvf i (List.mem_cons_of_mem _ hi)) j t ht
      exact ⟨a, b, c, rfl, by simpa using h1, by simpa using h2, h3⟩

end

/-- What passes the check is cut into triangles without an error, and each of them has vertices of the mesh. -/
theorem C89_safe {p : PolygonData} {numVertices : Nat} (h : errorMessage p numVertices = "") (hlt : p.indices.length < 2 ^ 32)
    (hn : numVertices ≤ 2 ^ 31) : ∃ ts, triangulate p.indices p.offsets = .ok ts ∧
      ∀ t ∈ ts, (0 ≤ t.1 ∧ t.1 < numVertices) ∧ (0 ≤ t.2.1 ∧ t.2.1 < numVertices) ∧ (0 ≤ t.2.2 ∧ t.2.2 < numVertices) := by
  obtain ⟨faces, hd, h3, hv, -⟩ := (C89_check p numVertices).mp h
  refine ⟨_, triangulate_fans hd h3 hlt, ?_⟩
  intro t ht
  obtain ⟨f, hf, ht⟩ := List.mem_flatMap.mp ht
  have hmem : ∀ i ∈ f, i < numVertices := fun i hi => hv i (hd.1 ▸ List.mem_flatten.mpr ⟨f, hf, hi⟩)
  cases f with
  | nil => simp [fan] at ht
  | cons a r =>
    obtain ⟨b, c, p, q, rfl, rfl⟩ := fanFrom_mem ht
    have ha := hmem a (by simp)
    have hb := hmem b (by simp)
    have hc := hmem c (by simp)
    have e : ∀ n : Nat, n < numVertices → asInt n = n := fun n hn' => if_pos (by omega)
    simp only [e a ha, e b hb, e c hc]
    omega

/-- The same for the texture array, which has the same polygons. -/
theorem C89_texture_safe {p : PolygonData} {numVertices : Nat} (h : errorMessage p numVertices = "") (hlt : p.indices.length < 2 ^ 32) :
    ∃ ts, triangulate p.textureIndices p.offsets = .ok ts ∧
      (p.textureIndices ≠ [] → ∃ ts', triangulate p.indices p.offsets = .ok ts' ∧ ts.length = ts'.length) := by
  obtain ⟨faces, hd, h3, -, ht⟩ := (C89_check p numVertices).mp h
  rcases ht with ht | ht
  · exact ⟨[], by rw [ht]; rfl, fun h => absurd ht h⟩
  · have hsteps := offsetsFrom_steps h3 0
    have hlast := offsetsFrom_getLast 0 faces
    rw [← hd.1, ← ht] at hlast
    obtain ⟨r, hr⟩ := offsetsFrom_cons 0 faces
    rw [hr] at hsteps hlast
    obtain ⟨faces', h1, h2, h4⟩ := cut_of_offsets r 0 p.textureIndices (fun k a b ha hb => (hsteps k a b ha hb).1) hlast
    have hd' : Describes faces' p.textureIndices p.offsets := ⟨h1, by rw [hd.2, hr, h2]⟩
    refine ⟨_, triangulate_fans hd' h4 (by omega), fun _ => ⟨_, triangulate_fans hd h3 hlt, ?_⟩⟩
    have c1 := C89_count hd h3 hlt
    have c2 := C89_count hd' h4 (by omega)
    obtain ⟨x, hx, hx'⟩ := c1
    obtain ⟨y, hy, hy'⟩ := c2
    rw [triangulate_fans hd h3 hlt] at hx
    rw [triangulate_fans hd' h4 (by omega)] at hy
    have ex : faces.flatMap fan = x := by cases hx; rfl
    have ey : faces'.flatMap fan = y := by cases hy; rfl
    rw [ex, ey]
    have hl : ∀ (s : Nat) (fs : List (List Nat)), (offsetsFrom s fs).length = fs.length + 1 := by
      intro s fs
      induction fs generalizing s with
      | nil => rfl
      | cons f fs ih => rw [offsetsFrom, List.length_cons, ih]; rfl
    have e1 := hl 0 faces
    have e2 := hl 0 faces'
    rw [← hd.2] at e1
    rw [← hd'.2] at e2
    omega

/-- A polygon with fewer than three vertices is rejected by both. -/
theorem C89_small_rejected {indices offsets : List Nat} {pre post : List (List Nat)} {f : List Nat}
    (hd : Describes (pre ++ f :: post) indices offsets) (hpre : ThreeVertices pre) (hf : f.length < 3) (h0 : indices ≠ []) (hlt : indices.length < 2 ^ 32)
    (tex : List Nat) (numVertices : Nat) : triangulate indices offsets = .throws ∧ errorMessage ⟨indices, offsets, tex⟩ numVertices ≠ "" := by
  obtain ⟨hi, ho⟩ := hd
  constructor
  · unfold triangulate
    rw [if_neg h0, if_neg (by obtain ⟨r, hr⟩ := offsetsFrom_cons 0 (pre ++ f :: post); rw [ho, hr]; simp)]
    have key : ∀ (pre : List (List Nat)) (done : List Nat) (acc : List Triangle), ThreeVertices pre →
        indices = done ++ (pre ++ f :: post).flatten → faceLoop indices (offsetsFrom done.length (pre ++ f :: post)) acc = .throws := by
      intro pre
      induction pre with
      | nil =>
        intro done acc _ hi
        obtain ⟨r, hr⟩ := offsetsFrom_cons (done.length + f.length) post
        have hlen : done.length + f.length ≤ indices.length := by rw [hi]; simp
        rw [List.nil_append, offsetsFrom, hr, faceLoop]
        refine if_pos ?_
        rw [show done.length + f.length + (2 ^ 32 - done.length) = f.length + 2 ^ 32 by omega, Nat.add_mod_right, Nat.mod_eq_of_lt (by omega)]
        exact hf
      | cons g pre ih =>
        intro done acc hp hi
        have hg := hp g (by simp)
        have hlen : done.length + g.length ≤ indices.length := by rw [hi]; simp
        -- the first polygon alone
        obtain ⟨r, hr⟩ := offsetsFrom_cons (done.length + g.length) (pre ++ f :: post)
        have hnv : (done.length + g.length + (2 ^ 32 - done.length)) % 2 ^ 32 = g.length := by
          rw [show done.length + g.length + (2 ^ 32 - done.length) = g.length + 2 ^ 32 by omega, Nat.add_mod_right, Nat.mod_eq_of_lt (by omega)]
        rw [List.cons_append, offsetsFrom, hr, faceLoop]
        simp only [hnv]
        rw [if_neg (by omega)]
        cases g with
        | nil => simp at hg
        | cons a q =>
          have hget : ∀ i, indices[done.length + i]? = ((a :: q) ++ (pre ++ f :: post).flatten)[i]? := by
            intro i
            rw [hi, List.getElem?_append_right (by omega)]
            simp
          rw [show (a :: q).length - 2 = q.length - 1 by simp only [List.length_cons]; omega, fanLoop_fan (a := a) (by simpa using hget 0) q]
          · simp only [Outcome.bind]
            rw [← hr]
            have := ih (done ++ (a :: q)) (acc ++ fanFrom a q) (fun x hx => hp x (List.mem_cons_of_mem _ hx)) (by rw [hi]; simp)
            rwa [List.length_append] at this
          · intro i hi'
            have := hget (i + 1)
            rw [show done.length + 1 + i = done.length + (i + 1) by omega, this]
            simp only [List.cons_append, List.getElem?_cons_succ]
            exact List.getElem?_append_left hi'
    rw [ho]
    exact key pre [] [] hpre hi
  · intro h
    obtain ⟨faces, ⟨-, hd2⟩, h3, -⟩ := (C89_check _ _).mp h
    rw [ho] at hd2
    dsimp only at hd2
    have : ∀ (s : Nat) (a b : List (List Nat)), offsetsFrom s a = offsetsFrom s b → a.map List.length = b.map List.length := by
      intro s a
      induction a generalizing s with
      | nil =>
        intro b h
        cases b with
        | nil => rfl
        | cons x b =>
          obtain ⟨r, hr⟩ := offsetsFrom_cons (s + x.length) b
          rw [offsetsFrom, offsetsFrom, hr] at h
          simp at h
      | cons x a ih =>
        intro b h
        cases b with
        | nil =>
          obtain ⟨r, hr⟩ := offsetsFrom_cons (s + x.length) a
          rw [offsetsFrom, offsetsFrom, hr] at h
          simp at h
        | cons y b =>
          rw [offsetsFrom, offsetsFrom] at h
          have h' := (List.cons.inj h).2
          have hxy : x.length = y.length := by
            obtain ⟨r, hr⟩ := offsetsFrom_cons (s + x.length) a
            obtain ⟨r', hr'⟩ := offsetsFrom_cons (s + y.length) b
            rw [hr, hr'] at h'
            have := (List.cons.inj h').1
            omega
          rw [hxy] at h'
          rw [List.map_cons, List.map_cons, hxy, ih _ _ h']
    have hm := this 0 _ _ hd2
    have hin : f.length ∈ faces.map List.length := by rw [← hm]; simp
    obtain ⟨g, hg, hgl⟩ := List.mem_map.mp hin
    have := h3 g hg
    omega

/-- The polygons of a file, written with a negative number at the end of each, are read and cut: what comes out passes the check, and
has the triangles of the polygons. -/
theorem C89_file {faces : List (List Nat)} {numVertices : Nat} (h3 : ThreeVertices faces) (hv : ∀ f ∈ faces, ∀ i ∈ f, i < numVertices)
    (hn : numVertices ≤ 2 ^ 31) (hlt : faces.flatten.length < 2 ^ 32) :
    Describes faces (readPolygons (faces.flatMap written)).indices (readPolygons (faces.flatMap written)).offsets ∧
      errorMessage (readPolygons (faces.flatMap written)) numVertices = "" := by
  have hr : readPolygons (faces.flatMap written) = ⟨faces.flatten, offsetsFrom 0 faces, []⟩ := by
    unfold readPolygons
    have := readPolygons_faces (faces := faces) (fun f hf => by have := h3 f hf; rintro rfl; simp at this)
      (fun f hf i hi => lt_of_lt_of_le (hv f hf i hi) hn) ⟨[], [0], []⟩ (by simpa using hlt) (os := []) rfl
    simpa using this
  rw [hr]
  refine ⟨⟨rfl, rfl⟩, ?_⟩
  rw [C89_check]
  refine ⟨faces, ⟨rfl, rfl⟩, h3, ?_, Or.inl rfl⟩
  intro i hi
  obtain ⟨f, hf, hi⟩ := List.mem_flatten.mp hi
  exact hv f hf i hi

/-- There is no warning exactly when every texture index is missing or is one of a texture coordinate. -/
theorem C89_warning (p : PolygonData) (n : Nat) : warnMessage p n = "" ↔ ∀ i ∈ p.textureIndices, i = 2 ^ 32 - 1 ∨ i < n := by
  unfold warnMessage
  constructor
  · intro h i hi
    by_contra hc
    rw [not_or] at hc
    rw [if_pos] at h
    · simp at h
    · rw [List.any_eq_true]
      exact ⟨i, hi, by simp only [ne_eq, hc.1, not_false_eq_true, decide_true, Bool.true_and, decide_eq_true_eq]; omega⟩
  · intro h
    refine if_neg ?_
    rw [List.any_eq_true]
    rintro ⟨i, hi, hc⟩
    rw [Bool.and_eq_true, decide_eq_true_eq, decide_eq_true_eq] at hc
    rcases h i hi with h | h
    · exact hc.1 h
    · omega

/-- The code violates the expectation: a polygon with a missing texture index passes both checks, and its triangles have -1 for it.
The caller adds the number of texture coordinates of earlier meshes, so that it becomes one of theirs. -/
theorem C89_missing_texture_counterexample :
    errorMessage ⟨[0, 1, 2], [0, 3], [0, 2 ^ 32 - 1, 1]⟩ 3 = "" ∧ warnMessage ⟨[0, 1, 2], [0, 3], [0, 2 ^ 32 - 1, 1]⟩ 2 = "" ∧
      triangulate [0, 2 ^ 32 - 1, 1] [0, 3] = .ok [(0, -1, 1)] := by decide

/-! ## Examples -/

/-- A square and a triangle. -/
example : triangulate [0, 1, 2, 3, 3, 2, 4] [0, 4, 7] = .ok [(0, 1, 2), (0, 2, 3), (3, 2, 4)] := by decide

example : readPolygons [0, 1, 2, -4, 3, 2, -5] = ⟨[0, 1, 2, 3, 3, 2, 4], [0, 4, 7], []⟩ := by decide

/-- The conditions of the theorems. -/
example : Describes [[0, 1, 2, 3], [3, 2, 4]] [0, 1, 2, 3, 3, 2, 4] [0, 4, 7] ∧ ThreeVertices [[0, 1, 2, 3], [3, 2, 4]] := by
  refine ⟨⟨by decide, by decide⟩, ?_⟩
  unfold ThreeVertices
  decide

example : errorMessage ⟨[0, 1, 2, 3, 3, 2, 4], [0, 4, 7], []⟩ 5 = "" := by decide

example : errorMessage ⟨[0, 1, 2, 3, 3, 2, 4], [0, 4, 6], []⟩ 5 = "Too few vertices in face" := by decide

end Momentum.Polygons
