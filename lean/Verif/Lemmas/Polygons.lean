import Verif.Spec.Polygons
import Mathlib.Tactic.Abel

/-! Helper lemmas for C89. -/

namespace Momentum.Polygons

/-- The triangles of a polygon: a fan around its first vertex. -/
def fanFrom (a : Nat) : List Nat → List Triangle
  | b :: c :: r => (asInt a, asInt b, asInt c) :: fanFrom a (c :: r)
  | _ => []

/-- The fan of a list of vertices. -/
def fan : List Nat → List Triangle
  | [] => []
  | a :: r => fanFrom a r

theorem fanFrom_length (a : Nat) (r : List Nat) : (fanFrom a r).length = r.length - 1 := by
  induction r with
  | nil => rfl
  | cons b r ih =>
    cases r with
    | nil => rfl
    | cons c r => simp only [fanFrom, List.length_cons] at ih ⊢; omega

theorem fan_length (f : List Nat) : (fan f).length = f.length - 2 := by
  cases f with
  | nil => rfl
  | cons a r => rw [fan, fanFrom_length]; simp only [List.length_cons]; omega

theorem fanLoop_fan {indices : List Nat} {s a : Nat} (ha : indices[s]? = some a) (r : List Nat) :
    ∀ (j : Nat) (acc : List Triangle), (∀ i, i < r.length → indices[s + j + i]? = r[i]?) →
      fanLoop indices s j (r.length - 1) acc = .ok (acc ++ fanFrom a r) := by
  induction r with
  | nil => intro j acc _; simp [fanLoop, fanFrom]
  | cons b r ih =>
    intro j acc h
    cases r with
    | nil => simp [fanLoop, fanFrom]
    | cons c r =>
      have hb : indices[s + j]? = some b := by simpa using h 0 (by simp)
      have hc : indices[s + j + 1]? = some c := by simpa using h 1 (by simp)
      rw [show (b :: c :: r).length - 1 = ((c :: r).length - 1) + 1 by simp]
      rw [fanLoop]
      have ht : fanTriangle indices s j = .ok (asInt a, asInt b, asInt c) := by
        unfold fanTriangle
        rw [Nat.add_zero, ha, hb, hc]
      rw [ht]
      simp only [Outcome.bind]
      rw [ih (j + 1)]
      · simp [fanFrom]
      · intro i hi
        have := h (i + 1) (by simpa using hi)
        rw [List.getElem?_cons_succ] at this
        rw [← this]
        congr 1
        omega

theorem offsetsFrom_cons (s : Nat) (fs : List (List Nat)) : ∃ r, offsetsFrom s fs = s :: r := by
  cases fs with
  | nil => exact ⟨[], rfl⟩
  | cons f fs => exact ⟨_, rfl⟩

theorem faceLoop_fans {indices pre : List Nat} {faces : List (List Nat)} (hi : indices = pre ++ faces.flatten) (h3 : ThreeVertices faces)
    (hlt : indices.length < 2 ^ 32) (acc : List Triangle) :
    faceLoop indices (offsetsFrom pre.length faces) acc = .ok (acc ++ faces.flatMap fan) := by
  induction faces generalizing pre acc with
  | nil => simp [offsetsFrom, faceLoop]
  | cons f fs ih =>
    have hf : 3 ≤ f.length := h3 f (by simp)
    obtain ⟨r, hr⟩ := offsetsFrom_cons (pre.length + f.length) fs
    have hih := ih (pre := pre ++ f) (by rw [hi]; simp) (fun g hg => h3 g (List.mem_cons_of_mem _ hg))
    rw [List.length_append] at hih
    have hlen : pre.length + f.length ≤ indices.length := by rw [hi]; simp
    have hnv : (pre.length + f.length + (2 ^ 32 - pre.length)) % 2 ^ 32 = f.length := by
      rw [show pre.length + f.length + (2 ^ 32 - pre.length) = f.length + 2 ^ 32 by omega, Nat.add_mod_right, Nat.mod_eq_of_lt (by omega)]
    rw [offsetsFrom, hr, faceLoop]
    simp only [hnv]
    rw [if_neg (by omega)]
    cases f with
    | nil => simp at hf
    | cons a q =>
      have hget : ∀ i, indices[pre.length + i]? = ((a :: q) ++ fs.flatten)[i]? := by
        intro i
        rw [hi, List.getElem?_append_right (by omega)]
        simp
      rw [show (a :: q).length - 2 = q.length - 1 by simp only [List.length_cons]; omega, fanLoop_fan (a := a) (by simpa using hget 0) q]
      · simp only [Outcome.bind]
        rw [← hr, hih]
        simp [fan]
      · intro i hi'
        have := hget (i + 1)
        rw [show pre.length + 1 + i = pre.length + (i + 1) by omega, this]
        simp only [List.cons_append, List.getElem?_cons_succ]
        exact List.getElem?_append_left hi'

theorem triangulate_fans {indices offsets : List Nat} {faces : List (List Nat)} (hd : Describes faces indices offsets) (h3 : ThreeVertices faces)
    (hlt : indices.length < 2 ^ 32) : triangulate indices offsets = .ok (faces.flatMap fan) := by
  obtain ⟨hi, rfl⟩ := hd
  unfold triangulate
  by_cases h0 : indices = []
  · rw [if_pos h0]
    have : faces = [] := by
      cases faces with
      | nil => rfl
      | cons f fs =>
        have hf := h3 f (by simp)
        rw [h0] at hi
        have := congrArg List.length hi
        simp at this
        omega
    rw [this]
    rfl
  · rw [if_neg h0, if_neg (by obtain ⟨r, hr⟩ := offsetsFrom_cons 0 faces; rw [hr]; simp)]
    exact faceLoop_fans (pre := []) hi h3 hlt []

section
variable {G : Type} [AddCommGroup G] {w : Int → Int → G}

/-- Sum along a path. -/
def pathSum (w : Int → Int → G) : List Nat → G
  | a :: b :: r => w a b + pathSum w (b :: r)
  | _ => 0

theorem fanFrom_sum (hw : ∀ a b, w a b = -w b a) (a b : Nat) (r : List Nat) (ha : a < 2 ^ 31) (hr : ∀ i ∈ b :: r, i < 2 ^ 31) :
    ((fanFrom a (b :: r)).map (triangleSum w)).sum = w a b + pathSum w (b :: r) + w ((b :: r).getLast (by simp)) a := by
  induction r generalizing b with
  | nil =>
    simp only [fanFrom, List.map_nil, List.sum_nil, pathSum, List.getLast_singleton]
    rw [hw b a]
    abel
  | cons c r ih =>
    have hb : b < 2 ^ 31 := hr b (by simp)
    have hc : c < 2 ^ 31 := hr c (by simp)
    have := ih c fun i hi => hr i (List.mem_cons_of_mem _ hi)
    simp only [fanFrom, List.map_cons, List.sum_cons, pathSum, triangleSum, this]
    rw [List.getLast_cons_cons]
    have e : ∀ n : Nat, n < 2 ^ 31 → asInt n = n := fun n hn => if_pos hn
    rw [e a ha, e b hb, e c hc, hw c a]
    abel

theorem boundarySum_path (a : Nat) (r : List Nat) : boundarySum w (a :: r) = pathSum w (a :: r) + w ((a :: r).getLast (by simp)) a := by
  unfold boundarySum
  rw [List.rotate_cons_succ, List.rotate_zero]
  have key : ∀ (x : Nat) (r : List Nat), (((x :: r).zip (r ++ [a])).map fun e => w e.1 e.2).sum = pathSum w (x :: r) + w ((x :: r).getLast (by simp)) a := by
    intro x r
    induction r generalizing x with
    | nil => simp [pathSum]
    | cons y r ih =>
      rw [List.cons_append, List.zip_cons_cons, List.map_cons, List.sum_cons, ih y, pathSum, List.getLast_cons_cons]
      abel
  exact key a r

theorem fan_sum (hw : ∀ a b, w a b = -w b a) {f : List Nat} (h3 : 3 ≤ f.length) (hf : ∀ i ∈ f, i < 2 ^ 31) :
    ((fan f).map (triangleSum w)).sum = boundarySum w f := by
  match f, h3 with
  | a :: b :: r, _ =>
    rw [fan, fanFrom_sum hw a b r (hf a (by simp)) fun i hi => hf i (List.mem_cons_of_mem _ hi), boundarySum_path, pathSum,
      List.getLast_cons_cons]

end

theorem fanFrom_mem {a : Nat} {r : List Nat} {t : Triangle} (h : t ∈ fanFrom a r) :
    ∃ b c p q, r = p ++ b :: c :: q ∧ t = (asInt a, asInt b, asInt c) := by
  induction r with
  | nil => simp [fanFrom] at h
  | cons b r ih =>
    cases r with
    | nil => simp [fanFrom] at h
    | cons c r =>
      rw [fanFrom, List.mem_cons] at h
      rcases h with rfl | h
      · exact ⟨b, c, [], r, rfl, rfl⟩
      · obtain ⟨x, y, p, q, h1, h2⟩ := ih h
        exact ⟨x, y, b :: p, q, by rw [h1]; rfl, h2⟩

/-! ### The check of the arrays -/

theorem facesError_iff (indices : List Nat) : ∀ (offsets : List Nat), facesError indices offsets = "" ↔
    ∀ (k s e : Nat), offsets[k]? = some s → offsets[k + 1]? = some e → s + 3 ≤ e ∧ e ≤ indices.length := by
  intro offsets
  induction offsets with
  | nil => simp [facesError]
  | cons s os ih =>
    cases os with
    | nil => simp [facesError]
    | cons e os =>
      rw [facesError]
      constructor
      · intro h k s' e' h1 h2
        split at h
        · simp at h
        · split at h
          · simp at h
          · split at h
            · simp at h
            · cases k with
              | zero =>
                simp at h1 h2
                omega
              | succ k =>
                rw [List.getElem?_cons_succ] at h1 h2
                exact ih.mp h k s' e' h1 h2
      · intro h
        have h0 := h 0 s e rfl rfl
        rw [if_neg (by omega), if_neg (by omega), if_neg (by omega), ih]
        intro k s' e' h1 h2
        exact h (k + 1) s' e' (by simpa using h1) (by simpa using h2)

/-- Offsets that go up cut a list into pieces. -/
theorem cut_of_offsets : ∀ (offsets : List Nat) (s : Nat) (rest : List Nat),
    (∀ (k a b : Nat), (s :: offsets)[k]? = some a → (s :: offsets)[k + 1]? = some b → a + 3 ≤ b) →
    (s :: offsets).getLast? = some (s + rest.length) →
    ∃ faces, rest = faces.flatten ∧ s :: offsets = offsetsFrom s faces ∧ ThreeVertices faces := by
  intro offsets
  induction offsets with
  | nil =>
    intro s rest _ hl
    have : rest = [] := by
      simp at hl
      exact hl
    exact ⟨[], by simp [this], rfl, by intro f hf; simp at hf⟩
  | cons e os ih =>
    intro s rest h hl
    have h0 := h 0 s e rfl rfl
    have hmono : ∀ (k a : Nat), (e :: os)[k]? = some a → e ≤ a := by
      intro k
      induction k with
      | zero => intro a ha; simp at ha; omega
      | succ k ihk =>
        intro a ha
        have hk : k < (e :: os).length := by
          have := (List.getElem?_eq_some_iff.mp ha).1
          omega
        have h1 := ihk _ (List.getElem?_eq_getElem hk)
        have h2 := h (k + 1) _ a (by rw [List.getElem?_cons_succ]; exact List.getElem?_eq_getElem hk) (by rw [List.getElem?_cons_succ]; exact ha)
        omega
    have hlast : e ≤ s + rest.length := by
      rw [List.getLast?_cons_cons] at hl
      rw [List.getLast?_eq_getElem?] at hl
      exact hmono _ _ hl
    have hcut := ih e (rest.drop (e - s)) (by
      intro k a b h1 h2
      exact h (k + 1) a b (by simpa using h1) (by simpa using h2)) (by
      rw [List.getLast?_cons_cons] at hl
      rw [hl, List.length_drop]
      congr 1
      omega)
    obtain ⟨faces, h1, h2, h3⟩ := hcut
    refine ⟨rest.take (e - s) :: faces, ?_, ?_, ?_⟩
    · rw [List.flatten_cons, ← h1, List.take_append_drop]
    · rw [offsetsFrom, List.length_take, Nat.min_eq_left (by omega), show s + (e - s) = e by omega, ← h2]
    · intro f hf
      rcases List.mem_cons.mp hf with rfl | hf
      · rw [List.length_take]; omega
      · exact h3 f hf

theorem offsetsFrom_getLast (s : Nat) (faces : List (List Nat)) : (offsetsFrom s faces).getLast? = some (s + faces.flatten.length) := by
  induction faces generalizing s with
  | nil => simp [offsetsFrom]
  | cons f fs ih =>
    obtain ⟨r, hr⟩ := offsetsFrom_cons (s + f.length) fs
    have := ih (s + f.length)
    rw [offsetsFrom, hr, List.getLast?_cons_cons, ← hr, this]
    simp [Nat.add_assoc]

theorem offsetsFrom_steps {faces : List (List Nat)} (h3 : ThreeVertices faces) (s : Nat) : ∀ (k a b : Nat), (offsetsFrom s faces)[k]? = some a →
    (offsetsFrom s faces)[k + 1]? = some b → a + 3 ≤ b ∧ b ≤ s + faces.flatten.length := by
  induction faces generalizing s with
  | nil => intro k a b _ h; simp [offsetsFrom] at h
  | cons f fs ih =>
    have hf := h3 f (by simp)
    intro k a b h1 h2
    rw [offsetsFrom] at h1 h2
    rw [List.getElem?_cons_succ] at h2
    cases k with
    | zero =>
      obtain ⟨r, hr⟩ := offsetsFrom_cons (s + f.length) fs
      rw [hr] at h2
      simp at h1 h2
      subst h1
      subst h2
      simp
      omega
    | succ k =>
      rw [List.getElem?_cons_succ] at h1
      have := ih (fun g hg => h3 g (List.mem_cons_of_mem _ hg)) (s + f.length) k a b h1 h2
      simp only [List.flatten_cons, List.length_append]
      omega

/-! ### Reading -/

theorem readIndex_face {f : List Nat} (h0 : f ≠ []) (hf : ∀ i ∈ f, i < 2 ^ 31) (p : PolygonData) (hl : p.indices.length + f.length < 2 ^ 32) :
    (written f).foldl readIndex p = ⟨p.indices ++ f, p.offsets ++ [p.indices.length + f.length], p.textureIndices⟩ := by
  have hu : ∀ i : Nat, i < 2 ^ 31 → asUnsigned (i : Int) = i := by
    intro i hi
    unfold asUnsigned
    rw [Int.emod_eq_of_lt (by omega) (by omega)]
    simp
  induction f generalizing p with
  | nil => exact absurd rfl h0
  | cons i f ih =>
    have hi := hf i (by simp)
    cases f with
    | nil =>
      simp only [written, List.foldl_cons, List.foldl_nil, readIndex]
      rw [if_pos (by omega), show -(-((i : Int) + 1) + 1) = (i : Int) by ring, hu i hi, Nat.mod_eq_of_lt (by simpa using hl)]
      simp
    | cons j f =>
      simp only [written, List.foldl_cons]
      have h1 : readIndex p (i : Int) = { p with indices := p.indices ++ [i] } := by
        unfold readIndex
        rw [if_neg (by omega), hu i hi]
      rw [h1, ih (by simp) (fun x hx => hf x (List.mem_cons_of_mem _ hx)) _ (by simp only [List.length_append, List.length_cons, List.length_nil] at hl ⊢; omega)]
      simp
      omega

theorem readPolygons_faces {faces : List (List Nat)} (h0 : ∀ f ∈ faces, f ≠ []) (hf : ∀ f ∈ faces, ∀ i ∈ f, i < 2 ^ 31) (p : PolygonData)
    (hl : p.indices.length + faces.flatten.length < 2 ^ 32) {os : List Nat} (ho : p.offsets = os ++ [p.indices.length]) :
    (faces.flatMap written).foldl readIndex p = ⟨p.indices ++ faces.flatten, os ++ offsetsFrom p.indices.length faces, p.textureIndices⟩ := by
  induction faces generalizing p os with
  | nil => simp [offsetsFrom, ← ho]
  | cons f fs ih =>
    rw [List.flatMap_cons, List.foldl_append, readIndex_face (h0 f (by simp)) (hf f (by simp)) p (by
      simp only [List.flatten_cons, List.length_append] at hl; omega)]
    have := ih (fun g hg => h0 g (List.mem_cons_of_mem _ hg)) (fun g hg => hf g (List.mem_cons_of_mem _ hg))
      ⟨p.indices ++ f, p.offsets ++ [p.indices.length + f.length], p.textureIndices⟩ (by
        simp only [List.flatten_cons, List.length_append] at hl ⊢; omega) (os := p.offsets) (by simp)
    rw [this, ho]
    simp [offsetsFrom]

end Momentum.Polygons
