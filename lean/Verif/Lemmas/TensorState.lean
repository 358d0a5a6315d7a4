import Verif.Model.TensorState
import Verif.Spec.TensorState
import Verif.Lemmas.FkDeriv
import Mathlib.Analysis.SpecialFunctions.Pow.Deriv

/-!
# Jets follow derivatives; the walks of the backward passes
-/

namespace Momentum
open Skeleton

/-- The Jet `j` holds the value and the derivative of `f` at `t`. -/
def Tracks (f : ℝ → ℝ) (j : Jet) (t : ℝ) : Prop := f t = j.fst ∧ HasDerivAt f j.snd t

namespace Tracks
variable {f g : ℝ → ℝ} {j k : Jet} {t : ℝ}

theorem const (c : ℝ) (t : ℝ) : Tracks (fun _ => c) (.ofReal c) t := ⟨rfl, hasDerivAt_const t c⟩

theorem add (h : Tracks f j t) (h2 : Tracks g k t) : Tracks (fun u => f u + g u) (j + k) t :=
  ⟨by simp [h.1, h2.1], (h.2.add h2.2).congr_deriv (by simp)⟩

theorem sub (h : Tracks f j t) (h2 : Tracks g k t) : Tracks (fun u => f u - g u) (j - k) t :=
  ⟨by simp [h.1, h2.1], (h.2.sub h2.2).congr_deriv (by simp)⟩

theorem mul (h : Tracks f j t) (h2 : Tracks g k t) : Tracks (fun u => f u * g u) (j * k) t := by
  refine ⟨by simp [h.1, h2.1], (h.2.mul h2.2).congr_deriv ?_⟩
  simp [h.1, h2.1]; ring

theorem sin (h : Tracks f j t) : Tracks (fun u => Real.sin (f u)) j.sin t := by
  refine ⟨by simp [Jet.sin, h.1], h.2.sin.congr_deriv ?_⟩
  simp [Jet.sin, h.1]

theorem cos (h : Tracks f j t) : Tracks (fun u => Real.cos (f u)) j.cos t := by
  refine ⟨by simp [Jet.cos, h.1], h.2.cos.congr_deriv ?_⟩
  simp [Jet.cos, h.1]

theorem pow2 (h : Tracks f j t) : Tracks (fun u => (2 : ℝ) ^ f u) j.pow2 t := by
  refine ⟨by simp [Jet.pow2, h.1], (h.2.const_rpow (a := 2) (by norm_num)).congr_deriv ?_⟩
  simp [Jet.pow2, h.1]; ring

theorem congr' (h : Tracks f j t) (e : ∀ u, g u = f u) : Tracks g j t := by
  have : g = f := funext e
  rw [this]; exact h

end Tracks

/-- Componentwise. -/
def TracksV (f : ℝ → Vec3 ℝ) (j : Vec3 Jet) (t : ℝ) : Prop :=
  Tracks (fun u => (f u).x) j.x t ∧ Tracks (fun u => (f u).y) j.y t ∧ Tracks (fun u => (f u).z) j.z t

/-- Componentwise. -/
def TracksQ (f : ℝ → Quat ℝ) (j : Quat Jet) (t : ℝ) : Prop :=
  Tracks (fun u => (f u).w) j.w t ∧ Tracks (fun u => (f u).x) j.x t ∧ Tracks (fun u => (f u).y) j.y t ∧
    Tracks (fun u => (f u).z) j.z t

/-- Componentwise. -/
def TracksT (f : ℝ → Transform ℝ) (j : Transform Jet) (t : ℝ) : Prop :=
  TracksQ (fun u => (f u).rotation) j.rotation t ∧ TracksV (fun u => (f u).translation) j.translation t ∧
    Tracks (fun u => (f u).scale) j.scale t

theorem TracksV.const (c : Vec3 ℝ) (t : ℝ) : TracksV (fun _ => c) c.toJet t := ⟨.const _ _, .const _ _, .const _ _⟩
theorem TracksQ.const (c : Quat ℝ) (t : ℝ) : TracksQ (fun _ => c) c.toJet t :=
  ⟨.const _ _, .const _ _, .const _ _, .const _ _⟩
theorem TracksT.const (c : Transform ℝ) (t : ℝ) : TracksT (fun _ => c) c.toJet t :=
  ⟨.const _ _, .const _ _, .const _ _⟩

theorem TracksV.add {f g : ℝ → Vec3 ℝ} {j k : Vec3 Jet} {t : ℝ} (h : TracksV f j t) (h2 : TracksV g k t) :
    TracksV (fun u => f u + g u) (j + k) t := ⟨h.1.add h2.1, h.2.1.add h2.2.1, h.2.2.add h2.2.2⟩

theorem TracksV.smul {f : ℝ → ℝ} {g : ℝ → Vec3 ℝ} {j : Jet} {k : Vec3 Jet} {t : ℝ} (h : Tracks f j t) (h2 : TracksV g k t) :
    TracksV (fun u => f u • g u) (j • k) t := ⟨h.mul h2.1, h.mul h2.2.1, h.mul h2.2.2⟩

theorem TracksV.cross {f g : ℝ → Vec3 ℝ} {j k : Vec3 Jet} {t : ℝ} (h : TracksV f j t) (h2 : TracksV g k t) :
    TracksV (fun u => (f u).cross (g u)) (j.cross k) t :=
  ⟨(h.2.1.mul h2.2.2).sub (h.2.2.mul h2.2.1), (h.2.2.mul h2.1).sub (h.1.mul h2.2.2), (h.1.mul h2.2.1).sub (h.2.1.mul h2.1)⟩

theorem TracksQ.mul {f g : ℝ → Quat ℝ} {j k : Quat Jet} {t : ℝ} (h : TracksQ f j t) (h2 : TracksQ g k t) :
    TracksQ (fun u => f u * g u) (j * k) t := by
  obtain ⟨fw, fx, fy, fz⟩ := h
  obtain ⟨gw, gx, gy, gz⟩ := h2
  exact ⟨(((fw.mul gw).sub (fx.mul gx)).sub (fy.mul gy)).sub (fz.mul gz),
    (((fw.mul gx).add (fx.mul gw)).add (fy.mul gz)).sub (fz.mul gy),
    (((fw.mul gy).add (fy.mul gw)).add (fz.mul gx)).sub (fx.mul gz),
    (((fw.mul gz).add (fz.mul gw)).add (fx.mul gy)).sub (fy.mul gx)⟩

theorem TracksQ.rotate {f : ℝ → Quat ℝ} {g : ℝ → Vec3 ℝ} {j : Quat Jet} {k : Vec3 Jet} {t : ℝ} (h : TracksQ f j t)
    (h2 : TracksV g k t) : TracksV (fun u => (f u).rotate (g u)) (j.rotate k) t := by
  have hv : TracksV (fun u => (f u).vec) j.vec t := h.2
  have huv := hv.cross h2
  exact (h2.add (TracksV.smul h.1 (huv.add huv))).add (hv.cross (huv.add huv))

theorem TracksT.mul {f g : ℝ → Transform ℝ} {j k : Transform Jet} {t : ℝ} (h : TracksT f j t) (h2 : TracksT g k t) :
    TracksT (fun u => f u * g u) (j * k) t :=
  ⟨h.1.mul h2.1, h.2.1.add (h.1.rotate (TracksV.smul h.2.2 h2.2.1)), h.2.2.mul h2.2.2⟩

theorem TracksQ.angleAxis {f : ℝ → ℝ} {j : Jet} {t : ℝ} (h : Tracks f j t) (axis : Vec3 ℝ) :
    TracksQ (fun u => Quat.angleAxis (f u) axis) (Quat.angleAxisJet j axis.toJet) t := by
  have ha : Tracks (fun u => f u / 2) (Jet.ofReal (1 / 2) * j) t :=
    ((Tracks.const (1 / 2) t).mul h).congr' (fun u => by ring)
  exact ⟨ha.cos, ha.sin.mul (.const _ _), ha.sin.mul (.const _ _), ha.sin.mul (.const _ _)⟩

theorem jetParameters_tracks (p : JointVec) (d k : Fin 7) :
    Tracks (fun u => Function.update p d u k) (jetParameters p d k) (p d) := by
  by_cases h : k = d
  · subst h
    refine ⟨by simp [jetParameters], ?_⟩
    simp only [Function.update_self]
    exact (hasDerivAt_id (p k)).congr_deriv (by simp [jetParameters])
  · refine ⟨by simp [jetParameters, h], ?_⟩
    simp only [Function.update_of_ne h]
    exact (hasDerivAt_const (p d) (p k)).congr_deriv (by simp [jetParameters, h])

/-- The local transform of the states follows `computeLocalTransform`. -/
theorem local_tracks (jt : Joint ℝ) (p : JointVec) (d : Fin 7) :
    TracksT (fun u => (⟨jt.preRotation * Quat.angleAxis (Function.update p d u 5) Vec3.unitZ *
        Quat.angleAxis (Function.update p d u 4) Vec3.unitY * Quat.angleAxis (Function.update p d u 3) Vec3.unitX,
        jt.translationOffset + ⟨Function.update p d u 0, Function.update p d u 1, Function.update p d u 2⟩,
        (2 : ℝ) ^ (Function.update p d u 6)⟩ : Transform ℝ))
      (computeLocalTransform jt (jetParameters p d)) (p d) := by
  have T := jetParameters_tracks p d
  exact ⟨(((TracksQ.const _ _).mul (.angleAxis (T 5) _)).mul (.angleAxis (T 4) _)).mul (.angleAxis (T 3) _),
    (TracksV.const _ _).add ⟨T 0, T 1, T 2⟩, (T 6).pow2⟩

/-- Weighted sum of the eight numbers of a transform. -/
noncomputable def weightedT (w : Fin 8 → ℝ) (x : Transform ℝ) : ℝ := ∑ c : Fin 8, w c * stateCoords x c

theorem jetLoss_deriv {f : ℝ → Transform ℝ} {j : Transform Jet} {t : ℝ} (h : TracksT f j t) (w : Fin 8 → ℝ) :
    HasDerivAt (fun u => weightedT w (f u)) (jetLoss w j) t := by
  obtain ⟨⟨qw, qx, qy, qz⟩, ⟨tx, ty, tz⟩, sc⟩ := h
  have c := fun i => Tracks.const (w i) t
  have H := ((((tx.mul (c 0)).add (ty.mul (c 1))).add (tz.mul (c 2))).2.add
    ((((qx.mul (c 3)).add (qy.mul (c 4))).add (qz.mul (c 5))).add (qw.mul (c 6))).2).add (sc.mul (c 7)).2
  refine hasDerivAt_congr H (fun u => ?_) rfl
  simp only [weightedT, stateCoords, Fin.sum_univ_eight, Pi.add_apply]
  simp only [Matrix.cons_val]
  ring

theorem addSeven_same (j : Nat) (f : Fin 7 → ℝ) (g : Nat → ℝ) (k : Fin 7) :
    addSeven j f g (7 * j + k) = g (7 * j + k) + f k := by
  fin_cases k <;> simp [addSeven, List.finRange, Function.update_apply]

theorem addSeven_other (j : Nat) (f : Fin 7 → ℝ) (g : Nat → ℝ) {a : Nat} (h : a ≠ j) (k : Fin 7) :
    addSeven j f g (7 * a + k) = g (7 * a + k) := by
  have : ∀ d : Fin 7, 7 * a + k.val ≠ 7 * j + d.val := fun d => by omega
  have e0 := this 0; have e1 := this 1; have e2 := this 2; have e3 := this 3; have e4 := this 4; have e5 := this 5
  have e6 := this 6
  simp at e0 e1 e2 e3 e4 e5 e6
  simp [addSeven, List.finRange, Function.update_apply, e0, e1, e2, e3, e4, e5, e6]

section
variable {s : Skeleton ℝ} (hv : s.Valid) (hpre : ∀ jt ∈ s.joints, jt.preRotation.normSq = 1) {params : List ℝ}
  (hlen : params.length = s.joints.length * 7) {st : List JointState} (hst : FKGood s params true st)
  (hsl : st.length = s.joints.length) {S : Nat → Fin 7 → ℝ → List JointState}
  (hS : ∀ a (k : Fin 7) u, FKGood s (params.set (7 * a + k) u) true (S a k u))
  (hSl : ∀ a k u, (S a k u).length = s.joints.length)

include hv hst hsl hS hSl in
/-- Moving a parameter of joint `a` does not move joints whose index is smaller. -/
theorem world_below {a p : Nat} (k : Fin 7) (h : p < a) (u : ℝ) : (S a k u)[p]? = st[p]? :=
  state_eq_of_not_anc hv hst (hS a k u) hsl (hSl a k u) (fun i hi => jointSlice_set_ne params hi k u) p
    fun hc => absurd (anc_le hv hc) (by omega)

include hv hpre hlen hst hsl hS hSl in
theorem backwardWalk_spec (w : Fin 8 → ℝ) {o : Option Nat} {l : List Nat} (hc : Chain s o l) :
    ∀ (accum : Transform ℝ) (g : Nat → ℝ), accum.rotation.normSq = 1 →
    ∃ g', backwardWalk s params st w o accum g = some g' ∧ ∀ a, a < s.joints.length → ∀ k : Fin 7,
      HasDerivAt (fun u => weightedT w (worldOf (S a k u) o * accum)) (g' (7 * a + k) - g (7 * a + k)) (jointSlice params a k) := by
  induction hc with
  | nil =>
    intro accum g _
    refine ⟨g, by rw [backwardWalk], fun a _ k => ?_⟩
    rw [sub_self]
    exact hasDerivAt_const _ (weightedT w (Transform.one * accum))
  | @cons j jt l hj hch ih =>
    intro accum g hacc
    have hjl : j < s.joints.length := getElem?_lt hj
    have e1 : st[j]? = some st[j] := List.getElem?_eq_getElem (by omega)
    have hpar : parentTransform st jt.parent = some (worldOf st jt.parent) := by
      cases hp : jt.parent with
      | none => rfl
      | some p =>
        have : p < st.length := by have := hv j jt p hj hp; omega
        simp [parentTransform, worldOf, List.getElem?_eq_getElem this]
    have hln : st[j].localTransform.rotation.normSq = 1 := (hst.local_unit hpre e1).1
    obtain ⟨g', hw, hd⟩ := ih (st[j].localTransform * accum) (addSeven j (fun d => jetLoss w ((worldOf st jt.parent).toJet *
      computeLocalTransform jt (jetParameters (jointSlice params j) d) * accum.toJet)) g) (Transform.normSq_mul hln hacc)
    refine ⟨g', ?_, fun a ha k => ?_⟩
    · rw [backwardWalk]
      simp only [hj, e1, hpar]
      exact hw
    · have H := hd a ha k
      have e2 : ∀ u, (S a k u)[j]? = some ((S a k u)[j]'(by rw [hSl]; exact hjl)) := fun u => List.getElem?_eq_getElem _
      have hun : ∀ u, (worldOf (S a k u) jt.parent).rotation.normSq = 1 := fun u => ((hS a k u).worldOf_unit hv hpre _).1
      have hloc : ∀ u, ((S a k u)[j]'(by rw [hSl]; exact hjl)).localTransform =
          ⟨jt.preRotation * Quat.angleAxis (jointSlice (params.set (7 * a + k) u) j 5) Vec3.unitZ *
            Quat.angleAxis (jointSlice (params.set (7 * a + k) u) j 4) Vec3.unitY *
            Quat.angleAxis (jointSlice (params.set (7 * a + k) u) j 3) Vec3.unitX,
            jt.translationOffset + ⟨jointSlice (params.set (7 * a + k) u) j 0, jointSlice (params.set (7 * a + k) u) j 1,
              jointSlice (params.set (7 * a + k) u) j 2⟩, (2 : ℝ) ^ (jointSlice (params.set (7 * a + k) u) j 6)⟩ := by
        intro u
        rw [(hS a k u).eq j jt _ hj (e2 u), localTransform_of_parts]
      by_cases haj : a = j
      · subst haj
        rw [addSeven_same] at H
        have hW : ∀ u, worldOf (S a k u) jt.parent = worldOf st jt.parent := by
          intro u
          cases hp : jt.parent with
          | none => rfl
          | some p => simp only [worldOf, world_below hv hst hsl hS hSl k (hv a jt p hj hp) u]
        simp only [hW] at H
        have hz := H.unique (hasDerivAt_const _ _)
        have T := ((TracksT.const (worldOf st jt.parent) _).mul (local_tracks jt (jointSlice params a) k)).mul
          (TracksT.const accum _)
        refine hasDerivAt_congr (jetLoss_deriv T w) (fun u => ?_) (by linarith)
        rw [(hS a k u).worldOf_eq hv hj (e2 u), hW, hloc, jointSlice_set_self params k u (by omega)]
      · rw [addSeven_other j _ g haj k] at H
        refine hasDerivAt_congr H (fun u => ?_) rfl
        have hl2 : ((S a k u)[j]'(by rw [hSl]; exact hjl)).localTransform = st[j].localTransform := by
          rw [hloc, jointSlice_set_ne params (fun h => haj h.symm) k u, hst.eq j jt _ hj e1, localTransform_of_parts]
        rw [(hS a k u).worldOf_eq hv hj (e2 u), hl2, Transform.mul_assoc' (hun u) hln]

include hv hpre hlen hst hsl hS hSl in
theorem stateBackward_fold (prec : ℝ) (w : Nat → ℝ) : ∀ (is : List Nat), (∀ i ∈ is, i < s.joints.length) → ∀ g : Nat → ℝ,
    ∃ g', is.foldlM (stateBackwardStep prec s params st w) g = some g' ∧ ∀ a, a < s.joints.length → ∀ k : Fin 7,
      HasDerivAt (fun u => (is.map fun i => weightedT (segment8 (dropSmallRows prec w) i) (worldOf (S a k u) (some i))).sum)
        (g' (7 * a + k) - g (7 * a + k)) (jointSlice params a k) := by
  intro is
  induction is with
  | nil =>
    intro _ g
    refine ⟨g, rfl, fun a _ k => ?_⟩
    rw [sub_self]
    exact hasDerivAt_const _ (0 : ℝ)
  | cons i is ih =>
    intro hi g
    have hil := hi i (by simp)
    obtain ⟨l, hl⟩ := chain_exists hv i hil
    have step : ∃ g1, stateBackwardStep prec s params st w g i = some g1 ∧ ∀ a, a < s.joints.length → ∀ k : Fin 7,
        HasDerivAt (fun u => weightedT (segment8 (dropSmallRows prec w) i) (worldOf (S a k u) (some i)))
          (g1 (7 * a + k) - g (7 * a + k)) (jointSlice params a k) := by
      have hdiv : ∀ c : Fin 8, (8 * i + c.val) / 8 = i := fun c => by omega
      by_cases hz : isZeroVec prec (segment8 w i)
      · have e : segment8 (dropSmallRows prec w) i = fun _ => 0 := by
          funext c
          simp only [segment8, dropSmallRows, hdiv]
          exact if_pos hz
        refine ⟨g, by rw [stateBackwardStep, if_pos hz], fun a _ k => ?_⟩
        rw [sub_self, e]
        refine hasDerivAt_congr (hasDerivAt_const _ (0 : ℝ)) (fun u => ?_) rfl
        simp [weightedT]
      · have e : segment8 (dropSmallRows prec w) i = segment8 w i := by
          funext c
          simp only [segment8, dropSmallRows, hdiv]
          exact if_neg hz
        obtain ⟨g1, h1, h2⟩ := backwardWalk_spec hv hpre hlen hst hsl hS hSl (segment8 w i) hl Transform.one g
          (by simp [Transform.one])
        refine ⟨g1, by rw [stateBackwardStep, if_neg hz, h1], fun a ha k => ?_⟩
        rw [e]
        refine hasDerivAt_congr (h2 a ha k) (fun u => ?_) rfl
        rw [Transform.mul_one']
    obtain ⟨g1, h1, h2⟩ := step
    obtain ⟨g', h3, h4⟩ := ih (fun j hj => hi j (by simp [hj])) g1
    refine ⟨g', by rw [List.foldlM_cons, h1]; exact h3, fun a ha k => ?_⟩
    refine hasDerivAt_congr ((h2 a ha k).add (h4 a ha k)) (fun u => ?_) (by ring)
    simp only [List.map_cons, List.sum_cons, Pi.add_apply]

theorem localBackward_step {prec : ℝ} {w : Nat → ℝ} {i : Nat} {jt : Joint ℝ} (hj : s.joints[i]? = some jt) (g : Nat → ℝ) :
    ∃ g1, localBackwardStep prec s params w g i = some g1 ∧
      (∀ a, a ≠ i → ∀ k : Fin 7, g1 (7 * a + k) = g (7 * a + k)) ∧
      ∀ k : Fin 7, g1 (7 * i + k) = g (7 * i + k) + jetLoss (segment8 (dropSmallRows prec w) i)
        (computeLocalTransform jt (jetParameters (jointSlice params i) k)) := by
  have hdiv : ∀ c : Fin 8, (8 * i + c.val) / 8 = i := fun c => by omega
  by_cases hz : isZeroVec prec (segment8 w i)
  · have e : segment8 (dropSmallRows prec w) i = fun _ => 0 := by
      funext c
      simp only [segment8, dropSmallRows, hdiv]
      exact if_pos hz
    refine ⟨g, by rw [localBackwardStep, if_pos hz], fun _ _ _ => rfl, fun k => ?_⟩
    rw [e]
    simp [jetLoss, Jet.ofReal]
  · have e : segment8 (dropSmallRows prec w) i = segment8 w i := by
      funext c
      simp only [segment8, dropSmallRows, hdiv]
      exact if_neg hz
    refine ⟨_, by rw [localBackwardStep, if_neg hz, hj]; rfl, fun a ha k => addSeven_other _ _ _ ha k, fun k => ?_⟩
    rw [addSeven_same, e]

include hlen hS hSl in
theorem localBackward_fold (prec : ℝ) (w : Nat → ℝ) : ∀ (is : List Nat), (∀ i ∈ is, i < s.joints.length) → ∀ g : Nat → ℝ,
    ∃ g', is.foldlM (localBackwardStep prec s params w) g = some g' ∧ ∀ a, a < s.joints.length → ∀ k : Fin 7,
      HasDerivAt (fun u => (is.map fun i => weightedT (segment8 (dropSmallRows prec w) i)
          (stateAt (S a k u) i).localTransform).sum)
        (g' (7 * a + k) - g (7 * a + k)) (jointSlice params a k) := by
  intro is
  induction is with
  | nil =>
    intro _ g
    refine ⟨g, rfl, fun a _ k => ?_⟩
    rw [sub_self]
    exact hasDerivAt_const _ (0 : ℝ)
  | cons i is ih =>
    intro hi g
    have hil := hi i (by simp)
    have hj : s.joints[i]? = some s.joints[i] := List.getElem?_eq_getElem hil
    obtain ⟨g1, h1, hne, hself⟩ := localBackward_step (params := params) (prec := prec) (w := w) hj g
    obtain ⟨g', h3, h4⟩ := ih (fun j hj => hi j (by simp [hj])) g1
    refine ⟨g', by rw [List.foldlM_cons, h1]; exact h3, fun a ha k => ?_⟩
    have hloc : ∀ u, (stateAt (S a k u) i).localTransform =
        ⟨s.joints[i].preRotation * Quat.angleAxis (jointSlice (params.set (7 * a + k) u) i 5) Vec3.unitZ *
          Quat.angleAxis (jointSlice (params.set (7 * a + k) u) i 4) Vec3.unitY *
          Quat.angleAxis (jointSlice (params.set (7 * a + k) u) i 3) Vec3.unitX,
          s.joints[i].translationOffset + ⟨jointSlice (params.set (7 * a + k) u) i 0,
            jointSlice (params.set (7 * a + k) u) i 1, jointSlice (params.set (7 * a + k) u) i 2⟩,
          (2 : ℝ) ^ (jointSlice (params.set (7 * a + k) u) i 6)⟩ := by
      intro u
      have e2 : (S a k u)[i]? = some ((S a k u)[i]'(by rw [hSl]; exact hil)) := List.getElem?_eq_getElem _
      rw [stateAt_eq e2, (hS a k u).eq i _ _ hj e2, localTransform_of_parts]
    have H : HasDerivAt (fun u => weightedT (segment8 (dropSmallRows prec w) i) (stateAt (S a k u) i).localTransform)
        (g1 (7 * a + k) - g (7 * a + k)) (jointSlice params a k) := by
      simp only [hloc]
      by_cases hai : a = i
      · subst hai
        rw [hself k]
        refine hasDerivAt_congr (jetLoss_deriv (local_tracks s.joints[a] (jointSlice params a) k) _) (fun u => ?_) (by ring)
        rw [jointSlice_set_self params k u (by omega)]
      · rw [hne a hai k, sub_self]
        simp only [jointSlice_set_ne params (fun h => hai h.symm) k]
        exact hasDerivAt_const _ _
    refine hasDerivAt_congr (H.add (h4 a ha k)) (fun u => ?_) (by ring)
    simp only [List.map_cons, List.sum_cons, Pi.add_apply]

/-- Rates in which only parameter `k` of joint `a` moves. -/
def unitRates (a : Nat) (k : Fin 7) (b : Nat) : Fin 7 → ℝ := fun d => if b = a ∧ d = k then 1 else 0

include hsl hst in
theorem positionWalk_spec (d pw : Vec3 ℝ) {o : Option Nat} {l : List Nat} (hc : Chain s o l) : ∀ g : Nat → ℝ,
    ∃ g', positionWalk s st d pw o g = some g' ∧ ∀ a (k : Fin 7),
      g' (7 * a + k) = g (7 * a + k) + (l.map fun b => d.dot (jointVel (stateAt st b) (unitRates a k b) pw)).sum := by
  induction hc with
  | nil => exact fun g => ⟨g, by rw [positionWalk], by simp⟩
  | @cons j jt l hj hch ih =>
    intro g
    have hjl : j < s.joints.length := getElem?_lt hj
    have e1 : st[j]? = some st[j] := List.getElem?_eq_getElem (by omega)
    have hclean : st[j].derivDirty = false := by
      rw [hst.eq j jt _ hj e1]
      cases jt.parent.bind (st[·]?) <;> rfl
    obtain ⟨g', hw, hd⟩ := ih (addSeven j ![d.dot (st[j].translationAxis 0), d.dot (st[j].translationAxis 1),
      d.dot (st[j].translationAxis 2), d.dot ((st[j].rotationAxis 0).cross (pw - st[j].transform.translation)),
      d.dot ((st[j].rotationAxis 1).cross (pw - st[j].transform.translation)),
      d.dot ((st[j].rotationAxis 2).cross (pw - st[j].transform.translation)),
      d.dot (st[j].getScaleDerivative (pw - st[j].transform.translation))] g)
    refine ⟨g', ?_, fun a k => ?_⟩
    · rw [positionWalk]
      simp only [hj, e1, JointState.getTranslationDerivative, JointState.getRotationDerivative, hclean]
      exact hw
    · rw [hd a k, List.map_cons, List.sum_cons, ← add_assoc]
      congr 1
      rw [stateAt_eq e1]
      by_cases haj : a = j
      · subst haj
        rw [addSeven_same]
        congr 1
        fin_cases k <;>
          simp [jointVel, jointSpin, unitRates, Vec3.dot, Vec3.cross, JointState.getScaleDerivative] <;> try ring
      · rw [addSeven_other j _ g haj k]
        have : unitRates a k j = fun _ => 0 := by
          funext x; exact if_neg fun h => haj h.1.symm
        rw [this]
        simp [jointVel, jointSpin, Vec3.dot, Vec3.cross]

include hlen in
/-- The parameters move at the unit rates. -/
theorem set_rates {a : Nat} (ha : a < s.joints.length) (k : Fin 7) (i : Nat) :
    HasDerivAt (fun u => (params.set (7 * a + k) u).getD i 0) ((fun n => if n = 7 * a + k then (1 : ℝ) else 0) i)
      (jointSlice params a k) := by
  by_cases h : i = 7 * a + k
  · subst h
    refine hasDerivAt_congr (hasDerivAt_id _) (fun u => ?_) (by simp)
    rw [List.getD_eq_getElem?_getD, List.getElem?_set_self (by omega)]; rfl
  · refine hasDerivAt_congr (hasDerivAt_const _ (params.getD i 0)) (fun u => ?_) (by simp [h])
    simp only [List.getD_eq_getElem?_getD]
    rw [List.getElem?_set_ne (fun e => h e.symm)]

include hv hpre hlen hst hsl hS hSl in
theorem positionWalk_deriv (d x : Vec3 ℝ) {j : Nat} (hj : j < s.joints.length) (g : Nat → ℝ) :
    ∃ g', positionWalk s st d ((worldOf st (some j)).transformPoint x) (some j) g = some g' ∧
      ∀ a, a < s.joints.length → ∀ k : Fin 7,
      HasDerivAt (fun u => d.dot ((worldOf (S a k u) (some j)).transformPoint x)) (g' (7 * a + k) - g (7 * a + k))
        (jointSlice params a k) := by
  obtain ⟨l, hl⟩ := chain_exists hv j hj
  obtain ⟨g', h1, h2⟩ := positionWalk_spec hst hsl d ((worldOf st (some j)).transformPoint x) hl g
  refine ⟨g', h1, fun a ha k => ?_⟩
  have hself : S a k (jointSlice params a k) = st := by
    have hp : params.set (7 * a + k) (jointSlice params a k) = params := by
      apply List.ext_getElem (by simp)
      intro n h3 h4
      rw [List.getElem_set]
      split
      · next h => subst h; simp [jointSlice, List.getElem?_eq_getElem h4]
      · rfl
    have hG := hS a k (jointSlice params a k)
    rw [hp] at hG
    apply List.ext_getElem?
    intro n
    exact state_eq_of_not_anc (a := n + 1) hv hst hG hsl (hSl _ _ _) (fun _ _ => rfl) n
      (fun hc => by have := anc_le hv hc; omega)
  have H := chain_vel hv hpre (fun u => hS a k u) (fun u => hSl a k u) (set_rates (s := s) hlen ha k) hl x
  have hr : ∀ b, ratesOf (fun n => if n = 7 * a + k then (1 : ℝ) else 0) b = unitRates a k b := by
    intro b
    funext e
    simp only [ratesOf, unitRates]
    have : (7 * b + e.val = 7 * a + k.val) ↔ (b = a ∧ e = k) := by
      constructor
      · intro h; exact ⟨by omega, Fin.ext (by omega)⟩
      · rintro ⟨rfl, rfl⟩; rfl
    simp [this]
  rw [hself] at H
  simp only [hr] at H
  have H2 := HasVecDerivAt.dot (HasVecDerivAt.const d (jointSlice params a k)) H
  refine H2.congr_deriv ?_
  rw [h2 a k]
  have hsum : ∀ L : List Nat, d.dot ((L.map fun b => jointVel (stateAt st b) (unitRates a k b)
      ((worldOf st (some j)).transformPoint x)).sum) = (L.map fun b => d.dot (jointVel (stateAt st b) (unitRates a k b)
      ((worldOf st (some j)).transformPoint x))).sum := by
    intro L
    induction L with
    | nil => simp [Vec3.dot]
    | cons b L ih => rw [List.map_cons, List.sum_cons, List.map_cons, List.sum_cons, ← ih]; simp [Vec3.dot]; ring
  rw [hsum]
  simp [Vec3.dot]

end

end Momentum
