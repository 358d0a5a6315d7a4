import Verif.Lemmas.SequencePipeline
import Mathlib.Algebra.BigOperators.Intervals
import Mathlib.Algebra.Order.BigOperators.Group.Finset

/-!
# The pipeline comes to an end
-/

namespace Momentum
open Finset

variable {S L R K P : Type}

/-- The steps a task may still need from the start of frame `i` on, apart from those paid by the frames it moves and takes. -/
def FrameJobs.toGo (J : FrameJobs S L R K) (range : Nat × Nat) (i : Nat) : Nat :=
  4 + ∑ f ∈ Ico i range.2, (J.steps f + J.addSteps + 11)

/-- ... and from where it is. -/
def PipePc.toGo (J : FrameJobs S L R K) (range : Nat × Nat) : PipePc L R K → Nat
  | .head i => J.toGo range i
  | .work i k _ => J.toGo range (i + 1) + J.addSteps + 10 + (J.steps i - k)
  | .pushWait i _ => J.toGo range (i + 1) + J.addSteps + 9
  | .push i _ => J.toGo range (i + 1) + J.addSteps + 8
  | .scan i => J.toGo range (i + 1) + J.addSteps + 7
  | .readyWait i => J.toGo range (i + 1) + J.addSteps + 6
  | .move i => J.toGo range (i + 1) + J.addSteps + 5
  | .advance i => J.toGo range (i + 1) + 1
  | .tryDrain => 3
  | .takeWait => 2
  | .take => 1
  | .add k _ _ => 3 + (J.addSteps - k)
  | .stop => 0

/-- A bound on the number of steps all tasks together can still take. -/
def PipeState.toGo (J : FrameJobs S L R K) (tasks : List (Nat × Nat)) (σ : PipeState S L R K) : Nat :=
  ∑ t ∈ Finset.range tasks.length, (σ.pcs t).toGo J (tasks.getD t (0, 0)) + (J.addSteps + 7) * (J.nFrames - σ.next) +
    (J.addSteps + 3) * σ.ready.length

theorem FrameJobs.toGo_succ (J : FrameJobs S L R K) {range : Nat × Nat} {i : Nat} (h : i < range.2) :
    J.toGo range i = J.toGo range (i + 1) + J.steps i + J.addSteps + 11 := by
  unfold FrameJobs.toGo
  rw [Finset.sum_eq_sum_Ico_succ_bot h]
  omega

theorem PipeStep.toGo [Add K] [Zero K] {J : FrameJobs S L R K} {view : Option Nat → S → P}
    {s0 : S} {tasks : List (Nat × Nat)} {own : Nat → Nat}
    {σ σ' : PipeState S L R K} {t : Nat} {range : Nat × Nat} (ht : tasks[t]? = some range)
    (hs : PipeStep J tasks σ t range σ') (hi : PipeInv J view s0 tasks own σ) : σ'.toGo J tasks < σ.toGo J tasks := by
  have hlt : t ∈ Finset.range tasks.length := Finset.mem_range.mpr (List.getElem?_eq_some_iff.mp ht).1
  have hget : tasks.getD t (0, 0) = range := by simp [List.getD_eq_getElem?_getD, ht]
  have hw := hi.frames.within t range ht
  unfold PipeState.toGo
  rw [← Finset.add_sum_erase _ _ hlt, ← Finset.add_sum_erase (Finset.range tasks.length) (fun t => (σ.pcs t).toGo J _) hlt]
  have hrest : ∑ u ∈ (Finset.range tasks.length).erase t, (σ'.pcs u).toGo J (tasks.getD u (0, 0)) =
      ∑ u ∈ (Finset.range tasks.length).erase t, (σ.pcs u).toGo J (tasks.getD u (0, 0)) :=
    Finset.sum_congr rfl fun u hu => by rw [hs.other (Finset.ne_of_mem_erase hu)]
  rw [hrest, hget]
  generalize ∑ u ∈ (Finset.range tasks.length).erase t, (σ.pcs u).toGo J (tasks.getD u (0, 0)) = rest
  cases hs with
  | past i pc h1 h2 =>
    rw [PipeState.goto_self, pc]
    have : 4 ≤ J.toGo range i := Nat.le_add_right _ _
    simp only [PipePc.toGo, PipeState.goto]; omega
  | begin i pc h1 h2 =>
    rw [PipeState.goto_self, pc]
    have := J.toGo_succ h1
    simp only [PipePc.toGo, PipeState.goto]; omega
  | leave i pc h1 =>
    rw [PipeState.goto_self, pc]
    have : 4 ≤ J.toGo range i := Nat.le_add_right _ _
    simp only [PipePc.toGo, PipeState.goto]; omega
  | column i k l s l' pc h1 h2 => rw [PipeState.goto_self, pc]; simp only [PipePc.toGo, PipeState.goto]; omega
  | finishWork i k l pc h1 => rw [PipeState.goto_self, pc]; simp only [PipePc.toGo, PipeState.goto]; omega
  | lockReorder i r pc h1 => rw [PipeState.goto_self, pc]; simp only [PipePc.toGo, PipeState.goto]; omega
  | push i r pc => rw [PipeState.goto_self, pc]; simp only [PipePc.toGo, PipeState.goto]; omega
  | scanHit i a as pc h1 h2 => rw [PipeState.goto_self, pc]; simp only [PipePc.toGo, PipeState.goto]; omega
  | scanMiss i pc h1 => rw [PipeState.goto_self, pc]; simp only [PipePc.toGo, PipeState.goto]; omega
  | lockReady i pc h1 => rw [PipeState.goto_self, pc]; simp only [PipePc.toGo, PipeState.goto]; omega
  | move i a pc h1 =>
    rw [PipeState.goto_self, pc]
    simp only [PipePc.toGo, PipeState.goto, List.length_append, List.length_singleton]
    rw [Nat.mul_add]
    omega
  | advance i pc =>
    have htop := hi.buffer.top t (by rw [pc]; rfl)
    have hmem := hi.buffer.mem _ (List.mem_of_head? htop)
    have hn : σ.next < J.nFrames := hmem.1
    rw [PipeState.goto_self, pc]
    simp only [PipePc.toGo, PipeState.goto]
    rw [show J.nFrames - σ.next = (J.nFrames - (σ.next + 1)) + 1 by omega, Nat.mul_add]
    omega
  | tryOk pc h1 => rw [PipeState.goto_self, pc]; simp only [PipePc.toGo, PipeState.goto]; omega
  | tryFail pc => rw [PipeState.goto_self, pc]; simp only [PipePc.toGo, PipeState.goto]; omega
  | lockTake pc h1 => rw [PipeState.goto_self, pc]; simp only [PipePc.toGo, PipeState.goto]; omega
  | takeSome a as pc h1 =>
    rw [PipeState.goto_self, pc]
    simp only [PipePc.toGo, PipeState.goto, h1, List.length_cons]
    rw [Nat.mul_add]
    omega
  | takeNone pc h1 => rw [PipeState.goto_self, pc]; simp only [PipePc.toGo, PipeState.goto]; omega
  | addColumn k rest r s rest' pc h1 h2 => rw [PipeState.goto_self, pc]; simp only [PipePc.toGo, PipeState.goto]; omega
  | addEnd k rest r pc h1 => rw [PipeState.goto_self, pc]; simp only [PipePc.toGo, PipeState.goto]; omega

theorem PipeInv.run_length [Add K] [Zero K] {J : FrameJobs S L R K} {view : Option Nat → S → P} (hJ : J.Separated view)
    {s0 : S} {tasks : List (Nat × Nat)} {own : Nat → Nat} (ho : Owns J.nFrames tasks own) :
    ∀ (schedule : List (Nat × Bool)) {σ σ' : PipeState S L R K}, σ.run J tasks schedule = some σ' →
      PipeInv J view s0 tasks own σ → schedule.length + σ'.toGo J tasks ≤ σ.toGo J tasks
  | [], σ, σ', h, hi => by
    simp only [PipeState.run, List.foldlM_nil] at h
    cases h
    simp
  | c :: cs, σ, σ', h, hi => by
    simp only [PipeState.run, List.foldlM_cons] at h
    cases hc : σ.step J tasks c.1 c.2 with
    | none => rw [hc] at h; simp at h
    | some σ1 =>
      rw [hc] at h
      obtain ⟨range, ht, hs⟩ := PipeState.step_cases hc
      have h1 := PipeInv.run_length hJ ho cs (σ' := σ') (by simpa [PipeState.run] using h) (PipeInv.step hJ ho hc hi)
      have h2 := hs.toGo ht hi
      simp only [List.length_cons]
      omega

end Momentum
