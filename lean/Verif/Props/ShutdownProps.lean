import Mathlib.Data.List.Induction
import Verif.Model.Shutdown

/-! # Ending the mapper (C71) -/

namespace Ndt

open Shutdown

theorem shutdown_inv (es : List Event) (h : Event.shutdown ∉ es) :
    (run .start es).ok = true ∧ (run .start es).publisher ≠ .finished ∧
    ((run .start es).destructor = .alive ∨ (run .start es).destructor = .joinPublisher) := by
  induction es using List.reverseRecOn with
  | nil => simp [run, State.start]
  | append_singleton es e ih =>
    obtain ⟨h1, h2, h3⟩ := ih (by simp at h; tauto)
    unfold run at *
    rw [List.foldl_append]
    simp only [List.foldl_cons, List.foldl_nil]
    set t := es.foldl step State.start
    cases e with
    | shutdown => simp at h
    | destroy =>
      refine ⟨?_, ?_, ?_⟩ <;> unfold step <;> simp only <;> split_ifs <;> simp_all
    | publisher =>
      refine ⟨h1, ?_, h3⟩
      show t.publisher.step t.ok ≠ _
      rw [h1]
      cases hp : t.publisher with
      | condition => simp [Thread.step]
      | body => simp [Thread.step]
      | finished => exact absurd hp h2
    | loop => exact ⟨h1, h2, h3⟩
    | join =>
      rcases h3 with h3 | h3 <;> simp [step, h1, h2, h3]

/-- **C71** Refuted: destroying the node (say, unloading the component) never returns as long as the process is not told
to shut down, whatever the threads do. -/
theorem c71_destroy_waits_for_shutdown (es : List Event) (h : Event.shutdown ∉ es) :
    (run .start es).destructor ≠ .done := by
  rcases (shutdown_inv es h).2.2 with h | h <;> rw [h] <;> decide

/-- The destructor has been called in such a history. -/
example : (run .start [.publisher, .loop, .destroy, .publisher, .publisher, .join]).destructor = .joinPublisher := by decide

theorem publisher_twice (t : Thread) : (t.step false).step false = .finished := by cases t <;> rfl

/-- **C71** (process shutdown) Once the process shuts down, in every state each thread has finished after two steps of its
own, and the destructor then returns. Missing: destruction of the node alone, see above. -/
theorem c71_ends_after_shutdown_partial (s : State) (hd : s.destructor = .joinPublisher) (hok : s.ok = false) :
    (run s [.publisher, .publisher, .loop, .loop, .join, .join]).destructor = .done := by
  simp [run, step, hd, hok, publisher_twice]

/-- **C71** (process shutdown) Nothing undoes it: a finished thread stays finished and a shut down process stays so. -/
theorem c71_finished_stays_partial (s : State) (es : List Event) (hok : s.ok = false) :
    (run s es).ok = false ∧ (s.publisher = .finished → (run s es).publisher = .finished) ∧
    (s.loop = .finished → (run s es).loop = .finished) := by
  induction es generalizing s with
  | nil => exact ⟨hok, id, id⟩
  | cons e es ih =>
    have key : (step s e).ok = false ∧ (s.publisher = .finished → (step s e).publisher = .finished) ∧
        (s.loop = .finished → (step s e).loop = .finished) := by
      cases e <;> simp only [step] <;> (repeat' split) <;> simp_all [Thread.step]
    obtain ⟨a, b, c⟩ := ih (step s e) key.1
    exact ⟨a, fun h => b (key.2.1 h), fun h => c (key.2.2 h)⟩

example : ∃ s : State, s.destructor = .joinPublisher ∧ s.ok = false ∧ s.publisher = .body :=
  ⟨⟨false, .body, .condition, .joinPublisher⟩, rfl, rfl, rfl⟩

end Ndt
