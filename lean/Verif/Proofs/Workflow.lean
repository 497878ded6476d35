import Verif.Spec.Workflow

/-!
# Proofs about the workflows
-/

namespace Pemv

open Spec

/-- A job passes if every step that counts on the runner succeeds or may fail. -/
theorem all_begunSteps (works : String → Bool) (os : RunnerOs) (ss : List WorkStep) :
    (begunSteps works os ss).all (fun s => works s.name || s.tolerant) = true ↔
      ∀ s ∈ ss, s.only.any (· != os) = false → (works s.name || s.tolerant) = true := by
  induction ss with
  | nil => simp [begunSteps]
  | cons s ss ih =>
    rw [begunSteps, List.forall_mem_cons]
    by_cases h1 : s.only.any (· != os) = true
    · rw [if_pos h1, ih, h1]
      exact ⟨fun h => ⟨(fun h => nomatch h), h⟩, fun h => h.2⟩
    · rw [if_neg h1]
      by_cases h2 : (works s.name || s.tolerant) = true
      · rw [if_pos h2, List.all_cons, h2, Bool.true_and, ih]
        exact ⟨fun h => ⟨fun _ => rfl, h⟩, fun h => h.2⟩
      · rw [if_neg h2, List.all_cons, List.all_nil, Bool.and_true]
        exact ⟨fun h => absurd h h2, fun h => absurd (h.1 (by simpa using h1)) h2⟩

/-- A step is begun if it counts on the runner and all before it that count succeed or may fail. -/
theorem mem_begunSteps (works : String → Bool) (os : RunnerOs) (ss : List WorkStep) (s : WorkStep) :
    s ∈ begunSteps works os ss ↔ ∃ pre post, ss = pre ++ s :: post ∧ s.only.any (· != os) = false ∧
      ∀ x ∈ pre, x.only.any (· != os) = false → (works x.name || x.tolerant) = true := by
  induction ss with
  | nil => simp [begunSteps]
  | cons a ss ih =>
    rw [begunSteps]
    by_cases h1 : a.only.any (· != os) = true
    · rw [if_pos h1, ih]
      constructor
      · rintro ⟨pre, post, rfl, h2, h3⟩
        exact ⟨a :: pre, post, rfl, h2, List.forall_mem_cons.2 ⟨fun h => (by rw [h1] at h; cases h), h3⟩⟩
      · rintro ⟨pre, post, he, h2, h3⟩
        cases pre with
        | nil =>
          simp only [List.nil_append, List.cons.injEq] at he
          rw [he.1, h2] at h1; cases h1
        | cons x pre =>
          simp only [List.cons_append, List.cons.injEq] at he
          exact ⟨pre, post, he.2, h2, fun y hy => h3 y (List.mem_cons_of_mem _ hy)⟩
    · rw [if_neg h1]
      have h1' : a.only.any (· != os) = false := by simpa using h1
      by_cases h2 : (works a.name || a.tolerant) = true
      · rw [if_pos h2, List.mem_cons, ih]
        constructor
        · rintro (rfl | ⟨pre, post, rfl, h3, h4⟩)
          · exact ⟨[], ss, rfl, h1', fun _ h => by cases h⟩
          · exact ⟨a :: pre, post, rfl, h3, List.forall_mem_cons.2 ⟨fun _ => h2, h4⟩⟩
        · rintro ⟨pre, post, he, h3, h4⟩
          cases pre with
          | nil => simp only [List.nil_append, List.cons.injEq] at he; exact Or.inl he.1.symm
          | cons x pre =>
            simp only [List.cons_append, List.cons.injEq] at he
            exact Or.inr ⟨pre, post, he.2, h3, fun y hy => h4 y (List.mem_cons_of_mem _ hy)⟩
      · rw [if_neg h2, List.mem_singleton]
        constructor
        · rintro rfl
          exact ⟨[], ss, rfl, h1', fun _ h => by cases h⟩
        · rintro ⟨pre, post, he, -, h4⟩
          cases pre with
          | nil => simp only [List.nil_append, List.cons.injEq] at he; exact he.1.symm
          | cons x pre =>
            simp only [List.cons_append, List.cons.injEq] at he
            exact absurd (h4 x (by simp) (he.1 ▸ h1')) (he.1 ▸ h2)

end Pemv
