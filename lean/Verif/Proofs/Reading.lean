import Verif.Proofs.Decimal
import Verif.Proofs.Run

/-!
# Reading texts back
-/

namespace Pemv

open Spec

/-- The first occurrence of a character is where it is. -/
theorem split_at_first {α : Type} {x : α} {a a' r r' : List α} (h : x ∉ a) (h' : x ∉ a') (e : a ++ x :: r = a' ++ x :: r') :
    a = a' ∧ r = r' := by
  induction a generalizing a' with
  | nil =>
    cases a' with
    | nil => exact ⟨rfl, by simpa using e⟩
    | cons y a' =>
      simp only [List.nil_append, List.cons_append, List.cons.injEq] at e
      exact absurd e.1 (fun hx => h' (by simp [hx]))
  | cons y a ih =>
    cases a' with
    | nil =>
      simp only [List.nil_append, List.cons_append, List.cons.injEq] at e
      exact absurd e.1.symm (fun hx => h (by simp [hx]))
    | cons z a' =>
      simp only [List.cons_append, List.cons.injEq] at e
      obtain ⟨rfl, e⟩ := e
      obtain ⟨rfl, rfl⟩ := ih (fun hx => h (List.mem_cons_of_mem _ hx)) (fun hx => h' (List.mem_cons_of_mem _ hx)) e
      exact ⟨rfl, rfl⟩

theorem decimal_inj {n k : Nat} (h : decimal n = decimal k) : n = k := by
  rw [← natToText_decimal, ← natToText_decimal] at h
  obtain ⟨ds, h1, h2, -, -⟩ := natToText_spec n
  obtain ⟨ds', h1', h2', -, -⟩ := natToText_spec k
  rw [IsDecimal] at h1 h1'
  rw [h, h1'] at h1
  have : ds' = ds := by
    have := congrArg (List.map (fun x => Option.getD x 0)) h1
    simpa [List.map_map, Function.comp_def] using this
  rw [← h2, ← h2', this]

theorem decimal_digits (n : Nat) : ∀ c ∈ decimal n, '0' ≤ c ∧ c ≤ '9' := by
  rw [← natToText_decimal, natToText, natToTextF_eq _ _ (Nat.lt_succ_self n)]
  intro c hc
  have := Nat.isDigit_of_mem_toDigits (b := 10) (by omega) (by omega) hc
  simp only [Char.isDigit, Bool.and_eq_true, decide_eq_true_eq] at this
  exact this

/-- The start of the messages about numbers of bytes. -/
def lengthMessageStart : Text := ("The wrong number of bytes were provided for the value. Perhaps you provided the wrong value? " ++
    "Expected: ").toList

/-- The text between the two numbers. -/
def foundText : Text := ", Found: ".toList

theorem found_text : foundText = ',' :: foundText.tail := by decide +kernel

theorem assoc6 (a b c d e f : Text) : a ++ b ++ c ++ d ++ e ++ f = a ++ (b ++ (c ++ (d ++ (e ++ f)))) := by
  simp only [List.append_assoc]

theorem lengthMessage_eq (how : String) (n k : Nat) :
    lengthMessage how n k = lengthMessageStart ++ (how.toList ++ ([' '] ++ (decimal n ++ (foundText ++ decimal k)))) :=
  assoc6 _ _ _ _ _ _

theorem lengthMessageStart_take : lengthMessageStart.take 9 = "The wrong".toList := by decide +kernel

theorem lengthMessageStart_length : 9 ≤ lengthMessageStart.length := by decide +kernel

theorem lengthMessage_take (how : String) (n k : Nat) : (lengthMessage how n k).take 9 = "The wrong".toList := by
  rw [lengthMessage_eq, List.take_append_of_le_length lengthMessageStart_length, lengthMessageStart_take]

theorem lengthMessage_inj (how : String) (n k n' k' : Nat) (h : lengthMessage how n k = lengthMessage how n' k') :
    n = n' ∧ k = k' := by
  rw [lengthMessage_eq, lengthMessage_eq] at h
  have h := List.append_cancel_left (List.append_cancel_left (List.append_cancel_left h))
  rw [found_text] at h
  have comma : ∀ n, ',' ∉ decimal n := fun n hc => absurd (decimal_digits n _ hc).1 (by decide)
  obtain ⟨h1, h2⟩ := split_at_first (comma n) (comma n') h
  exact ⟨decimal_inj h1, decimal_inj (List.append_cancel_left h2)⟩

theorem lengthMessage_how {how how' : String} {n k n' k' : Nat} (h : lengthMessage how n k = lengthMessage how' n' k')
    (c c' : Char) (hc : how.toList.head? = some c) (hc' : how'.toList.head? = some c') : c = c' := by
  rw [lengthMessage_eq, lengthMessage_eq] at h
  have h := congrArg List.head? (List.append_cancel_left h)
  simp only [List.head?_append, hc, hc'] at h
  simpa using h

/-- Messages that are not about numbers of bytes start differently. -/
theorem message_take : ∀ p ∈ messages, p.2.toList.take 9 ≠ "The wrong".toList := by decide +kernel

theorem message_lookup : ∀ p ∈ messages, ∀ q ∈ messages, p.2 = q.2 → p.1 = q.1 := by decide +kernel

theorem message_cases (e : ParseError) : (∃ p ∈ messages, p.1 = e ∧ message e = p.2.toList) ∨
    ∃ ty n k, e = .byteCountIncorrect ty n k := by
  cases e with
  | byteCountIncorrect ty n k => exact Or.inr ⟨ty, n, k, rfl⟩
  | byteCountNotDivisibleIntoComponents => exact Or.inl ⟨_, List.Mem.head _, rfl, rfl⟩
  | invalidBytes => exact Or.inl ⟨_, List.Mem.tail _ (List.Mem.head _), rfl, rfl⟩
  | invalidNumber => exact Or.inl ⟨_, List.Mem.tail _ (List.Mem.tail _ (List.Mem.head _)), rfl, rfl⟩
  | nonCompliant => exact Or.inl ⟨_, List.Mem.tail _ (List.Mem.tail _ (List.Mem.tail _ (List.Mem.head _))), rfl, rfl⟩
  | nonCcdCompliant =>
    exact Or.inl ⟨_, List.Mem.tail _ (List.Mem.tail _ (List.Mem.tail _ (List.Mem.tail _ (List.Mem.head _)))), rfl, rfl⟩
  | unsupported => exact Or.inl ⟨_, List.Mem.tail _ (List.Mem.tail _ (List.Mem.tail _ (List.Mem.tail _ (List.Mem.tail _
      (List.Mem.head _))))), rfl, rfl⟩
  | unrecognised => exact Or.inl ⟨_, List.Mem.tail _ (List.Mem.tail _ (List.Mem.tail _ (List.Mem.tail _ (List.Mem.tail _
      (List.Mem.tail _ (List.Mem.head _)))))), rfl, rfl⟩

/-- How the expected number is introduced. -/
def howText : Ordering → String
  | .lt => "less than or equal to"
  | .eq => "exactly"
  | .gt => "greater than or equal to"

theorem message_length (ty : Ordering) (n k : Nat) :
    message (.byteCountIncorrect ty n k) = lengthMessage (howText ty) n k := by
  cases ty <;> rfl

theorem howText_head : ∀ ty ty' : Ordering, (howText ty).toList.head? = (howText ty').toList.head? → ty = ty' := by
  intro ty ty'
  cases ty <;> cases ty' <;> decide +kernel

theorem howText_some (ty : Ordering) : ∃ c, (howText ty).toList.head? = some c := by
  cases ty
  · exact ⟨'l', by decide +kernel⟩
  · exact ⟨'e', by decide +kernel⟩
  · exact ⟨'g', by decide +kernel⟩

theorem message_inj (e e' : ParseError) (h : message e = message e') : e = e' := by
  rcases message_cases e with ⟨p, hp, rfl, hm⟩ | ⟨ty, n, k, rfl⟩
  · rcases message_cases e' with ⟨q, hq, rfl, hm'⟩ | ⟨ty, n, k, rfl⟩
    · rw [hm, hm'] at h
      exact message_lookup p hp q hq (String.toList_injective h)
    · rw [message_length, hm] at h
      exact absurd ((congrArg (List.take 9) h).trans (lengthMessage_take _ _ _)) (message_take p hp)
  · rcases message_cases e' with ⟨q, hq, rfl, hm'⟩ | ⟨ty', n', k', rfl⟩
    · rw [message_length, hm'] at h
      exact absurd ((congrArg (List.take 9) h.symm).trans (lengthMessage_take _ _ _)) (message_take q hq)
    · rw [message_length, message_length] at h
      obtain ⟨c, hc⟩ := howText_some ty
      obtain ⟨c', hc'⟩ := howText_some ty'
      have : c = c' := lengthMessage_how h c c' hc hc'
      subst this
      have := howText_head ty ty' (hc.trans hc'.symm)
      subst this
      obtain ⟨rfl, rfl⟩ := lengthMessage_inj _ _ _ _ _ h
      rfl

end Pemv
