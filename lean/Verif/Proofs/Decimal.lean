import Verif.Proofs.Util
import Verif.Model.Output

/-! # Lemmas about decimal numbers and white space -/

namespace Pemv

open Spec

/-! ### Digits -/

theorem decDigitVal_eq (c : Char) : decDigitVal c = decDigit? c := by
  by_cases h : c.toNat < 128
  · have key : ∀ n, n < 128 → decDigitVal (Char.ofNat n) = decDigit? (Char.ofNat n) := by
      decide +kernel
    have := key c.toNat h
    rwa [char_ofNat_toNat] at this
  · have h1 : decDigit? c = none := by
      rw [decDigit?, List.lookup_eq_none_iff]
      intro p hp
      have key : ∀ p ∈ [('0', 0), ('1', 1), ('2', 2), ('3', 3), ('4', 4), ('5', 5), ('6', 6),
          ('7', 7), ('8', 8), ('9', 9)], (p.1 : Char).toNat < 128 := by decide
      have h1 := key p hp
      simp only [ne_eq, bne_iff_ne]
      rintro rfl
      exact h h1
    rw [h1, decDigitVal, if_neg]
    rintro ⟨-, h2⟩
    have : c.toNat ≤ '9'.toNat := h2
    have h3 : '9'.toNat = 57 := rfl
    omega

theorem decDigit?_lt {c : Char} {d : Nat} (h : decDigit? c = some d) : d < 10 := by
  rw [← decDigitVal_eq, decDigitVal] at h
  split at h
  · rename_i hc
    have h1 : c.toNat ≤ '9'.toNat := hc.2
    have h3 : '9'.toNat = 57 := rfl
    have h4 : '0'.toNat = 48 := rfl
    cases h
    omega
  · cases h

theorem isDecimal_cons {c : Char} {t : Text} {d : Nat} {ds : List Nat} :
    IsDecimal (c :: t) (d :: ds) ↔ decDigit? c = some d ∧ IsDecimal t ds := by
  simp [IsDecimal]

theorem isDecimal_nil_left {ds : List Nat} : IsDecimal [] ds ↔ ds = [] := by
  cases ds <;> simp [IsDecimal]

theorem isDecimal_length {t : Text} {ds : List Nat} (h : IsDecimal t ds) : t.length = ds.length := by
  have := congrArg List.length h
  simpa using this

theorem isDecimal_unique {t : Text} {ds ds' : List Nat} (h : IsDecimal t ds) (h' : IsDecimal t ds') :
    ds = ds' := by
  have : ds.map some = ds'.map some := h.symm.trans h'
  exact (List.map_inj_right (fun _ _ h => Option.some.inj h)).1 this

theorem u16DigitLoop_eq (t : Text) (acc : Nat) (hacc : acc < 65536) (n : Nat) :
    u16DigitLoop acc t = some n ↔
      ∃ ds, IsDecimal t ds ∧ n = acc * 10 ^ ds.length + ofDigits 10 ds ∧ n < 65536 := by
  induction t generalizing acc with
  | nil =>
    rw [u16DigitLoop]
    constructor
    · intro h
      cases h
      exact ⟨[], rfl, by rw [List.length_nil, ofDigits]; omega, hacc⟩
    · rintro ⟨ds, h1, h, -⟩
      rw [isDecimal_nil_left] at h1
      subst h1
      rw [List.length_nil, ofDigits] at h
      rw [h]; congr 1; omega
  | cons c t ih =>
    rw [u16DigitLoop, decDigitVal_eq]
    cases hd : decDigit? c with
    | none =>
      simp only [reduceCtorEq, false_iff]
      rintro ⟨ds, h, -⟩
      cases ds with
      | nil => simp [IsDecimal] at h
      | cons d ds => rw [isDecimal_cons, hd] at h; simp at h
    | some d =>
      simp only
      have key : ∀ ds : List Nat, acc * 10 ^ (d :: ds).length + ofDigits 10 (d :: ds) =
          (acc * 10 + d) * 10 ^ ds.length + ofDigits 10 ds := by
        intro ds
        simp only [List.length_cons, ofDigits, Nat.pow_succ, Nat.add_mul]
        rw [Nat.mul_assoc acc 10, Nat.mul_comm 10]
        omega
      have pos : ∀ ds : List Nat, 0 < 10 ^ ds.length := fun ds => Nat.pow_pos (by omega)
      have big : ∀ ds : List Nat, 65536 ≤ acc * 10 + d →
          65536 ≤ (acc * 10 + d) * 10 ^ ds.length := by
        intro ds h
        calc 65536 ≤ acc * 10 + d := h
          _ = (acc * 10 + d) * 1 := by omega
          _ ≤ _ := Nat.mul_le_mul_left _ (pos ds)
      have noway : 65536 ≤ acc * 10 + d → ¬ ∃ ds, IsDecimal (c :: t) ds ∧
          n = acc * 10 ^ ds.length + ofDigits 10 ds ∧ n < 65536 := by
        rintro hbig ⟨ds, h1, h2, h3⟩
        cases ds with
        | nil => simp [IsDecimal] at h1
        | cons d' ds =>
          rw [isDecimal_cons, hd] at h1
          obtain rfl := Option.some.inj h1.1
          rw [key] at h2
          have := big ds hbig
          omega
      split
      · rename_i h
        simp only [reduceCtorEq, false_iff]
        exact noway (by omega)
      · split
        · rename_i h
          simp only [reduceCtorEq, false_iff]
          exact noway (by omega)
        · rename_i h1 h2
          rw [ih _ (by omega)]
          constructor
          · rintro ⟨ds, h3, h4, h5⟩
            exact ⟨d :: ds, isDecimal_cons.2 ⟨hd, h3⟩, by rw [key]; exact h4, h5⟩
          · rintro ⟨ds, h3, h4, h5⟩
            cases ds with
            | nil => simp [IsDecimal] at h3
            | cons d' ds =>
              rw [isDecimal_cons, hd] at h3
              obtain rfl := Option.some.inj h3.1
              rw [key] at h4
              exact ⟨ds, h3.2, h4, h5⟩

/-! ### White space -/

theorem isRustWhitespace_iff (c : Char) : isRustWhitespace c = true ↔ IsWs c := by
  simp only [isRustWhitespace, IsWs, whiteSpace, Bool.or_eq_true, Bool.and_eq_true,
    decide_eq_true_eq, beq_iff_eq, List.mem_cons, List.not_mem_nil, or_false]
  generalize c.toNat = n
  omega

theorem dropWhile_spec {α : Type} (p : α → Bool) (s : List α) :
    ∃ a, s = a ++ s.dropWhile p ∧ (∀ c ∈ a, p c = true) ∧
      (∀ c, (s.dropWhile p).head? = some c → p c = false) := by
  induction s with
  | nil => exact ⟨[], by simp⟩
  | cons x s ih =>
    by_cases h : p x = true
    · obtain ⟨a, h1, h2, h3⟩ := ih
      refine ⟨x :: a, ?_, ?_, ?_⟩
      · simpa [List.dropWhile_cons, h] using h1
      · intro c hc
        rcases List.mem_cons.1 hc with rfl | hc
        · exact h
        · exact h2 c hc
      · simpa [List.dropWhile_cons, h] using h3
    · refine ⟨[], ?_, by simp, ?_⟩
      · simp [h]
      · simp [h]

theorem trimText_isTrim (s : Text) : IsTrim s (trimText s) := by
  obtain ⟨a, h1, h2, h3⟩ := dropWhile_spec isRustWhitespace s
  generalize hm : s.dropWhile isRustWhitespace = mid at h1 h3
  obtain ⟨b, k1, k2, k3⟩ := dropWhile_spec isRustWhitespace mid.reverse
  have ht : trimText s = (mid.reverse.dropWhile isRustWhitespace).reverse := by rw [trimText, hm]
  have hmid : mid = trimText s ++ b.reverse := by
    rw [ht]
    have := congrArg List.reverse k1
    simpa using this
  refine ⟨a, b.reverse, ?_, ?_, ?_, ?_, ?_⟩
  · rw [List.append_assoc, ← hmid]; exact h1
  · exact fun c hc => (isRustWhitespace_iff c).1 (h2 c hc)
  · exact fun c hc => (isRustWhitespace_iff c).1 (k2 c (by simpa using hc))
  · intro c hc hw
    have : mid.head? = some c := by
      rw [hmid, List.head?_append, hc]; rfl
    have := h3 c this
    rw [(isRustWhitespace_iff c).2 hw] at this
    cases this
  · intro c hc hw
    rw [ht, List.getLast?_reverse] at hc
    have := k3 c hc
    rw [(isRustWhitespace_iff c).2 hw] at this
    cases this

/-- Trimming is determined by its specification. -/
theorem isTrim_unique {s t t' : Text} (h : IsTrim s t) (h' : IsTrim s t') : t = t' := by
  obtain ⟨a, b, h1, h2, h3, h4, h5⟩ := h
  obtain ⟨a', b', k1, k2, k3, k4, k5⟩ := h'
  have strip : ∀ (a t b : Text), (∀ c ∈ a, IsWs c) → (∀ c, t.head? = some c → ¬ IsWs c) →
      (∀ c ∈ b, IsWs c) → (∀ c, t.getLast? = some c → ¬ IsWs c) → trimText (a ++ t ++ b) = t := by
    intro a t b ha ht hb hl
    have dropA : ∀ (a r : Text), (∀ c ∈ a, IsWs c) →
        (a ++ r).dropWhile isRustWhitespace = r.dropWhile isRustWhitespace := by
      intro a r ha
      induction a with
      | nil => rfl
      | cons c a ih =>
        have hc := (isRustWhitespace_iff c).2 (ha c (by simp))
        rw [List.cons_append, List.dropWhile_cons, if_pos hc]
        exact ih (fun c hc => ha c (by simp [hc]))
    have keep : ∀ (t : Text), (∀ c, t.head? = some c → ¬ IsWs c) →
        t.dropWhile isRustWhitespace = t := by
      intro t ht
      cases t with
      | nil => rfl
      | cons c t =>
        have : ¬ isRustWhitespace c = true := fun h => ht c rfl ((isRustWhitespace_iff c).1 h)
        rw [List.dropWhile_cons, if_neg this]
    rw [trimText, List.append_assoc, dropA a _ ha]
    cases t with
    | nil =>
      have : ([] ++ b).dropWhile isRustWhitespace = [] := by
        have := dropA b [] hb
        simpa using this
      rw [this]; rfl
    | cons x t =>
      rw [keep ((x :: t) ++ b)]
      · rw [List.reverse_append, dropA _ _ (fun c hc => hb c (by simpa using hc)), keep]
        · simp
        · intro c hc; rw [List.head?_reverse] at hc; exact hl c hc
      · intro c hc; exact ht c (by simpa using hc)
  rw [← strip a t b h2 h4 h3 h5, ← h1, k1, strip a' t' b' k2 k4 k3 k5]

/-! ### Numerals -/

theorem natToTextF_spec (fuel n : Nat) (h : n < fuel) : ∃ ds, IsDecimal (natToTextF fuel n) ds ∧
    ofDigits 10 ds = n ∧ ds ≠ [] ∧ (ds.length = 1 ∨ ds.head? ≠ some 0) := by
  have digit : ∀ d, d < 10 → decDigit? (Char.ofNat (48 + d)) = some d := by decide
  induction fuel generalizing n with
  | zero => omega
  | succ fuel ih =>
    rw [natToTextF]
    split
    · rename_i hn
      exact ⟨[n], by simp [IsDecimal, digit n hn], by simp [ofDigits], by simp, Or.inl rfl⟩
    · rename_i hn
      obtain ⟨ds, h1, h2, h3, h4⟩ := ih (n / 10) (by omega)
      refine ⟨ds ++ [n % 10], ?_, ?_, by simp, Or.inr ?_⟩
      · unfold IsDecimal at h1 ⊢
        simp [h1, digit (n % 10) (by omega)]
      · have : ∀ (l : List Nat) (d : Nat), ofDigits 10 (l ++ [d]) = ofDigits 10 l * 10 + d := by
          intro l d
          induction l with
          | nil => simp [ofDigits]
          | cons x l ih =>
            simp only [List.cons_append, ofDigits, ih, List.length_append, List.length_cons,
              List.length_nil, Nat.pow_succ, Nat.add_mul]
            rw [Nat.mul_assoc]; omega
        rw [this, h2]; omega
      · cases ds with
        | nil => exact absurd rfl h3
        | cons d ds =>
          simp only [List.cons_append, List.head?_cons, ne_eq, Option.some.injEq]
          rcases h4 with h4 | h4
          · simp at h4
            subst h4
            simp [ofDigits] at h2
            omega
          · simpa using h4

theorem natToText_spec (n : Nat) : ∃ ds, IsDecimal (natToText n) ds ∧ ofDigits 10 ds = n ∧ ds ≠ [] ∧
    (ds.length = 1 ∨ ds.head? ≠ some 0) := natToTextF_spec _ _ (Nat.lt_succ_self n)

theorem natToTextF_length (fuel n k : Nat) (h : n < fuel) (hk : n < k) :
    (natToTextF fuel n).length = (decSuccessors k n).length := by
  induction fuel generalizing n k with
  | zero => omega
  | succ fuel ih =>
    cases k with
    | zero => omega
    | succ k =>
      rw [natToTextF, decSuccessors]
      split
      · rename_i hn
        rw [if_neg (by omega)]; rfl
      · rename_i hn
        rw [if_pos (by omega), List.length_append, ih (n / 10) k (by omega) (by omega)]
        simp

theorem numDecDigits_eq (n : Nat) : numDecDigits n = (natToText n).length :=
  (natToTextF_length (n + 1) n (n + 1) (Nat.lt_succ_self n) (Nat.lt_succ_self n)).symm

theorem ofDigits_zeros (b n : Nat) (ds : List Nat) :
    ofDigits b (List.replicate n 0 ++ ds) = ofDigits b ds := by
  induction n with
  | zero => rfl
  | succ n ih => rw [List.replicate_succ, List.cons_append, ofDigits, ih]; simp

theorem padLeft0_spec (w n : Nat) : ∃ ds, IsDecimal (padLeft0 w (natToText n)) ds ∧
    ofDigits 10 ds = n ∧ ds.length = max w (natToText n).length := by
  obtain ⟨ds, h1, h2, -⟩ := natToText_spec n
  have hl := isDecimal_length h1
  refine ⟨List.replicate (w - (natToText n).length) 0 ++ ds, ?_, ?_, ?_⟩
  · unfold IsDecimal at h1 ⊢
    have : decDigit? '0' = some 0 := rfl
    simp [padLeft0, h1, this]
  · rw [ofDigits_zeros, h2]
  · simp [← hl]; omega

end Pemv
