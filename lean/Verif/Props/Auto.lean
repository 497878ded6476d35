import Verif.Props.Ingenico
import Verif.Props.Util
import Verif.Model.Auto

/-!
# C29 – C31: automatic format detection
-/

namespace Pemv

open Spec

/-! ### C29 -/

/-- **C29.** Which format is reported and with which block; everything else is `Unrecognised`. No
panic, no other error, no non-termination. -/
theorem c29_agrees {m : Machine} (masks : List Char) (s : Text) (hm : Fits m s.length) :
    (∀ b, autoParse m s masks = .ok (.ingenico, b) ↔ s ≠ [] ∧ ingParse m s masks = .ok b) ∧
    (∀ b, autoParse m s masks = .ok (.berTlv, b) ↔
      s ≠ [] ∧ (¬ ∃ b', ingParse m s masks = .ok b') ∧ berParse m (parseHexStr s) masks = .ok b) ∧
    ((¬ ∃ r, autoParse m s masks = .ok r) → autoParse m s masks = .err .unrecognised) := by
  by_cases hs : s = []
  · subst hs; simp [autoParse]
  · have hb : Fits m (parseHexStr s).length := by
      refine fits_mono hm ?_
      rw [c01_length]
      have := List.length_filter_le (fun c => decide (IsHex c)) s
      omega
    rw [autoParse, if_neg hs]
    rcases c26_returns masks s hm with ⟨ns, h⟩ | ⟨e, h⟩
    · simp [h, hs]
    · rcases c16_returns masks (parseHexStr s) hb with ⟨ns, h'⟩ | ⟨e', h'⟩
      · simp [h, h', hs]
      · simp [h, h']

/-- A record and a BER-TLV object, in a build with checks. -/
example := c29_agrees (m := .debug64) ['*'] "T5A:01:h12".toList (by unfold Fits; decide +kernel)
example : autoParse .debug64 "T5A:01:h12".toList [] = .ok (.ingenico, [.mk ⟨[0x5A], .application, .primitive, .normal [0x12]⟩ []]) :=
  ((c29_agrees (m := .debug64) [] "T5A:01:h12".toList (by unfold Fits; decide +kernel)).1 _).2
    ⟨by decide +kernel, by decide +kernel⟩

/-- **C29.** The same in terms of the two languages: what each format means does not depend on how it
was selected. -/
theorem c29_languages {m : Machine} (masks : List Char) (s : Text) (hm : Fits m s.length) :
    ((∃ b, autoParse m s masks = .ok (.ingenico, b)) ↔
      s ≠ [] ∧ (∀ c ∈ s, c.toNat < 128) ∧ ∃ rs, IsIngenico masks s rs) ∧
    ((∃ b, autoParse m s masks = .ok (.berTlv, b)) ↔
      s ≠ [] ∧ (¬ ((∀ c ∈ s, c.toNat < 128) ∧ ∃ rs, IsIngenico masks s rs)) ∧
        ∃ es, parseHexStr s = concat es ∧ IsBlock es) := by
  obtain ⟨h1, h2, -⟩ := c29_agrees masks s hm
  have hb : Fits m (parseHexStr s).length := by
    refine fits_mono hm ?_
    rw [c01_length]
    have := List.length_filter_le (fun c => decide (IsHex c)) s
    omega
  have hing : (∃ b, ingParse m s masks = .ok b) ↔ (∀ c ∈ s, c.toNat < 128) ∧ ∃ rs, IsIngenico masks s rs := by
    constructor
    · rintro ⟨b, h⟩
      obtain ⟨ha, rs, hr, -⟩ := (c21_language masks s hm b).1 h
      exact ⟨ha, rs, hr⟩
    · rintro ⟨ha, rs, hr⟩
      exact ⟨_, (c21_language masks s hm _).2 ⟨ha, rs, hr, rfl⟩⟩
  constructor
  · rw [← hing]
    constructor
    · rintro ⟨b, h⟩
      have := (h1 b).1 h
      exact ⟨this.1, b, this.2⟩
    · rintro ⟨hs, b, h⟩
      exact ⟨b, (h1 b).2 ⟨hs, h⟩⟩
  · rw [← hing, ← c10_acceptance masks _ hb]
    constructor
    · rintro ⟨b, h⟩
      have := (h2 b).1 h
      exact ⟨this.1, this.2.1, b, this.2.2⟩
    · rintro ⟨hs, hn, b, h⟩
      exact ⟨b, (h2 b).2 ⟨hs, hn, h⟩⟩

example : autoParse .debug64 "T5A:01:h12".toList [] =
    .ok (.ingenico, [.mk ⟨[0x5A], .application, .primitive, .normal [0x12]⟩ []]) := by decide +kernel
example : autoParse .debug64 "5A 01 12".toList [] =
    .ok (.berTlv, [.mk ⟨[0x5A], .application, .primitive, .normal [0x12]⟩ []]) := by decide +kernel
example : autoParse .debug64 "5A 02 12".toList [] = .err .unrecognised := by decide +kernel

/-! ### C30 -/

/-- **C30.** A non-empty text without colon is never taken as Ingenico data. -/
theorem c30_no_colon {m : Machine} (masks : List Char) (s : Text) (hm : Fits m s.length) (hs : s ≠ [])
    (hc : ':' ∉ s) :
    (∀ b, autoParse m s masks ≠ .ok (.ingenico, b)) ∧
    ((∃ b, berParse m (parseHexStr s) masks = .ok b ∧ autoParse m s masks = .ok (.berTlv, b)) ∨
      (¬ ∃ b, berParse m (parseHexStr s) masks = .ok b) ∧ autoParse m s masks = .err .unrecognised) := by
  have hno : ¬ ∃ b, ingParse m s masks = .ok b := by
    rintro ⟨b, h⟩
    obtain ⟨-, rs, hr, -⟩ := (c21_language masks s hm b).1 h
    cases hr with
    | nil => exact hs rfl
    | last r h => exact hc (by simp [Record.text])
    | cons r h sep rest rs' hrest => exact hc (by simp [Record.text])
  obtain ⟨h1, h2, h3⟩ := c29_agrees masks s hm
  refine ⟨fun b h => hno ⟨b, ((h1 b).1 h).2⟩, ?_⟩
  by_cases hb : ∃ b, berParse m (parseHexStr s) masks = .ok b
  · obtain ⟨b, hb⟩ := hb
    exact Or.inl ⟨b, hb, (h2 b).2 ⟨hs, hno, hb⟩⟩
  · refine Or.inr ⟨hb, h3 ?_⟩
    rintro ⟨⟨f, b⟩, h⟩
    cases f with
    | ingenico => exact hno ⟨b, ((h1 b).1 h).2⟩
    | berTlv => exact hb ⟨b, ((h2 b).1 h).2.2⟩

example : ':' ∉ "9F0206000000001000".toList ∧ "9F0206000000001000".toList ≠ [] := by decide

/-! ### C31 -/

/-- **C31 is false of the code.** Texts without any TLV data are accepted as an empty block. -/
theorem c31_false : autoParse .debug64 "zz".toList ['*'] = .ok (.berTlv, []) ∧
    autoParse .debug64 " ".toList [] = .ok (.berTlv, []) ∧
    autoParse .debug64 "7".toList [] = .ok (.berTlv, []) ∧
    autoParse .debug64 [] ['*'] = .err .unrecognised := by decide +kernel

/-- **C31.** Exactly when a text is rejected. -/
theorem c31_rejected_iff {m : Machine} (masks : List Char) (s : Text) (hm : Fits m s.length) :
    autoParse m s masks = .err .unrecognised ↔
      s = [] ∨ (¬ ((∀ c ∈ s, c.toNat < 128) ∧ ∃ rs, IsIngenico masks s rs)) ∧
        ¬ ∃ es, parseHexStr s = concat es ∧ IsBlock es := by
  obtain ⟨h1, h2⟩ := c29_languages masks s hm
  have h3 := (c29_agrees masks s hm).2.2
  by_cases hs : s = []
  · subst hs; simp [autoParse]
  · simp only [hs, false_or, ne_eq, not_false_eq_true, true_and] at h1 h2 ⊢
    constructor
    · intro h
      refine ⟨fun hi => ?_, fun hb => ?_⟩
      · obtain ⟨b, hb⟩ := h1.2 hi
        rw [h] at hb; cases hb
      · by_cases hi : (∀ c ∈ s, c.toNat < 128) ∧ ∃ rs, IsIngenico masks s rs
        · obtain ⟨b, hb⟩ := h1.2 hi
          rw [h] at hb; cases hb
        · obtain ⟨b, hb⟩ := h2.2 ⟨hi, hb⟩
          rw [h] at hb; cases hb
    · rintro ⟨hi, hb⟩
      apply h3
      rintro ⟨⟨f, b⟩, h⟩
      cases f with
      | ingenico => exact hi (h1.1 ⟨b, h⟩)
      | berTlv => exact hb (h2.1 ⟨b, h⟩).2

/-- **C31.** The exception, exactly: a non-empty text without an accepted Ingenico reading is reported
as an empty BER-TLV block if and only if it has fewer than two hex digits. -/
theorem c31_empty_block_iff {m : Machine} (masks : List Char) (s : Text) (hm : Fits m s.length)
    (hs : s ≠ []) (hi : ¬ ∃ b, ingParse m s masks = .ok b) :
    autoParse m s masks = .ok (.berTlv, []) ↔ (s.filter (fun c => decide (IsHex c))).length < 2 := by
  have hlen := c01_length s
  have hb : Fits m (parseHexStr s).length := by
    refine fits_mono hm ?_
    rw [hlen]
    have := List.length_filter_le (fun c => decide (IsHex c)) s
    omega
  rw [((c29_agrees masks s hm).2.1 []), c10_language masks _ hb]
  constructor
  · rintro ⟨-, -, es, h1, h2, h3⟩
    have : es = [] := by simpa using h3.symm
    subst this
    rw [h1] at hlen
    simp [concat] at hlen
    omega
  · intro h
    refine ⟨hs, hi, [], ?_, ⟨by simp, by simp⟩, rfl⟩
    have : (parseHexStr s).length = 0 := by omega
    simpa [concat] using this

/-- Such a text, and one with two hex digits, which is not an empty block. -/
example : (¬ ∃ b, ingParse .debug64 "zz 5".toList ['*'] = .ok b) ∧ autoParse .debug64 "zz 5".toList ['*'] = .ok (.berTlv, []) ∧
    (¬ ∃ b, ingParse .debug64 "zz 5A".toList ['*'] = .ok b) ∧ autoParse .debug64 "zz 5A".toList ['*'] = .err .unrecognised := by
  have h1 : ingParse .debug64 "zz 5".toList ['*'] = .err .nonCompliant := by decide +kernel
  have h2 : ingParse .debug64 "zz 5A".toList ['*'] = .err .nonCompliant := by decide +kernel
  refine ⟨fun ⟨b, h⟩ => ?_, by decide +kernel, fun ⟨b, h⟩ => ?_, by decide +kernel⟩
  · rw [h1] at h; cases h
  · rw [h2] at h; cases h

/-- **C31**, what is true: a text with at least two hex digits that is neither Ingenico nor BER-TLV data
is rejected, and so is the empty text. Missing from the full claim: texts with fewer than two hex
digits. -/
theorem c31_rejects_partial {m : Machine} (masks : List Char) (s : Text) (hm : Fits m s.length)
    (h : s = [] ∨ 2 ≤ (s.filter (fun c => decide (IsHex c))).length ∧
      (¬ ((∀ c ∈ s, c.toNat < 128) ∧ ∃ rs, IsIngenico masks s rs)) ∧
      ¬ ∃ es, es ≠ [] ∧ parseHexStr s = concat es ∧ IsBlock es) :
    autoParse m s masks = .err .unrecognised := by
  rw [c31_rejected_iff masks s hm]
  rcases h with h | ⟨h1, h2, h3⟩
  · exact Or.inl h
  · refine Or.inr ⟨h2, ?_⟩
    rintro ⟨es, he, hb⟩
    refine h3 ⟨es, ?_, he, hb⟩
    rintro rfl
    have := c01_length s
    rw [he] at this
    simp [concat] at this
    omega

/-- A text that is cut off: it has six hex digits and in neither format. -/
example : 2 ≤ ("5A 02 12".toList.filter (fun c => decide (IsHex c))).length ∧
    (¬ ((∀ c ∈ "5A 02 12".toList, c.toNat < 128) ∧ ∃ rs, IsIngenico ['*'] "5A 02 12".toList rs)) ∧
    ¬ ∃ es, es ≠ [] ∧ parseHexStr "5A 02 12".toList = concat es ∧ IsBlock es := by
  have h : autoParse .debug64 "5A 02 12".toList ['*'] = .err .unrecognised := by decide +kernel
  rcases (c31_rejected_iff ['*'] "5A 02 12".toList (c16_fits_64 rfl _ (by decide +kernel))).1 h with h | ⟨h1, h2⟩
  · exact absurd h (by decide +kernel)
  · exact ⟨by decide +kernel, h1, fun ⟨es, _, h⟩ => h2 ⟨es, h⟩⟩

end Pemv
