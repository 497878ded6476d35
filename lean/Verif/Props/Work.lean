import Verif.Proofs.WorkIng
import Verif.Props.Ber

/-!
# C91: the work of the parsers grows at most with the square of the input
-/

namespace Pemv

open Spec

/-- **C91.** Counting the work does not change what the parsers return, on any target and for any input. -/
theorem c91_same (m : Machine) (masks : List Char) : (∀ bytes, (berParseW m bytes masks).out = berParse m bytes masks) ∧
    (∀ s, (ingParseW m s masks).out = ingParse m s masks) ∧
    (∀ s, (autoParseW m s masks).out = autoParse m s masks) :=
  ⟨fun b => berParseW_out m b masks, fun s => ingParseW_out m s masks, fun s => autoParseW_out m s masks⟩

/-- **C91.** Reading `n` bytes of BER-TLV data, well-formed or not and however deeply nested, takes at most
`(k + 2) · n · (n + 2) / 2` steps with `k` masking characters. -/
theorem c91_ber {m : Machine} (masks : List Char) (bytes : List Byte) (hm : Fits m bytes.length) :
    2 * (berParseW m bytes masks).work ≤ (masks.length + 2) * (bytes.length * (bytes.length + 2)) :=
  berParseW_work masks bytes hm

/-- Three nested objects, and as many of the same size side by side. -/
example : (berParseW .debug64 [0x70, 0x06, 0x70, 0x04, 0x70, 0x02, 0x5A, 0x00] ['*']).work = 32 ∧
    (berParseW .debug64 [0x5A, 0x00, 0x5A, 0x00, 0x5A, 0x00, 0x5A, 0x00] ['*']).work = 8 ∧ Fits .debug64 8 := by
  refine ⟨by decide +kernel, by decide +kernel, c16_fits_64 rfl _ (by omega)⟩

/-- **C91.** Reading a text of `n` bytes in the Ingenico format takes at most `(k + 3) · n · (n + 2) / 2` steps. -/
theorem c91_ingenico {m : Machine} (masks : List Char) (s : Text) (hm : Fits m s.length) :
    2 * (ingParseW m s masks).work ≤ (masks.length + 3) * ((asBytes s).length * ((asBytes s).length + 2)) :=
  ingParseW_work masks s hm

/-- A record whose tag is written with three superfluous zero bytes, and the same record without. -/
example : (ingParseW .debug64 "T0000005A:01:h12".toList ['*']).work = 93 ∧
    (ingParseW .debug64 "T5A:01:h12".toList ['*']).work = 48 ∧ Fits .debug64 16 := by
  refine ⟨by decide +kernel, by decide +kernel, c16_fits_64 rfl _ (by omega)⟩

/-- **C91.** Detecting the format, which may mean reading a text of `n` bytes twice, takes at most
`(k + 3) · n · (n + 2)` steps. -/
theorem c91_auto {m : Machine} (masks : List Char) (s : Text) (hm : Fits m (asBytes s).length) :
    (autoParseW m s masks).work ≤ (masks.length + 3) * ((asBytes s).length * ((asBytes s).length + 2)) :=
  autoParseW_work masks s hm

example : (autoParseW .debug64 "5A00".toList ['*']).work = 18 ∧ Fits .debug64 4 := by
  refine ⟨by decide +kernel, c16_fits_64 rfl _ (by omega)⟩

/-- **C91.** Detecting the format takes as many steps as reading the text in the Ingenico format and, if that is an error,
one for every byte of the text, decoded, and as many as reading the decoded bytes as BER-TLV. -/
theorem c91_detection (m : Machine) (masks : List Char) (s : Text) (hs : s ≠ []) :
    ((∃ b, ingParse m s masks = .ok b) → (autoParseW m s masks).work = (ingParseW m s masks).work) ∧
    ((∃ e, ingParse m s masks = .err e) → (autoParseW m s masks).work =
      (ingParseW m s masks).work + (asBytes s).length + (berParseW m (parseHexStr s) masks).work) := by
  rw [autoParseW, if_neg hs]
  refine ⟨?_, ?_⟩
  · rintro ⟨b, hb⟩
    simp only [ingParseW_out, hb]
  · rintro ⟨e, he⟩
    have hbind : ((parseHexStrW s >>= fun bytes => berParseW m bytes masks) : Counted RawEmvBlock).work =
        (asBytes s).length + (berParseW m (parseHexStr s) masks).work := by
      show (Counted.bind _ _).work = _
      rw [Counted.bind, show (parseHexStrW s).out = .ok (parseHexStr s) from rfl]
      rfl
    simp only [ingParseW_out, he]
    rw [Nat.add_assoc, ← hbind]
    split <;> rfl

example : (∃ e, ingParse .debug64 "5A00".toList ['*'] = .err e) ∧ (ingParseW .debug64 "5A00".toList ['*']).work = 12 ∧
    (asBytes "5A00".toList).length = 4 ∧ (berParseW .debug64 [0x5A, 0x00] ['*']).work = 2 :=
  ⟨⟨.nonCompliant, by decide +kernel⟩, by decide +kernel, by decide +kernel, by decide +kernel⟩

/-- **C91.** The square is reached: for every `d` below 2^29 there are at most `6 · d + 2` bytes of valid data that take
at least `d²` steps. -/
theorem c91_reached (d : Nat) (h : d < 2 ^ 29) (masks : List Char) : ∃ bytes, bytes.length ≤ 6 * d + 2 ∧
    (berParse .debug64 bytes masks).isOk = true ∧ d * d ≤ (berParseW .debug64 bytes masks).work := by
  obtain ⟨h1, h2, -⟩ := nest_encode d (by omega) masks
  have h4 : encodeAll [nest d] = (nest d).encode := by simp [encodeAll]
  have hf : Fits .debug64 (nest d).encode.length := c16_fits_64 rfl _ (by omega)
  refine ⟨(nest d).encode, h2, ?_, (nest_work masks d (by omega) hf).2 _ (by omega)⟩
  rw [← h4, c11_round_trip masks [nest d] ⟨h1, trivial⟩ (by rw [h4]; exact hf)]
  rfl

example := c91_reached 1000 (by decide) ['*']

end Pemv
