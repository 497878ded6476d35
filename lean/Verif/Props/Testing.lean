import Verif.Proofs.Testing

/-!
# C105: the project's own tests

The tests of src/testing_macros.rs go through a type: all inputs with one bit, and one input that is too long.
-/

namespace Pemv

open Spec

/-- **C105.** The tests pass for every type they are applied to. -/
theorem c105_pass :
    (∀ p ∈ [(tvrLayout, 5), (tsiLayout, 2), (terminalCapabilitiesLayout, 3), (additionalTerminalCapabilitiesLayout, 5),
        (cvrLayout, 5)],
      wrongByteCount p.1.tryFrom p.2 = .ok () ∧ bitflagUniqueValues p.1 p.2 = .ok () ∧
        bitflagDisplayBits p.1 p.2 = .ok ()) ∧
    wrongByteCount cciLayout.tryFrom 1 = .ok () ∧ wrongByteCount cvRuleTryFrom 2 = .ok () ∧
    wrongByteCount CvmResults.tryFrom 3 = .ok () ∧ wrongByteCount transactionTypeTryFrom 1 = .ok () ∧
    wrongByteCount terminalTypeTryFrom 1 = .ok () ∧ wrongByteCount posEntryModeTryFrom 1 = .ok () ∧
    wrongByteCount arcTryFrom 2 = .ok () ∧
    sameResult (enumTryFrom transactionTypeTable .unrecognised 0x20) (transactionTypeTryFrom [0x20]) = .ok () ∧
    sameResult (enumTryFrom terminalTypeTable .unrecognised 0x22) (terminalTypeTryFrom [0x22]) = .ok () ∧
    sameResult (enumTryFrom posEntryModeTable .unrecognised 0x80) (posEntryModeTryFrom [0x80]) = .ok () ∧
    sameResult (enumTryFrom arcTable .unrecognised ['0', '5']) (arcTryFrom [0x30, 0x35]) = .ok () := by
  decide +kernel

/-- They do not pass for everything: the Common Core Identifier has no value for the empty input. -/
example : bitflagUniqueValues cciLayout 1 = .panic ∧ wrongByteCount cciLayout.tryFrom 2 = .panic := by decide +kernel

/-- **C105.** What `bitflag_unique_values!` asks for, of every type: the empty input and the inputs with one bit have
values, and from a value that is not the empty one the input is got back. That two of them never have the same value,
which the test asserts too, follows from this. -/
theorem c105_unique (l : Layout) (n : Nat) : bitflagUniqueValues l n = .ok () ↔
    ∃ empty, l.tryFrom (List.replicate n 0) = .ok empty ∧ ∀ i, i < n → ∀ j, j < 8 →
      ∃ v, l.tryFrom (oneBit n i j) = .ok v ∧ (v ≠ empty → l.binaryRepresentation v = oneBit n i j) :=
  unique_iff l n

/-- **C105.** What `bitflag_display_bits!` asks for, of every type: no two ranges of the empty value begin at the same
bit; an input with one bit shows at most one range more, which covers that bit; and what is shown for two of them, if there
is something new in it, is not the same. -/
theorem c105_display (l : Layout) (n : Nat) : bitflagDisplayBits l n = .ok () ↔
    ∃ empty, l.tryFrom (List.replicate n 0) = .ok empty ∧ ((l.bitDisplayInformation empty).map (·.offset)).Nodup ∧
      (∀ i, i < n → ∀ j, j < 8 → ∃ v, l.tryFrom (oneBit n i j) = .ok v ∧ (v ≠ empty →
        (l.bitDisplayInformation empty).length ≤ (l.bitDisplayInformation v).length ∧
        (l.bitDisplayInformation v).length ≤ (l.bitDisplayInformation empty).length + 1 ∧
        ∀ r, newRange l empty v = some r → (n - 1 - i) * 8 + j ≤ r.offset ∧ r.offset < (n - 1 - i) * 8 + j + r.len)) ∧
      (∀ i, i < n → ∀ j, j < 8 → ∀ i', i' < n → ∀ j', j' < 8 → ∀ v v', l.tryFrom (oneBit n i j) = .ok v →
        l.tryFrom (oneBit n i' j') = .ok v' → v ≠ empty → v' ≠ empty → newRange l empty v ≠ none →
        newRange l empty v' ≠ none → l.bitDisplayInformation v = l.bitDisplayInformation v' → i = i' ∧ j = j') :=
  display_iff l n

/-- The input of a turn of the loops: bit 6 of the second of three bytes. -/
example : oneBit 3 1 6 = [0x00, 0x40, 0x00] := by decide

/-- **C105.** Four of the types are made of flags only. -/
theorem c105_flag_types : Flags tvrLayout 5 ∧ Flags tsiLayout 2 ∧ Flags terminalCapabilitiesLayout 3 ∧
    Flags additionalTerminalCapabilitiesLayout 5 := by
  refine ⟨⟨?_, ?_, ?_⟩, ⟨?_, ?_, ?_⟩, ⟨?_, ?_, ?_⟩, ⟨?_, ?_, ?_⟩⟩ <;> decide +kernel

/-- **C105.** For such a type the two tests together ask for exactly this: no flag has several bits, and no two flags have
the same bit. -/
theorem c105_exact {l : Layout} {n : Nat} (hl : Flags l n) :
    (bitflagUniqueValues l n = .ok () ∧ bitflagDisplayBits l n = .ok ()) ↔ OneBitEach l ∧ OwnBits l := by
  rw [flags_unique hl]
  exact ⟨fun h => ⟨h.1, (flags_display hl h.1).1 h.2⟩, fun h => ⟨h.1, (flags_display hl h.1).2 h.2⟩⟩

/-- **C105.** For such a type the first test, which looks at `8 · n + 1` inputs, is as good as looking at all `256 ^ n`: it
passes exactly if every input has a value from which its used bits are got back, with all others cleared. -/
theorem c105_complete {l : Layout} {n : Nat} (hl : Flags l n) : bitflagUniqueValues l n = .ok () ↔
    ∀ bs, bs.length = n → ∃ v, l.tryFrom bs = .ok v ∧ UsedPart l bs (l.binaryRepresentation v) := by
  rw [flags_unique hl, flags_round_trip hl]

/-- **C105.** And if it passes, two inputs have the same value exactly if they have the same used bits. -/
theorem c105_same {l : Layout} {n : Nat} (hl : Flags l n) (h : bitflagUniqueValues l n = .ok ()) (bs bs' : List Byte)
    (hb : bs.length = n) (hb' : bs'.length = n) :
    l.tryFrom bs = l.tryFrom bs' ↔ ∀ i j, UsedBit l i j → inputBit bs i j = inputBit bs' i j :=
  flags_same hl ((flags_unique hl).1 h) bs bs' hb hb'

/-- **C105.** For such a type `wrong_byte_count!`, which looks at one input, passes exactly if the number of bytes is
right, so that all inputs of other lengths are rejected. -/
theorem c105_byte_count {l : Layout} {n : Nat} (hl : Flags l n) (k : Nat) :
    wrongByteCount l.tryFrom k = .ok () ↔ l.numBytes = k := by
  rw [flags_wrong hl, hl.bytes]

/-- **C105.** What the tests do not see: names, texts, severities, and which flag has which bit. They pass for one type of
flags exactly if they pass for every other with the same bits. -/
theorem c105_blind {l l' : Layout} {n : Nat} (hl : Flags l n) (hl' : Flags l' n) (hm : SameMasks l l') :
    (bitflagUniqueValues l n = .ok () ↔ bitflagUniqueValues l' n = .ok ()) ∧
    (bitflagUniqueValues l n = .ok () ∧ bitflagDisplayBits l n = .ok () ↔
      bitflagUniqueValues l' n = .ok () ∧ bitflagDisplayBits l' n = .ok ()) ∧
    (∀ k, wrongByteCount l.tryFrom k = .ok () ↔ wrongByteCount l'.tryFrom k = .ok ()) := by
  refine ⟨?_, ?_, fun k => ?_⟩
  · rw [flags_unique hl, flags_unique hl', oneBitEach_masks, oneBitEach_masks, hm]
  · rw [c105_exact hl, c105_exact hl', oneBitEach_masks, oneBitEach_masks, ownBits_masks, ownBits_masks, hm]
  · rw [flags_wrong hl, flags_wrong hl']

/-- A table with the names, texts and severities of each byte in the reverse order. -/
def reversedTexts (l : Layout) : Layout :=
  ⟨l.numBytes, l.rows.map (fun r => (r.1, List.zipWith (fun f g => { g with mask := f.mask }) r.2 r.2.reverse))⟩

/-- So a table of the Terminal Verification Results in which each byte is read backwards passes the tests; it explains the
bit for offline data authentication that was not performed by the text for combined data authentication that failed. -/
example : wrongByteCount (reversedTexts tvrLayout).tryFrom 5 = .ok () ∧
    bitflagUniqueValues (reversedTexts tvrLayout) 5 = .ok () ∧ bitflagDisplayBits (reversedTexts tvrLayout) 5 = .ok () ∧
    SameMasks tvrLayout (reversedTexts tvrLayout) ∧
    ((reversedTexts tvrLayout).tryFrom [0x80, 0, 0, 0, 0]).map (fun v =>
      ((reversedTexts tvrLayout).bitDisplayInformation v).map (fun r => String.ofList r.explanation)) =
        .ok ["CDA (Combined Data Authentication) failed"] ∧
    (tvrLayout.tryFrom [0x80, 0, 0, 0, 0]).map (fun v =>
      (tvrLayout.bitDisplayInformation v).map (fun r => String.ofList r.explanation)) =
        .ok ["Offline data authentication was not performed"] := by
  unfold SameMasks
  decide +kernel

/-- The table with another shift for the field called `name`. -/
def otherShift (l : Layout) (name : String) (shift : Nat) : Layout :=
  ⟨l.numBytes, l.rows.map (fun r => (r.1, r.2.map (fun f => if f.name = name then { f with shift := some shift } else f)))⟩

/-- **C105.** The Card Verification Results have numbers too, and there the tests see less still: they pass with every
shift for the PIN try count. -/
theorem c105_blind_number (shift : Nat) (h : shift < 8) :
    wrongByteCount (otherShift cvrLayout "pin_try_count" shift).tryFrom 5 = .ok () ∧
    bitflagUniqueValues (otherShift cvrLayout "pin_try_count" shift) 5 = .ok () ∧
    bitflagDisplayBits (otherShift cvrLayout "pin_try_count" shift) 5 = .ok () := by
  match shift, h with
  | 0, _ => exact (by decide +kernel)
  | 1, _ => exact (by decide +kernel)
  | 2, _ => exact (by decide +kernel)
  | 3, _ => exact (by decide +kernel)
  | 4, _ => exact (by decide +kernel)
  | 5, _ => exact (by decide +kernel)
  | 6, _ => exact (by decide +kernel)
  | 7, _ => exact (by decide +kernel)

/-- With three in place of four, twice the count is shown. -/
example : (cvrLayout.tryFrom [0, 0x30, 0, 0, 0]).map (fun v =>
      (cvrLayout.bitDisplayInformation v).any (fun r => r.explanation = "PIN try count: 3".toList)) = .ok true ∧
    ((otherShift cvrLayout "pin_try_count" 3).tryFrom [0, 0x30, 0, 0, 0]).map (fun v =>
      ((otherShift cvrLayout "pin_try_count" 3).bitDisplayInformation v).any
        (fun r => r.explanation = "PIN try count: 6".toList)) = .ok true := by decide +kernel

/-- With five, a used bit is lost: the tests take it for an unused one. -/
example : (cvrLayout.tryFrom [0, 0x30, 0, 0, 0]).map cvrLayout.binaryRepresentation = .ok [0, 0x30, 0, 0, 0] ∧
    ((otherShift cvrLayout "pin_try_count" 5).tryFrom [0, 0x30, 0, 0, 0]).map
      (otherShift cvrLayout "pin_try_count" 5).binaryRepresentation = .ok [0, 0x20, 0, 0, 0] := by decide +kernel

example := c105_exact c105_flag_types.1

example := c105_complete c105_flag_types.2.1

example := c105_same c105_flag_types.2.1 (by decide +kernel) [0xE8, 0x00] [0xE8, 0x01] rfl rfl

example := c105_byte_count c105_flag_types.1 4

end Pemv
