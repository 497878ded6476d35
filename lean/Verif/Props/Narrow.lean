import Verif.Proofs.Narrow
import Verif.Proofs.Outcome

/-!
# C102: targets with 32 bits

`m.usizeBits = 32` is a 32-bit target, `m.overflowChecks` says whether the build checks overflows (debug builds do,
release builds do not). A string on such a target has fewer than 2^31 bytes.
-/

namespace Pemv

open Spec

/-! ### C102 -/

/-- **C102.** On a 32-bit target, in either build mode, reading BER-TLV data panics exactly if the parser comes to an
object the announced end of which is at 2^32 or later. Otherwise the outcome is that of a 64-bit target. -/
theorem c102_ber {m m' : Machine} (h32 : m.usizeBits = 32) (h64 : m'.usizeBits = 64) (masks : List Char)
    (bytes : List Byte) (h : bytes.length < 2 ^ 31) :
    (berParse m bytes masks = .panic ↔ FarEnd masks bytes) ∧
    (¬ FarEnd masks bytes → berParse m bytes masks = berParse m' bytes masks) := by
  obtain ⟨h1, h2⟩ := berParse_32 h32 h64 masks bytes h
  refine ⟨⟨fun hp => ?_, h1⟩, h2⟩
  apply Classical.byContradiction
  intro hn
  have := berParse_returned masks bytes (fits_64 h64 h)
  rw [← h2 hn, hp] at this
  cases this

example := c102_ber (m := .release32) (m' := .debug64) rfl rfl [] [0x9A, 0x01, 0x26, 0x5A, 0x84, 0xFF, 0xFF, 0xFF, 0xFF, 0x00]
  (by decide +kernel)

/-- **C102.** The same for Ingenico text, in a build with overflow checks, or if the parser comes to no record in hex
that announces 2^31 bytes or more. -/
theorem c102_ingenico {m m' : Machine} (h32 : m.usizeBits = 32) (h64 : m'.usizeBits = 64) (masks : List Char)
    (s : Text) (h : s.length < 2 ^ 31) (hs : ∀ c ∈ s, c.toNat < 128)
    (hw : m.overflowChecks = true ∨ ¬ WideRecord masks s) :
    (ingParse m s masks = .panic ↔ FarRecord masks s) ∧
    (¬ FarRecord masks s → ingParse m s masks = ingParse m' s masks) := by
  obtain ⟨h1, h2⟩ := ingParse_32 h32 h64 masks s h hs hw
  refine ⟨⟨fun hp => ?_, h1⟩, h2⟩
  apply Classical.byContradiction
  intro hn
  have := ingParse_returned masks s (fits_64 h64 h)
  rw [← h2 hn, hp] at this
  cases this

example := c102_ingenico (m := .debug32) (m' := .debug64) rfl rfl [] "T5A:80000001:h12".toList (by decide +kernel)
  (by decide +kernel) (Or.inl rfl)

/-- **C102.** A build without overflow checks takes the announced lengths of records in hex modulo 2^31: two texts that
differ only in such a length, by a multiple of 2^31, are read alike. -/
theorem c102_modulo {m : Machine} (h32 : m.usizeBits = 32) (hc : m.overflowChecks = false) (masks : List Char)
    (s s' : Text) (l : List (Record × Char)) (h h' : Head) (rest : Text) (h1 : Reaches masks s l h rest)
    (h2 : Reaches masks s' l h' rest) (hlow : SameLow h h') (hlen : s.length < 2 ^ 31) :
    ingParse m s masks = ingParse m s' masks :=
  ingParse_low h32 hc masks h1 h2 hlow hlen

example : ingParse .release32 "T5A:80000001:h12".toList [] = ingParse .release32 "T5A:00000001:h12".toList [] :=
  c102_modulo rfl rfl [] _ _ [] ⟨'T', "5A".toList, "80000001".toList, 'h'⟩ ⟨'T', "5A".toList, "00000001".toList, 'h'⟩
    "12".toList ⟨by decide, by simp, by decide, by decide, by decide, by decide, Or.inr rfl⟩
    ⟨by decide, by simp, by decide, by decide, by decide, by decide, Or.inr rfl⟩
    ⟨rfl, rfl, ⟨rfl, rfl⟩, by decide, by decide +kernel⟩ (by decide +kernel)

/-- **C102.** This settles all other texts: each can be rewritten in that way until no record in hex announces 2^31
bytes or more, and is then read like the rewritten text. -/
theorem c102_without_checks {m m' : Machine} (h32 : m.usizeBits = 32) (hc : m.overflowChecks = false)
    (h64 : m'.usizeBits = 64) (masks : List Char) (s : Text) (h : s.length < 2 ^ 31) (hs : ∀ c ∈ s, c.toNat < 128) :
    ∃ s', Rewritten masks s s' ∧ ¬ WideRecord masks s' ∧
      (ingParse m s masks = .panic ↔ FarRecord masks s') ∧
      (¬ FarRecord masks s' → ingParse m s masks = ingParse m' s' masks) := by
  obtain ⟨s', h1, h2⟩ := rewritten_exists masks _ s (Nat.le_refl _) hs
  obtain ⟨h3, h4, h5⟩ := rewritten_parse h32 hc h1 h
  refine ⟨s', h1, h2, ?_⟩
  rw [h3]
  exact c102_ingenico h32 h64 masks s' (by omega) (h5 hs) (Or.inr h2)

example := c102_without_checks (m := .release32) (m' := .debug64) rfl rfl rfl [] "T5A:80000001:h12".toList
  (by decide +kernel) (by decide +kernel)

/-- **C102.** Text with characters outside ASCII is rejected as records on every target. -/
theorem c102_not_ascii (m : Machine) (masks : List Char) (s : Text) (hs : ¬ ∀ c ∈ s, c.toNat < 128) :
    ingParse m s masks = .err .nonCompliant := ingParse_nonascii masks s hs

example : ingParse .release32 "T5A:80000001:hé".toList [] = .err .nonCompliant :=
  c102_not_ascii .release32 [] _ (fun h => absurd (h 'é' (by decide +kernel)) (by decide))

/-- **C102.** So records that announce a wrong length are accepted by release builds for 32-bit targets, which no
other build does. Half of that length is too little to be taken for another one. -/
theorem c102_wrong_length_accepted :
    ingParse .release32 "T5A:80000001:h12".toList [] =
      .ok [.mk ⟨[0x5A], .application, .primitive, .normal [0x12]⟩ []] ∧
    ingParse .debug32 "T5A:80000001:h12".toList [] = .panic ∧
    ingParse .release64 "T5A:80000001:h12".toList [] = .err .nonCompliant ∧
    ingParse .debug64 "T5A:80000001:h12".toList [] = .err .nonCompliant ∧
    (∀ m ∈ [Machine.release32, .debug32, .release64, .debug64],
      ingParse m "T5A:40000001:h12".toList [] = .err .nonCompliant) := by decide +kernel

/-- **C102.** A whole run on a 32-bit target panics before anything is printed if its input is such that the parser
comes to a far end. Otherwise it does what the same build does on a 64-bit target; all of what the other operations do
is the same in any case. -/
theorem c102_run {m m' : Machine} (h32 : m.usizeBits = 32) (h64 : m'.usizeBits = 64)
    (hc : m.overflowChecks = m'.overflowChecks) (ops : CliOps) (masks : List Char) (sort : Bool)
    (h : ∀ p, selected ops = some p → p.2.length < 2 ^ 31 ∧
      (p.1 ∈ [.autoTlv, .ingenicoTlv] → m.overflowChecks = true ∨ ¬ WideRecord masks p.2)) :
    (∀ op s, selected ops = some (op, s) → FarInput masks op s → run m ops masks sort = ⟨⟨[], true⟩, none, false, false⟩) ∧
    ((∀ op s, selected ops = some (op, s) → ¬ FarInput masks op s) → run m ops masks sort = run m' ops masks sort) := by
  rw [run_eq, run_eq]
  cases hsel : selected ops with
  | none => exact ⟨fun op s h => (by cases h), fun _ => rfl⟩
  | some p =>
    obtain ⟨op, s⟩ := p
    obtain ⟨hl, hw⟩ := h (op, s) hsel
    simp only
    rcases operation_cases op with hop | hop | hop
    · have hno : ¬ FarInput masks op s := by
        simp only [hexOperations, List.mem_cons, List.not_mem_nil, or_false] at hop
        rcases hop with rfl | rfl | rfl | rfl | rfl | rfl | rfl <;> exact id
      refine ⟨?_, fun _ => runOp_hex_machines m m' masks sort op (Or.inl hop) s⟩
      intro op' s' e hf
      cases e
      exact absurd hf hno
    · have hno : ¬ FarInput masks op s := by subst hop; exact id
      refine ⟨?_, fun _ => runOp_hex_machines m m' masks sort op (Or.inr hop) s⟩
      intro op' s' e hf
      cases e
      exact absurd hf hno
    · have hw' : op = .berTlv ∨ m.overflowChecks = true ∨ ¬ WideRecord masks s := by
        by_cases hb : op = .berTlv
        · exact Or.inl hb
        · refine Or.inr (hw ?_)
          simp only [List.mem_cons, List.not_mem_nil, or_false] at hop ⊢
          rcases hop with h | h | h
          · exact Or.inl h
          · exact absurd h hb
          · exact Or.inr h
      obtain ⟨t1, t2⟩ := tlvParse_32 h32 h64 masks op s hl hw'
      rw [runOp_tlv m masks sort op hop, runOp_tlv m' masks sort op hop]
      constructor
      · intro op' s' e hf
        cases e
        rw [t1 hf, tlvOutcome]
        rfl
      · intro hn
        rw [t2 (hn op s rfl)]
        cases tlvParse m' masks op s with
        | ok p =>
          obtain ⟨f, b⟩ := p
          rw [tlvOutcome, tlvOutcome]
          cases processBlock b with
          | ok q =>
            simp only
            rw [displayBlock, displayBlock, nodes_checks (indentSucc_checks hc)]
          | _ => rfl
        | _ => rfl

/-- Both targets and both modes exist. -/
example : Machine.debug32.usizeBits = 32 ∧ Machine.debug32.overflowChecks = true ∧ Machine.release32.usizeBits = 32 ∧
    Machine.release32.overflowChecks = false ∧ Machine.debug64.usizeBits = 64 := ⟨rfl, rfl, rfl, rfl, rfl⟩

/-- A far end after a whole object, and what becomes of it. -/
example : FarEnd [] [0x9A, 0x01, 0x26, 0x5A, 0x84, 0xFF, 0xFF, 0xFF, 0xFF, 0x00] :=
  .here [⟨[0x9A], [0x01], [0x26]⟩] [0x5A] [0x84, 0xFF, 0xFF, 0xFF, 0xFF] [0x00] (beValue [0xFF, 0xFF, 0xFF, 0xFF])
    (by
      intro e he
      simp only [List.mem_cons, List.not_mem_nil, or_false] at he
      subst he
      exact ⟨.low _ (by decide), .short 0x01 (by decide)⟩)
    (.low _ (by decide)) (.long 0x84 _ (by decide) (by decide)) (by simp) (by decide)
example : berParse .release32 [0x9A, 0x01, 0x26, 0x5A, 0x84, 0xFF, 0xFF, 0xFF, 0xFF, 0x00] [] = .panic ∧
    berParse .release64 [0x9A, 0x01, 0x26, 0x5A, 0x84, 0xFF, 0xFF, 0xFF, 0xFF, 0x00] [] = .err .nonCompliant := by
  decide +kernel

/-- One inside a template; on 64-bit targets the template is shown without children. -/
example : FarEnd [] [0x70, 0x07, 0x5A, 0x84, 0xFF, 0xFF, 0xFF, 0xFF, 0x00] :=
  .inside [] ⟨[0x70], [0x07], [0x5A, 0x84, 0xFF, 0xFF, 0xFF, 0xFF, 0x00]⟩ [] (by simp)
    ⟨.low _ (by decide), .short 0x07 (by decide)⟩ (by decide) (by rintro ⟨-, m, h, -⟩; cases h)
    (.here [] [0x5A] [0x84, 0xFF, 0xFF, 0xFF, 0xFF] [0x00] (beValue [0xFF, 0xFF, 0xFF, 0xFF]) (by simp)
      (.low _ (by decide)) (.long 0x84 _ (by decide) (by decide)) (by simp) (by decide))
example : berParse .debug32 [0x70, 0x07, 0x5A, 0x84, 0xFF, 0xFF, 0xFF, 0xFF, 0x00] [] = .panic ∧
    (berParse .debug64 [0x70, 0x07, 0x5A, 0x84, 0xFF, 0xFF, 0xFF, 0xFF, 0x00] []).isReturned = true := by decide +kernel

/-- The last length that fits, and the first that does not. -/
example : berParse .debug32 [0x5A, 0x84, 0xFF, 0xFF, 0xFF, 0xF9, 0x00] [] = .err .nonCompliant ∧
    berParse .debug32 [0x5A, 0x84, 0xFF, 0xFF, 0xFF, 0xFA, 0x00] [] = .panic ∧
    berParse .release32 [0x5A, 0x84, 0xFF, 0xFF, 0xFF, 0xF9, 0x00] [] = .err .nonCompliant ∧
    berParse .release32 [0x5A, 0x84, 0xFF, 0xFF, 0xFF, 0xFA, 0x00] [] = .panic := by decide +kernel

/-- A wide record and the record it is read like. -/
example : Reaches [] "T5A:80000001:h12".toList [] ⟨'T', "5A".toList, "80000001".toList, 'h'⟩ "12".toList ∧
    Reaches [] "T5A:00000001:h12".toList [] ⟨'T', "5A".toList, "00000001".toList, 'h'⟩ "12".toList ∧
    SameLow ⟨'T', "5A".toList, "80000001".toList, 'h'⟩ ⟨'T', "5A".toList, "00000001".toList, 'h'⟩ :=
  ⟨⟨by decide, by simp, by decide, by decide, by decide, by decide, Or.inr rfl⟩,
    ⟨by decide, by simp, by decide, by decide, by decide, by decide, Or.inr rfl⟩,
    rfl, rfl, ⟨rfl, rfl⟩, by decide, by decide +kernel⟩

/-- A far record: its length in characters does not fit, on a build with overflow checks. -/
example : FarRecord [] "T5A:80000001:h12".toList :=
  Or.inl ⟨[], ⟨'T', "5A".toList, "80000001".toList, 'h'⟩, "12".toList,
    ⟨by decide, by simp, by decide, by decide, by decide, by decide, Or.inr rfl⟩, by decide +kernel⟩

/-- A run that panics on 32 bits, and one that does not. -/
example : run .debug32 { autoTlv := some "T5A:FFFFFFFF:aXY".toList } [] true = ⟨⟨[], true⟩, none, false, false⟩ ∧
    run .release32 { autoTlv := some "T5A:FFFFFFFF:aXY".toList } [] true = ⟨⟨[], true⟩, none, false, false⟩ ∧
    run .release32 { autoTlv := some "T5A:02:aXY".toList } [] true =
      run .release64 { autoTlv := some "T5A:02:aXY".toList } [] true := by decide +kernel

end Pemv
