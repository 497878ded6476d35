import Verif.Proofs.Display
import Verif.Proofs.Deep

/-!
# C53–C56, C68: what is shown
-/

namespace Pemv

open Spec

/-! ### C53 -/

/-- **C53.** A dump has one line per sixteen bytes (fewer on the last one only), each with the current
indentation and the bytes in hex. -/
theorem c53_dump (bs : List Byte) (i : Nat) : ∃ rows : List (List Byte), rows.flatten = bs ∧
    (∀ r ∈ rows, 1 ≤ r.length ∧ r.length ≤ 16) ∧ (∀ r ∈ rows.dropLast, r.length = 16) ∧
    (printBytes bs 16 i).panicked = false ∧
    (printBytes bs 16 i).text = rows.flatMap (fun r => tabs i ++ hexRow r ++ ['\n']) := by
  refine ⟨rowsOf16 bs, rowsOf16_flatten bs, fun r hr => ?_, rowsOf16_full bs, (printBytes_text bs i).1,
    (printBytes_text bs i).2⟩
  obtain ⟨h1, h2⟩ := rowsOf16_mem hr
  exact ⟨List.length_pos_iff.2 h1, h2⟩

/-- **C53.** A dump can be read back: as hex text it denotes the bytes it shows. -/
theorem c53_read_back (bs : List Byte) (i : Nat) :
    hexDecode (printBytes bs 16 i).text = bs.map UInt8.toNat ∧ parseHexStr (printBytes bs 16 i).text = bs := by
  have h : hexDecode (printBytes bs 16 i).text = bs.map UInt8.toNat := by
    rw [(printBytes_text bs i).2, decode_rows, rowsOf16_flatten]
    intro r _
    rw [List.filterMap_append, List.filterMap_append, tabs_digits, hexRow_digits]
    simp [hexDigit?, hexDigits, List.lookup]
  exact ⟨h, map_toNat_injective (by rw [c01_lenient_hex, h])⟩

/-- **C53.** The dump with readable text: on every line the text starts in the same column, has one character
per byte of the line - the byte itself if it is printable ASCII - and what precedes it reads back as the
bytes. -/
theorem c53_text_column (bs : List Byte) (i : Nat) : ∃ rows : List (List Byte), ∃ left : List Byte → Text,
    rows.flatten = bs ∧ (∀ r ∈ rows, 1 ≤ r.length ∧ r.length ≤ 16) ∧ (∀ r ∈ rows.dropLast, r.length = 16) ∧
    (printBytesPretty bs 16 i).panicked = false ∧
    (printBytesPretty bs 16 i).text =
      rows.flatMap (fun r => tabs i ++ (left r ++ r.map readable) ++ ['\n']) ∧
    (∀ r ∈ rows, (left r).length = 49) ∧
    hexDecode (rows.flatMap left) = bs.map UInt8.toNat := by
  refine ⟨rowsOf16 bs, fun r => padTo 49 (hexRow r), rowsOf16_flatten bs, fun r hr => ?_, rowsOf16_full bs,
    (printBytesPretty_text bs i).1, (printBytesPretty_text bs i).2, fun r hr => ?_, ?_⟩
  · obtain ⟨h1, h2⟩ := rowsOf16_mem hr
    exact ⟨List.length_pos_iff.2 h1, h2⟩
  · obtain ⟨h1, h2⟩ := rowsOf16_mem hr
    show (padTo 49 (hexRow r)).length = 49
    rw [padTo, List.length_append, List.length_replicate, hexRow_length]
    omega
  · rw [decode_rows, rowsOf16_flatten]
    intro r _
    show (padTo 49 (hexRow r)).filterMap hexDigit? = _
    rw [padTo, List.filterMap_append, hexRow_digits]
    have : (List.replicate (49 - (hexRow r).length) ' ').filterMap hexDigit? = [] := by
      rw [List.filterMap_eq_nil_iff]
      intro c hc
      rw [List.eq_of_mem_replicate hc]; rfl
    rw [this, List.append_nil]

/-- **C53.** The inline form used for tags. -/
theorem c53_inline (bs : List Byte) : (printBytesSmall bs).panicked = false ∧
    (printBytesSmall bs).text.length = 2 * bs.length ∧
    hexDecode (printBytesSmall bs).text = bs.map UInt8.toNat := by
  have e : (printBytesSmall bs).text = bs.flatMap hexPair := by
    rw [← flatMap_hexByte]
    show evText [.text _] = _
    simp [evText]
  rw [e]
  refine ⟨rfl, ?_, ?_⟩
  · induction bs with
    | nil => rfl
    | cons b bs ih =>
      have : (printBytesSmall bs).text = bs.flatMap hexPair := by
        rw [← flatMap_hexByte]
        show evText [.text _] = _
        simp [evText]
      rw [List.flatMap_cons, List.length_append, ih this, List.length_cons]
      have : (hexPair b).length = 2 := rfl
      omega
  · rw [hexDecode]
    have : (bs.flatMap hexPair).filterMap hexDigit? = bs.flatMap (fun b => [b.toNat / 16, b.toNat % 16]) := by
      clear e
      induction bs with
      | nil => rfl
      | cons b bs ih => rw [List.flatMap_cons, List.filterMap_append, hexPair_digits, ih, List.flatMap_cons]
    rw [this, pairUp_nibbles]

/-- Seventeen bytes: a full line and a short one. -/
example : String.ofList (printBytes [0, 1, 2, 3, 4, 5, 6, 7, 8, 9, 10, 11, 12, 13, 14, 15, 255] 16 1).text =
    "\t00 01 02 03 04 05 06 07 08 09 0A 0B 0C 0D 0E 0F\n\tFF\n" := by decide +kernel

example : String.ofList (printBytesPretty [0x41, 0x1B, 0x42] 16 1).text =
    "\t41 1B 42                                         A.B\n" := by decide +kernel

/-! ### C54 -/

/-- **C54.** Whatever the program is given, on any target and with any build, even if it panics, all text on
standard output is printable ASCII, tabs, line breaks and the characters of the drawings. -/
theorem c54_output (m : Machine) (ops : CliOps) (masks : List Char) (sort : Bool) :
    ∀ c ∈ (run m ops masks sort).disp.text,
      c = '\t' ∨ c = '\n' ∨ (32 ≤ c.toNat ∧ c.toNat ≤ 126) ∨ c ∈ ['│', '└', '├', '─', '┘'] :=
  run_safe m ops masks sort

/-- **C54.** The same holds for error messages. -/
theorem c54_errors (m : Machine) (ops : CliOps) (masks : List Char) (sort : Bool) (t : Text)
    (h : (run m ops masks sort).stderr = some t) :
    ∀ c ∈ t, c = '\t' ∨ c = '\n' ∨ (32 ≤ c.toNat ∧ c.toNat ≤ 126) ∨ c ∈ ['│', '└', '├', '─', '┘'] := by
  obtain ⟨e, he⟩ := run_stderr m ops masks sort t h
  rw [he.stderr] at h
  cases h
  exact (safe_message e).append safe_nl

example := c54_errors .debug64 { autoTlv := some "9501FF".toList } [] true _
  (Option.some_get (show (run .debug64 { autoTlv := some "9501FF".toList } [] true).stderr.isSome = true by decide +kernel)).symm

/-- **C54.** A byte is shown as itself only if it is printable ASCII. -/
theorem c54_bytes (b : Byte) : printableChar b = (if 32 ≤ b.toNat ∧ b.toNat ≤ 126 then Char.ofNat b.toNat else '.') :=
  printableChar_eq b

/-- A value made of an escape sequence. -/
example : (run .debug64 { berTlv := some "DF01041B5B324A".toList } [] false).disp.text =
    ["Tag: 0xDF01 - 4 bytes - ", "<Unknown>\nRaw:\n", "\t1B 5B 32 4A ", "                        ",
     "             .[2J\n"].flatMap String.toList := same_text (by decide +kernel)

/-! ### C55 -/

/-- **C55 (partial).** As long as nothing is nested deeper than 254 levels, a block is shown without panic on
every target and in every build, as a document in which each tag is introduced, in document order, by a line
with as many tabs as its nesting depth. Missing: deeper blocks, for which the claim is false (below). -/
theorem c55_indentation_partial (m : Machine) (b : RawEmvBlock) (q : ProcessedEmvBlock) (sort : Bool)
    (h : processBlock b = .ok q) (hd : blockDepth b ≤ 254) : ∃ b' doc, Arranged sort b b' ∧
    Shows (displayBlock m (maybeSort sort q) 0 true) (showLines 0 doc) ∧
    ((blockLevels 0 b').map (fun p => (⟨some p.1, (tagLine p.2).cells⟩ : Line))).Sublist doc ∧
    ∀ p ∈ blockLevels 0 b', (⟨some p.1, (tagLine p.2).cells⟩ : Line).render 0 = plain (tabs p.1) ++ (tagLine p.2).cells := by
  obtain ⟨b', hb, hs⟩ := shows_arranged (m := m) h sort (Or.inl hd)
  refine ⟨b', _, hb, hs, levels_block true b', fun p hp => ?_⟩
  have h1 := blockLevels_bound 0 b' p hp
  have h2 := arranged_depth hb
  rw [Line.render]
  simp only [Nat.zero_add]
  rw [Nat.mod_eq_of_lt (by omega)]

/-- A date in a template. -/
example := c55_indentation_partial .debug64 [.mk ⟨[0x70], .application, .constructed, .normal [0x9A, 1, 0xAA]⟩
  [.mk ⟨[0x9A], .contextSpecific, .primitive, .normal [0xAA]⟩ []]] _ true rfl (by decide)

/-- **C55.** Without overflow checks the indentation restarts after 255: a tag at depth `d` is shown with
`d % 256` tabs, and the program never panics, whatever the depth. -/
theorem c55_restarts (m : Machine) (hm : m.overflowChecks = false) (b : RawEmvBlock) (q : ProcessedEmvBlock)
    (sort : Bool) (h : processBlock b = .ok q) : ∃ b' doc, Arranged sort b b' ∧
    Shows (displayBlock m (maybeSort sort q) 0 true) (showLines 0 doc) ∧
    ((blockLevels 0 b').map (fun p => (⟨some p.1, (tagLine p.2).cells⟩ : Line))).Sublist doc ∧
    ∀ p ∈ blockLevels 0 b', (⟨some p.1, (tagLine p.2).cells⟩ : Line).render 0 =
      plain (tabs (p.1 % 256)) ++ (tagLine p.2).cells := by
  obtain ⟨b', hb, hs⟩ := shows_arranged (m := m) h sort (Or.inr hm)
  refine ⟨b', _, hb, hs, levels_block true b', fun p hp => ?_⟩
  rw [Line.render]
  simp only [Nat.zero_add]

example := c55_restarts .release64 rfl [.mk ⟨[0x70], .application, .constructed, .normal [0x9A, 1, 0xAA]⟩
  [.mk ⟨[0x9A], .contextSpecific, .primitive, .normal [0xAA]⟩ []]] _ true rfl

/-- **C55.** With overflow checks every block nested 257 levels or more makes the program panic. -/
theorem c55_panics (m : Machine) (hm : m.overflowChecks = true) (b : RawEmvBlock) (q : ProcessedEmvBlock)
    (sort : Bool) (h : processBlock b = .ok q) (hd : 257 ≤ blockDepth b) :
    (displayBlock m (maybeSort sort q) 0 true).panicked = true := by
  refine deep_nodes hm true _ true 0 (by omega) ?_
  rw [maybeSort_depth, processBlock_erase b q h]
  omega

/-- 257 objects inside each other. -/
example : ∃ b q, processBlock b = .ok q ∧ (displayBlock .debug64 (maybeSort true q) 0 true).panicked = true := by
  have deep : ∀ d, ∃ b q, processBlock b = .ok q ∧ blockDepth b = d := by
    intro d
    induction d with
    | zero => exact ⟨[], [], rfl, rfl⟩
    | succ d ih =>
      obtain ⟨b, q, h, hd⟩ := ih
      obtain ⟨t, ht⟩ : ∃ t, processEmvTag ⟨[0x70], .application, .constructed, .masked⟩ = .ok t := ⟨_, rfl⟩
      exact ⟨[.mk ⟨[0x70], .application, .constructed, .masked⟩ b], [.mk t q],
        by simp only [processBlock, processNode, h, ht]; rfl, by simp only [blockDepth, nodeDepth, hd]; omega⟩
  obtain ⟨b, q, h, hd⟩ := deep 257
  exact ⟨b, q, h, c55_panics .debug64 rfl b q true h (by omega)⟩

/-- **C55.** With overflow checks the program shows the whole document if no line of it has to be indented by
more than 255, and panics otherwise. Nothing else can happen. -/
theorem c55_exact (m : Machine) (hm : m.overflowChecks = true) (b : RawEmvBlock) (q : ProcessedEmvBlock)
    (sort : Bool) (h : processBlock b = .ok q) : ∃ b', Arranged sort b b' ∧
    ((∀ l ∈ blockLines true b', ∀ k, l.indent = some k → k ≤ 255) →
      Shows (displayBlock m (maybeSort sort q) 0 true) (showLines 0 (blockLines true b'))) ∧
    ((∃ l ∈ blockLines true b', ∃ k, l.indent = some k ∧ 256 ≤ k) →
      (displayBlock m (maybeSort sort q) 0 true).panicked = true) := by
  have he := processBlock_erase b q h
  have hp := allProcessed_sort sort (allProcessed h)
  have hx := exact_nodes hm (c := true) _ 0 (by omega) hp
  have hs := shows_nodes (m := m.unchecked) (colours := true) _ 0 hp (Or.inr rfl)
  rw [ExactPanic] at hx
  refine ⟨eraseBlock (maybeSort sort q), by rw [← he]; exact maybeSort_arranged sort q, fun hl => ?_, fun hl => ?_⟩
  · have hn : ¬ (displayNodes m true (maybeSort sort q) true 0).panicked = true := by
      rw [hx]
      rintro ⟨l, hl', k, hk, h'⟩
      have := hl l hl' k hk
      omega
    rcases truncates_nodes m true (maybeSort sort q) true 0 with ht | ⟨ht, -⟩
    · rw [displayBlock, ht]; exact hs
    · exact absurd ht hn
  · obtain ⟨l, hl, k, hk, h'⟩ := hl
    exact hx.2 ⟨l, hl, k, hk, by omega⟩

example := c55_exact .debug64 rfl [.mk ⟨[0x70], .application, .constructed, .normal [0x9A, 1, 0xAA]⟩
  [.mk ⟨[0x9A], .contextSpecific, .primitive, .normal [0xAA]⟩ []]] _ true rfl

/-- **C55.** So the claim is false: there is a text of at most 3100 characters that makes the BER-TLV option
panic in a 64-bit build with overflow checks, and that is shown wrongly indented in one without. -/
theorem c55_false (masks : List Char) (sort : Bool) : ∃ s : Text, s.length ≤ 3100 ∧
    (run .debug64 { berTlv := some s } masks sort).disp.panicked = true ∧
    ∃ doc, Succeeds (run .release64 { berTlv := some s } masks sort) (showLines 0 doc) ∧
      ∃ l ∈ doc, ∃ t, l = ⟨some 256, (tagLine t).cells⟩ ∧ l.render 0 = (tagLine t).cells := by
  obtain ⟨s, b, hl, hp, hd, ha⟩ := nest_text 256 (by omega) masks
  refine ⟨s, by omega, ?_⟩
  obtain ⟨q, hq⟩ := (c34_ok_iff b).2 ha
  have hd64 := hp .debug64 (c16_fits_64 rfl _ (by omega))
  have hr64 := hp .release64 (c16_fits_64 rfl _ (by omega))
  constructor
  · rw [run_eq]
    show (runOp .debug64 masks sort .berTlv s).disp.panicked = true
    rw [runOp_tlv _ _ _ _ (by simp), tlvParse, hd64]
    simp only [Out.map_ok]
    rw [tlvOutcome]
    simp only [hq]
    exact seq_panicked_right (c55_panics .debug64 rfl b q sort hq (by omega))
  · obtain ⟨b', hb, hs⟩ := (reports_tlv .release64 masks sort .berTlv (by simp) s).2.2 none b q
      (by rw [tlvParse, hr64]; rfl) hq (Or.inr rfl)
    refine ⟨blockLines true b', by rw [run_eq]; exact hs, ?_⟩
    have h2 : blockDepth b' = 257 := by
      rw [arranged_depth hb]; exact hd
    obtain ⟨p, hp, hp1⟩ := deepest 0 b' (by omega)
    have h256 : p.1 = 256 := by omega
    refine ⟨_, (levels_block true b').subset (List.mem_map.2 ⟨p, hp, rfl⟩), p.2, ?_, ?_⟩
    · rw [tagLineAt, h256]
    · rw [tagLineAt, h256, Line.render]
      simp [tabs, plain, styled]

/-- Two levels and three tags. -/
example : (berParse .debug64 (parseHexStr "7006 9A01AA 9F0100".toList) []).map
    (fun b => (blockLevels 0 b).map (fun p => (p.1, p.2.tag))) =
      .ok [(0, [0x70]), (1, [0x9A]), (1, [0x9F, 0x01])] := by decide +kernel

example : (run .debug64 { berTlv := some "7006 9A01AA 9F0100".toList } [] false).stderr = none ∧
    (run .debug64 { berTlv := some "7006 9A01AA 9F0100".toList } [] false).disp.panicked = false := by decide +kernel

/-! ### C56 -/

/-- **C56.** The amounts are shown, before the rules, if and only if one of them is not zero or the condition of
some rule (6 to 9) refers to them, with as many digits as the longer one needs but at least three; the rules follow in
order. -/
theorem c56_amounts (m : Machine) (bs : List Byte) (v : CvmList) (h : CvmList.tryFrom bs = .ok v) (i : Nat)
    (hi : i < 255) : ∃ amounts : List Line, Shows (displayCvmList m v i) (showLines i (amounts ++
        [title "Cardholder Verification Rules:"] ++
        ((pairs (bs.drop 8)).zipIdx 1).flatMap (fun p => ruleLines p.2 p.1))) ∧
    ((beValue (bs.take 4) ≠ 0 ∨ beValue ((bs.drop 4).take 4) ≠ 0 ∨
        ∃ p ∈ pairs (bs.drop 8), p.2.toNat ∈ [6, 7, 8, 9]) →
      ∃ w, w = max 3 (max (decimal (beValue (bs.take 4))).length (decimal (beValue ((bs.drop 4).take 4))).length) ∧ amounts = [
        entry "X Value:" (' ' :: digitsAtLeast w (beValue (bs.take 4)) ++
          " (implicit decimal point based on application currency)".toList),
        entry "Y Value:" (' ' :: digitsAtLeast w (beValue ((bs.drop 4).take 4)))]) ∧
    (¬(beValue (bs.take 4) ≠ 0 ∨ beValue ((bs.drop 4).take 4) ≠ 0 ∨
        ∃ p ∈ pairs (bs.drop 8), p.2.toNat ∈ [6, 7, 8, 9]) → amounts = []) := by
  haveI : Small i := ⟨by omega⟩
  have hs := shows_cvmList (m := m) h (Or.inl hi)
  rw [cvmListLines] at hs
  have hm : amountsMatter bs = true ↔ (beValue (bs.take 4) ≠ 0 ∨ beValue ((bs.drop 4).take 4) ≠ 0 ∨
      ∃ p ∈ pairs (bs.drop 8), p.2.toNat ∈ [6, 7, 8, 9]) := by
    rw [amountsMatter, Bool.or_eq_true, Bool.or_eq_true, decide_eq_true_iff, decide_eq_true_iff, List.any_eq_true, or_assoc]
    refine or_congr Iff.rfl (or_congr Iff.rfl (exists_congr fun p => and_congr Iff.rfl ?_))
    simp only [Bool.and_eq_true, decide_eq_true_eq, List.mem_cons, List.not_mem_nil, or_false]
    omega
  refine ⟨_, hs, fun hc => ?_, fun hc => ?_⟩
  · rw [if_pos (hm.2 hc)]
    exact ⟨_, rfl, rfl⟩
  · exact if_neg (fun h => hc (hm.1 h))

/-- The two cases: no amount matters, and amounts of zero that a rule refers to. -/
example : (CvmList.tryFrom [0, 0, 0, 0, 0, 0, 0, 0, 0x1E, 0x03]).map
      (fun v => (displayCvmList .debug64 v 0).evs.length) = .ok 23 ∧
    (CvmList.tryFrom [0, 0, 0, 0, 0, 0, 0, 0, 0x1E, 0x06]).map
      (fun v => (displayCvmList .debug64 v 0).evs.length) = .ok 33 := by decide +kernel

/-! ### C68 -/

/-- **C68.** Every run that ends normally leaves the terminal without colours. -/
theorem c68_restored (m : Machine) (ops : CliOps) (masks : List Char) (sort : Bool)
    (h : (run m ops masks sort).disp.panicked = false) :
    lastStyle plainStyle (run m ops masks sort).disp.evs = plainStyle := by
  obtain ⟨ls, d, ht, hs, -⟩ := run_shape m ops masks sort
  rcases ht with rfl | ⟨hp, -⟩
  · exact hs.restored
  · rw [h] at hp; cases hp

/-- A run that uses colours. -/
example : (run .debug64 { berTlv := some "9F3501 22".toList } [] true).disp.panicked = false ∧
    (run .debug64 { berTlv := some "9F3501 22".toList } [] true).disp.evs.any (fun e => match e with | .setColor _ => true | _ => false) := by decide +kernel

end Pemv
