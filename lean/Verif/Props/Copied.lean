import Verif.Proofs.Copied
import Verif.Props.Cli
import Verif.Props.Nested
import Verif.Props.Whole

/-!
# C110: what is shown of a value can be given to the program again
-/

namespace Pemv

open Spec

/-- **C110.** The dump of a value as it is written. -/
theorem c110_seen (level : Nat) (h : level < 256) (d : List Byte) :
    (printBytesPretty d 16 level).text = seenDump level d := by
  rw [(printBytesPretty_text d level).2, seenDump_eq level h]
  congr 1
  funext r
  rw [rowText]
  simp only [List.append_assoc]

example := c110_seen 1 (by decide) [0x41]

/-- **C110.** The columns with the hex digits denote the bytes, at whatever level the dump is shown. -/
theorem c110_columns (level : Nat) (h : level < 256) (d : List Byte) :
    hexBytes (hexColumns (seenDump level d)) = d ∧ ':' ∉ hexColumns (seenDump level d) :=
  ⟨copy_bytes ⟨level, h, Or.inl rfl⟩, columns_no_colon level h d⟩

example := c110_columns 3 (by decide) [0x41, 0x42]

example : String.ofList (seenDump 1 [0x41, 0x3A, 0x1B]) =
      "\t41 3A 1B                                         A:.\n" ∧
    String.ofList (hexColumns (seenDump 1 [0x41, 0x3A, 0x1B])) =
      "\t41 3A 1B                                       \n" := by decide +kernel

/-- **C110.** The whole lines denote the bytes exactly if no byte is the code of a hex digit, or only one is and all
bytes on the lines below consist of that digit twice. -/
theorem c110_whole (level : Nat) (h : level < 256) (d : List Byte) :
    hexBytes (seenDump level d) = d ↔ WholeLinesDo d := by
  rw [← whole_lines level h d, hexBytes]
  constructor
  · intro he
    rw [← c01_lenient_hex, hexBytes_eq, hexBytes, he]
  · intro he
    rw [he, ofNat_map_toNat]

example := c110_whole 0 (by decide) [0x41, 0x42]

/-- A name with one digit in it, and one with two. -/
example : WholeLinesDo [0x56, 0x49, 0x53, 0x41] ∧ hexBytes (seenDump 1 [0x56, 0x49, 0x53, 0x41]) = [0x56, 0x49, 0x53, 0x41] ∧
    hexBytes (seenDump 1 [0x43, 0x41, 0x53, 0x48]) = [0x43, 0x41, 0x53, 0x48, 0xCA] := by
  refine ⟨Or.inr ⟨[], [0x56, 0x49, 0x53, 0x41], [], 10, rfl, rfl, ?_, ?_⟩, by decide +kernel, by decide +kernel⟩ <;>
    (intro r hr; cases hr)

/-- **C110.** A value that is shown decoded: copied from its dump and given to the option that is named after its
tag, it is shown decoded the same. (A service code is not given in hex; see below.) -/
theorem c110_value (m : Machine) (file : FigData) (env : Dict) (profile : Option String) (isTty : Bool)
    (hw : WellTyped file env) (name : String) (op : Operation) (hn : (.long name, .operation op) ∈ optionNames)
    (hx : ∀ c ∈ name.toList, IsHex c) (hop : op ≠ .serviceCode) (t : RawEmvTag) (d : List Byte)
    (ht : t.tag = hexBytes name.toList) (hd : t.data = .normal d) (hne : d ≠ []) (ha : Acceptable t.tag d)
    (ls : List Line) (hv : valueLines true t.tag d = some ls) (s : Text) (hs : CopyOf d s) :
    parsedLines true t = title "Parsed:" :: deeper ls ∧
    ∃ colour r, execute m file env profile isTty [⟨.long name, [s]⟩] = .ran (.ok (colour, r)) ∧
      Succeeds r (showLines 0 ls) := by
  refine ⟨by rw [parsedLines, hd]; simp only [hv], ?_⟩
  obtain ⟨colour, r, hr, h1, -⟩ := c71_by_tag m file env profile isTty hw name op hn hx s (copy_ne hs hne)
  refine ⟨colour, r, hr, h1 d ls ?_ (ht ▸ ha) (ht ▸ hv)⟩
  rw [DataOf, if_neg hop, copy_bytes hs]

example := c110_value .debug64 (fun _ _ => none) (fun _ => none) none false
  ⟨(fun _ _ h => nomatch h), (fun _ _ _ h => nomatch h)⟩ "9B" .tsi (by decide) (by decide +kernel) (by decide)
  ⟨[0x9B], .contextSpecific, .primitive, .normal [0xE8, 0x00]⟩ [0xE8, 0x00] (by decide +kernel) rfl (by decide)
  ((acceptable_iff_only _ _).2 (by simp)) _ rfl _ ⟨2, by decide, Or.inl rfl⟩

/-- **C110.** The same for the service code fails: its dump is not a number. -/
theorem c110_service_code (m : Machine) (file : FigData) (env : Dict) (profile : Option String) (isTty : Bool)
    (hw : WellTyped file env) (a b : Byte) (s : Text) (hs : CopyOf [a, b] s) :
    ∃ colour r e, execute m file env profile isTty [⟨.long "5F30", [s]⟩] = .ran (.ok (colour, r)) ∧
      Fails r (message e) := by
  obtain ⟨colour, r, hr, -, h2⟩ := c71_by_tag m file env profile isTty hw "5F30" .serviceCode (by decide)
    (by decide +kernel) s (copy_ne hs (by simp))
  obtain ⟨e, he⟩ := h2 (by
    rintro ⟨d, ls, hd, -⟩
    rw [DataOf, if_pos rfl] at hd
    obtain ⟨n, hn, -⟩ := hd
    obtain ⟨A, B, h1, h3, h4⟩ := copy_two hs
    exact not_u16 h1 h3 h4 n hn)
  exact ⟨colour, r, e, hr, he⟩

example := c110_service_code .debug64 (fun _ _ => none) (fun _ => none) none false
  ⟨(fun _ _ h => nomatch h), (fun _ _ _ h => nomatch h)⟩ 0x02 0x01 _ ⟨2, by decide, Or.inl rfl⟩

/-- **C110.** The whole lines do not do in general. The dump of a list of two cardholder verification rules (a PIN or
nothing, a signature or nothing) has two digits in its text. With them the list is not a list any more. -/
theorem c110_whole_refuted : ∃ d : List Byte, Acceptable [0x8E] d ∧ valueLines true [0x8E] d ≠ none ∧
    Fails (run .debug64 { cvmList := some (seenDump 1 d) } [] true)
      (message .byteCountNotDivisibleIntoComponents) := by
  refine ⟨[0, 0, 0, 0, 0, 0, 0, 0, 0x42, 0x03, 0x44, 0x03], (acceptable_iff_only _ _).2 ?_, ?_, ?_⟩
  · refine ⟨(fun h => by cases h), (fun h => by cases h), (fun _ => ⟨2, rfl⟩), ?_⟩
    simp
  · decide +kernel
  · constructor <;> decide +kernel

/-- **C110.** A template that is shown with its contents: copied from its dump and given as BER-TLV data, the
contents are shown the same, one level less deep; and from the columns with the hex digits also if the format is to
be detected. -/
theorem c110_template {m : Machine} (masks : List Char) (sort : Bool) (e : Elem) (hw : e.WF)
    (hc : typeOf e.tag = .constructed) (hk : ¬ IsMasked (latin1 e.value) masks) (w : Text)
    (hb : hexBytes w = e.bytes) (hm : Fits m e.bytes.length)
    (b : RawEmvBlock) (h : berParse m e.value masks = .ok b) (hne : b ≠ []) (ha : AllAcceptable b)
    (hd : blockDepth b < 254 ∨ m.overflowChecks = false) :
    ∃ doc, Succeeds (run m { berTlv := some w } masks sort) (showLines 0 (
        [tagLine ⟨e.tag, classOf e.tag, .constructed, .normal e.value⟩] ++ rawLines (.normal e.value) ++
        title "Constructed Data Object's Child Tags:" :: deeper doc)) ∧
      (∀ s, CopyOf e.value s → Succeeds (run m { berTlv := some s } masks sort) (showLines 0 doc)) ∧
      ∀ level, level < 256 → Fits m (hexColumns (seenDump level e.value)).length →
        Succeeds (run m { autoTlv := some (hexColumns (seenDump level e.value)) } masks sort)
          (showLines 0 (formatLines "BER-TLV") ++ showLines 0 doc) := by
  have hv : e.value ≠ [] := by
    intro he
    rw [he] at h
    have : berParse m [] masks = .ok [] := by
      have hf : Fits m ([] : List Byte).length := Nat.le_trans (by simp) hm
      rw [berParse_eq masks _ hf, readElems_nil]
      rfl
    rw [this] at h
    cases h
    exact hne rfl
  obtain ⟨q, hq⟩ := (c34_ok_iff b).2 ha
  have key : ∀ s, CopyOf e.value s → Succeeds (run m { berTlv := some s } masks sort) _ := fun s hs =>
    ber_run (by rw [copy_bytes hs]; exact h) hq (shows_maybeSort (m := m) hq sort (hd.imp Nat.le_of_lt id))
  refine ⟨_, template_run masks sort hq hne hd e hw hc hk w hb hm h, key, fun level hl hf => ?_⟩
  have hcopy : CopyOf e.value (hexColumns (seenDump level e.value)) := ⟨level, hl, Or.inl rfl⟩
  exact c73_auto_ber masks sort _ (copy_ne hcopy hv) (columns_no_colon level hl _) hf _ (key _ hcopy)

/-- A response template with a label in it. -/
example := c110_template (m := .debug64) [] true ⟨[0x77], [0x06], [0x50, 0x04, 0x43, 0x41, 0x53, 0x48]⟩
  ⟨.low _ (by decide), .short 6 (by decide)⟩ rfl (fun ⟨_, _, h, _⟩ => nomatch h) "77 06 50 04 43 41 53 48".toList
  (by decide +kernel) (c16_fits_64 rfl _ (by decide))
  [.mk ⟨[0x50], .application, .primitive, .normal [0x43, 0x41, 0x53, 0x48]⟩ []] rfl (by simp)
  ((c34_ok_iff _).1 ⟨_, rfl⟩) (Or.inl (by decide))

end Pemv
