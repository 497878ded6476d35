import Verif.Proofs.Process
import Verif.Proofs.NodeEq
import Verif.Props.Ber
import Verif.Proofs.IngenicoTree
import Verif.Spec.Dictionary

/-!
# C32–C37, C64, C65: tag processing
-/

namespace Pemv

open Spec

/-! ### C32 -/

/-- **C32.** Without its annotations a processed block is the parsed block. -/
theorem c32_lossless (b : RawEmvBlock) (p : ProcessedEmvBlock) (h : processBlock b = .ok p) :
    eraseBlock p = b := processBlock_erase b p h

example := c32_lossless [.mk ⟨[0x70], .application, .constructed, .normal [0xC1, 0x01, 0x05]⟩
  [.mk ⟨[0xC1], .priv, .primitive, .normal [0x05]⟩ []]] _ rfl

/-- **C32.** One tag: the raw tag is kept. -/
theorem c32_tag (t : RawEmvTag) (p : ProcessedEmvTag) (h : processEmvTag t = .ok p) : rawOf p = t :=
  processEmvTag_raw t p h

example := c32_tag ⟨[0x9B], .contextSpecific, .primitive, .normal [0xE8, 0x00]⟩ _ rfl

/-- **C32.** Processing cannot merge different blocks. -/
theorem c32_injective (b b' : RawEmvBlock) (p : ProcessedEmvBlock) (h : processBlock b = .ok p)
    (h' : processBlock b' = .ok p) : b = b' := by
  rw [← c32_lossless b p h, c32_lossless b' p h']

/-- A template with a TVR and an unknown tag. -/
example : (processBlock [.mk ⟨[0x70], .application, .constructed, .normal [0xC1, 0x01, 0x05]⟩
    [.mk ⟨[0xC1], .priv, .primitive, .normal [0x05]⟩ []]]).map eraseBlock =
    .ok [.mk ⟨[0x70], .application, .constructed, .normal [0xC1, 0x01, 0x05]⟩
      [.mk ⟨[0xC1], .priv, .primitive, .normal [0x05]⟩ []]] := by decide +kernel

/-! ### C33 -/

/-- **C33.** A processed tag carries the identified name; the only exceptions are the tolerated errors of
8A, 9C and 9F10, which carry their own text and no decoded value. -/
theorem c33_name (t : RawEmvTag) (p : ProcessedEmvTag) (h : processEmvTag t = .ok p) :
    nameOf p = identifyTag t.tag ∨
    ∃ dec d e n, (t.tag, dec) ∈ decoders ∧ t.data = .normal d ∧ dec d = .err e ∧
      (t.tag, e, n) ∈ tolerated ∧ nameOf p = some n ∧ valueOf p = none := by
  rcases processEmvTag_cases t with ⟨dec, d, hdec, hd, hc⟩ | ⟨dec, name, -, hd, hi, hc⟩ | ⟨hn, hc⟩
  · rcases hc with ⟨name, q, hi, -, hc, ha⟩ | ⟨e, n, he, htol, hc, ha⟩ | ⟨e, -, hc, ha⟩
    · rw [hc] at h; cases h; left; rw [hi]; rfl
    · rw [hc] at h; cases h; right
      refine ⟨dec, d, e, n, hdec, hd, he, ?_, rfl, rfl⟩
      exact lookup_mem htol
    · rw [hc] at h; cases h
  · rw [hc] at h; cases h; left; rw [hi]; rfl
  · rcases hc with ⟨name, hi, hc⟩ | ⟨hi, hc⟩
    · rw [hc] at h; cases h; left; rw [hi]; rfl
    · rw [hc] at h; cases h; left; rw [hi]; rfl

example := c33_name ⟨[0x9C], .contextSpecific, .primitive, .normal [0x77]⟩ _ rfl

/-- **C33.** A name is shown exactly for the tags that are identified. -/
theorem c33_named_iff (t : RawEmvTag) (p : ProcessedEmvTag) (h : processEmvTag t = .ok p) :
    nameOf p = none ↔ identifyTag t.tag = none := by
  rcases processEmvTag_cases t with ⟨dec, d, hdec, hd, hc⟩ | ⟨dec, name, -, hd, hi, hc⟩ | ⟨hn, hc⟩
  · obtain ⟨name, hi, -⟩ := processEmvTag_decoder hdec .universal .primitive
    rcases hc with ⟨name, q, hi, -, hc, ha⟩ | ⟨e, n, he, htol, hc, ha⟩ | ⟨e, -, hc, ha⟩
    · rw [hc] at h; cases h; rw [hi]; simp [nameOf]
    · rw [hc] at h; cases h; rw [hi]; simp [nameOf]
    · rw [hc] at h; cases h
  · rw [hc] at h; cases h; rw [hi]; simp [nameOf]
  · rcases hc with ⟨name, hi, hc⟩ | ⟨hi, hc⟩
    · rw [hc] at h; cases h; rw [hi]; simp [nameOf]
    · rw [hc] at h; cases h; rw [hi]; simp [nameOf]

example := c33_named_iff ⟨[0xC1], .priv, .primitive, .normal [0x77]⟩ _ rfl

/-- **C33.** The exceptions: a tolerated error shows its own text. -/
theorem c33_variants (t : RawEmvTag) (dec : List Byte → Out ParsedValue) (d : List Byte) (e : ParseError)
    (n : String) (hdec : (t.tag, dec) ∈ decoders) (hd : t.data = .normal d) (he : dec d = .err e)
    (ht : (t.tag, e, n) ∈ tolerated) : processEmvTag t = .ok (.annotated n t) := by
  obtain ⟨tag, cls, typ, data⟩ := t
  simp only at hd; subst hd
  obtain ⟨name, h1, h2, h3⟩ := processEmvTag_decoder hdec cls typ
  have hl : tolerated.lookup tag = some (e, n) := by
    simp only [tolerated, List.mem_cons, Prod.mk.injEq, List.not_mem_nil, or_false] at ht
    rcases ht with ⟨rfl, rfl, rfl⟩ | ⟨rfl, rfl, rfl⟩ | ⟨rfl, rfl, rfl⟩ <;> rfl
  rw [h3, he, hl]
  simp

example := c33_variants ⟨[0x9C], .contextSpecific, .primitive, .normal [0x77]⟩ _ [0x77] .unrecognised
  "Transaction Type (Unrecognised - likely payment system-specific)"
  (show ([0x9C], fun d => (transactionTypeTryFrom d).map .transactionType) ∈ decoders by simp [decoders]) rfl rfl
  (by simp [tolerated])

/-- **C33.** At every level of a block, each tag is processed on its own. -/
theorem c33_all_levels (b : RawEmvBlock) (p : ProcessedEmvBlock) (h : processBlock b = .ok p) :
    (blockTags b).map processEmvTag = (blockProcessed p).map .ok := processBlock_ok h

example : (processEmvTag ⟨[0x9C], .contextSpecific, .primitive, .normal [0x77]⟩).map nameOf =
      .ok (some "Transaction Type (Unrecognised - likely payment system-specific)") ∧
    (processEmvTag ⟨[0x5A], .application, .primitive, .masked⟩).map nameOf =
      .ok (some "Application Primary Account Number (PAN)") ∧
    (processEmvTag ⟨[0xC1], .priv, .primitive, .normal [0x77]⟩).map nameOf = .ok none := by decide +kernel

/-! ### C34 -/

/-- **C34.** Processing succeeds exactly when every unmasked value at every level is acceptable for its
tag. -/
theorem c34_ok_iff (b : RawEmvBlock) :
    (∃ p, processBlock b = .ok p) ↔
      ∀ t ∈ blockTags b, ∀ d, t.data = .normal d → Acceptable t.tag d := by
  rw [processBlock_ok_iff]
  exact forall_congr' (fun t => forall_congr' (fun _ => processEmvTag_ok_iff t))

/-- **C34.** The error reported is that of the first tag, in document order, with an unacceptable value. -/
theorem c34_first_error (b : RawEmvBlock) (e : ParseError) :
    processBlock b = .err e ↔ ∃ pre t post dec d, blockTags b = pre ++ t :: post ∧
      (∀ x ∈ pre, ∀ d, x.data = .normal d → Acceptable x.tag d) ∧ t.data = .normal d ∧
      ¬ Acceptable t.tag d ∧ (t.tag, dec) ∈ decoders ∧ dec d = .err e := by
  rw [processBlock_err_iff]
  constructor
  · rintro ⟨pre, t, post, hs, hpre, he⟩
    obtain ⟨dec, d, h1, h2, h3, h4⟩ := (processEmvTag_err_iff t e).1 he
    exact ⟨pre, t, post, dec, d, hs, fun x hx => (processEmvTag_ok_iff x).1 (hpre x hx), h2, h3, h1, h4⟩
  · rintro ⟨pre, t, post, dec, d, hs, hpre, h2, h3, h1, h4⟩
    exact ⟨pre, t, post, hs, fun x hx => (processEmvTag_ok_iff x).2 (hpre x hx),
      (processEmvTag_err_iff t e).2 ⟨dec, d, h1, h2, h3, h4⟩⟩

/-- **C34.** Processing always returns. -/
theorem c34_returns (b : RawEmvBlock) :
    (∃ p, processBlock b = .ok p) ∨ ∃ e, processBlock b = .err e := processBlock_total b

/-- Two faulty values: the first is reported, although the second is at an outer level. -/
example : processBlock [.mk ⟨[0x70], .application, .constructed, .normal [0x95, 0x01, 0x05]⟩
      [.mk ⟨[0x95], .contextSpecific, .primitive, .normal [0x05]⟩ []],
      .mk ⟨[0x9B], .contextSpecific, .primitive, .normal []⟩ []] =
    .err (.byteCountIncorrect .eq 5 1) := by rfl

/-! ### C35 -/

/-- **C35.** Which values are acceptable, for every tag. -/
theorem c35_acceptable (tag : List Byte) (cls : TagClass) (typ : DataObjectType) (d : List Byte) :
    (∃ p, processEmvTag ⟨tag, cls, typ, .normal d⟩ = .ok p) ↔ Acceptable tag d := by
  rw [processEmvTag_ok_iff]
  exact ⟨fun h => h d rfl, fun h d' e => by cases e; exact h⟩

/-- **C35.** A masked value is always acceptable. -/
theorem c35_masked (tag : List Byte) (cls : TagClass) (typ : DataObjectType) :
    ∃ p, processEmvTag ⟨tag, cls, typ, .masked⟩ = .ok p := by
  rw [processEmvTag_ok_iff]; intro d h; cases h

/-- **C35.** The tags whose values matter are 14; any other tag accepts any value. -/
theorem c35_others (tag d : List Byte)
    (h : tag ∉ [[0x5F, 0x30], [0x8A], [0x8E], [0x95], [0x9F, 0x0D], [0x9F, 0x0E], [0x9F, 0x0F], [0x9F, 0x40],
      [0x9B], [0x9C], [0x9F, 0x33], [0x9F, 0x34], [0x9F, 0x35], [0x9F, 0x39]]) : Acceptable tag d := by
  simp only [List.mem_cons, List.not_mem_nil, or_false, not_or] at h
  obtain ⟨h1, h2, h3, h4, h5, h6, h7, h8, h9, h10, h11, h12, h13, h14⟩ := h
  exact {
    h5F30 := fun h => absurd h h1
    h8A := fun h => absurd h h2
    h8E := fun h => absurd h h3
    h5 := fun h => by simp [h4, h5, h6, h7, h8] at h
    h9B := fun h => absurd h h9
    h9C := fun h => absurd h h10
    h9F33 := fun h => absurd h h11
    h9F34 := fun h => absurd h h12
    h9F35 := fun h => absurd h h13
    h9F39 := fun h => absurd h h14 }

example : Acceptable [0x9F, 0x02] [0x12, 0x34] := c35_others _ _ (by decide)

/-! ### C36 -/

/-- **C36 is false of the code**: a known tag with an unlisted terminal type makes the whole block fail,
including the well-formed TVR before it. -/
theorem c36_false : ∃ (good bad : RawEmvNode), (processBlock [good]).isOk = true ∧
    (bad.tag.tag, fun d => (terminalTypeTryFrom d).map ParsedValue.terminalType) ∈ decoders ∧
    processBlock [good, bad] = .err .unrecognised :=
  ⟨.mk ⟨[0x95], .contextSpecific, .primitive, .normal [0, 0, 0, 0, 0]⟩ [],
    .mk ⟨[0x9F, 0x35], .contextSpecific, .primitive, .normal [0x27]⟩ [], by decide +kernel,
    by simp [decoders, RawEmvNode.tag], by rfl⟩

/-- **C36.** For every byte that is not a listed code, under 9F35 or 9F39, at any level, the block fails. -/
theorem c36_fails (b : RawEmvBlock) (t : RawEmvTag) (x : Byte) (ht : t ∈ blockTags b)
    (hd : t.data = .normal [x])
    (h : (t.tag = [0x9F, 0x35] ∧ terminalType x.toNat = none) ∨
      (t.tag = [0x9F, 0x39] ∧ posEntryModes.lookup x.toNat = none)) :
    ∃ e, processBlock b = .err e := by
  rcases c34_returns b with hok | he
  · have ha := (c34_ok_iff b).1 hok t ht [x] hd
    rcases h with ⟨htag, hc⟩ | ⟨htag, hc⟩
    · obtain ⟨y, hy, hs⟩ := ha.h9F35 htag
      cases hy; rw [hc] at hs; cases hs
    · obtain ⟨y, hy, hs⟩ := ha.h9F39 htag
      cases hy; rw [hc] at hs; cases hs
  · exact he

example := c36_fails [.mk ⟨[0x70], .application, .constructed, .normal [0x9F, 0x35, 0x01, 0x27]⟩
  [.mk ⟨[0x9F, 0x35], .contextSpecific, .primitive, .normal [0x27]⟩ []]]
  ⟨[0x9F, 0x35], .contextSpecific, .primitive, .normal [0x27]⟩ 0x27 (by simp [blockTags, nodeTags]) rfl (Or.inl ⟨rfl, by decide⟩)

/-- **C36, the part that holds.** A value of 8A, 9C or 9F10 that is only unknown is annotated, whatever
surrounds it; so is any value of 9F10. Full statement: the same for every tag whose value is a code.
Missing: 9F35 and 9F39, of which it is false (`c36_fails`). -/
theorem c36_tolerated_partial (t : RawEmvTag) (d : List Byte) (hd : t.data = .normal d) :
    (t.tag = [0x8A] → arcTryFrom d = .err .unrecognised →
      ∃ n, processEmvTag t = .ok (.annotated n t)) ∧
    (t.tag = [0x9C] → transactionTypeTryFrom d = .err .unrecognised →
      ∃ n, processEmvTag t = .ok (.annotated n t)) ∧
    (t.tag = [0x9F, 0x10] → ∃ p, processEmvTag t = .ok p) := by
  refine ⟨?_, ?_, ?_⟩
  · intro ht he
    exact ⟨_, c33_variants t (fun d => (arcTryFrom d).map .authorisationResponseCode) d .unrecognised _
      (by rw [ht]; simp [decoders]) hd (by simp only [he, Out.map_err]) (by rw [ht]; simp [tolerated]; rfl)⟩
  · intro ht he
    exact ⟨_, c33_variants t (fun d => (transactionTypeTryFrom d).map .transactionType) d .unrecognised _
      (by rw [ht]; simp [decoders]) hd (by simp only [he, Out.map_err]) (by rw [ht]; simp [tolerated]; rfl)⟩
  · intro ht
    rw [processEmvTag_ok_iff]
    intro d' _
    apply c35_others
    rw [ht]; decide

example : arcTryFrom [0x5A, 0x33] = .err .unrecognised ∧ transactionTypeTryFrom [0x77] = .err .unrecognised ∧
    terminalType 0x27 = none ∧ posEntryModes.lookup 0x27 = none := by decide +kernel

/-! ### C37 -/

/-- **C37.** Every non-empty tag is identified, with the class and type of its first byte. -/
theorem c37_identify (tag : List Byte) (h : tag ≠ []) :
    TagBasicInfo.tryFrom tag = .ok ⟨tag, identifyTag tag, classOf tag, typeOf tag⟩ := by
  cases tag with
  | nil => exact absurd rfl h
  | cons b rest =>
    simp [TagBasicInfo.tryFrom, index, parseTagMetadata_eq b rest]

example := c37_identify [0x9F, 0x02] (by decide)

/-- **C37.** The empty tag is the only one rejected. -/
theorem c37_empty : TagBasicInfo.tryFrom [] = .err (.byteCountIncorrect .gt 1 0) := rfl

/-- **C37.** The information agrees with what the BER-TLV parser reports, at every level. -/
theorem c37_agrees_ber {m : Machine} (masks : List Char) (bytes : List Byte) (hm : Fits m bytes.length)
    (ns : RawEmvBlock) (h : berParse m bytes masks = .ok ns) (n : RawEmvNode) (hn : InBlock n ns) :
    TagBasicInfo.tryFrom n.tag.tag =
      .ok ⟨n.tag.tag, identifyTag n.tag.tag, n.tag.cls, n.tag.dataObjectType⟩ := by
  obtain ⟨e, hw, hl, rfl⟩ := inBlock_nodeOf hn bytes hm h
  exact c37_identify e.tag (isTag_ne_nil hw.1)

example := c37_agrees_ber (m := .debug64) [] [0x70, 0x03, 0x50, 0x01, 0x41] (by unfold Fits; decide +kernel) _ rfl
  (.mk ⟨[0x50], .application, .primitive, .normal [0x41]⟩ []) (.deep List.mem_cons_self (.here List.mem_cons_self))

/-- **C37.** And with what the Ingenico parser reports, at every level. -/
theorem c37_agrees_ingenico {m : Machine} (masks : List Char) (s : Text) (hm : Fits m s.length)
    (ns : RawEmvBlock) (h : ingParse m s masks = .ok ns) (n : RawEmvNode) (hn : InBlock n ns) :
    TagBasicInfo.tryFrom n.tag.tag =
      .ok ⟨n.tag.tag, identifyTag n.tag.tag, n.tag.cls, n.tag.dataObjectType⟩ := by
  rcases ing_inBlock hm h hn with ⟨r, hw, rfl⟩ | ⟨bytes, b, hb, hp, hin⟩
  · exact c37_identify r.tag (record_tag_ne_nil hw)
  · exact c37_agrees_ber masks bytes hb b hp n hin

example := c37_agrees_ingenico (m := .debug64) [] "T50:01:aA".toList (by unfold Fits; decide +kernel)
  [.mk ⟨[0x50], .application, .primitive, .normal [0x41]⟩ []] (by decide +kernel) _ (.here List.mem_cons_self)

/-- **C19.** The objects of an Ingenico block, too, carry the class and type of their first tag byte. -/
theorem c19_nodes_ingenico {m : Machine} (masks : List Char) (s : Text) (hm : Fits m s.length)
    (ns : RawEmvBlock) (h : ingParse m s masks = .ok ns) (n : RawEmvNode) (hn : InBlock n ns) :
    ∃ b rest, n.tag.tag = b :: rest ∧ parseTagMetadata b = .ok (n.tag.cls, n.tag.dataObjectType) := by
  rcases ing_inBlock hm h hn with ⟨r, hw, rfl⟩ | ⟨bytes, b, hb, hp, hin⟩
  · cases ht : r.tag with
    | nil => exact absurd ht (record_tag_ne_nil hw)
    | cons b rest =>
      refine ⟨b, rest, ht, ?_⟩
      rw [parseTagMetadata_eq b rest, ← ht]
      rfl
  · exact c19_nodes masks bytes hb b hp n hin

example := c19_nodes_ingenico (m := .debug64) [] "T50:01:aA".toList (by unfold Fits; decide +kernel)
  [.mk ⟨[0x50], .application, .primitive, .normal [0x41]⟩ []] (by decide +kernel) _ (.here List.mem_cons_self)

/-- **C37.** Every tag with a name is a well-formed BER-TLV tag. -/
theorem c37_well_formed (tag : List Byte) (name : String) (h : identifyTag tag = some name) : IsTag tag :=
  tagTable_isTag _ (lookup_mem h)

example : IsTag [0x9F, 0x02] := c37_well_formed _ "Amount, Authorised (Numeric)" (by decide +kernel)

/-- **C37.** Different named tags have different names. -/
theorem c37_names_distinct (tag tag' : List Byte) (name : String) (h : identifyTag tag = some name)
    (h' : identifyTag tag' = some name) : tag = tag' := by
  have key : ∀ p ∈ tagTable, ∀ q ∈ tagTable, p.2 = q.2 → p.1 = q.1 := by decide +kernel
  exact key _ (lookup_mem h) _ (lookup_mem h') rfl

example : TagBasicInfo.tryFrom [0x9F, 0x02] = .ok ⟨[0x9F, 0x02], some "Amount, Authorised (Numeric)",
    .contextSpecific, .primitive⟩ := by decide +kernel

/-! ### C63 -/

/-- **C63.** A response code that is not two bytes, is not UTF-8 or is not listed is an error of that kind, and
there is no other. -/
theorem c63_response_code_errors (bs : List Byte) :
    (bs.length ≠ 2 → arcTryFrom bs = .err (.byteCountIncorrect .eq 2 bs.length)) ∧
    (bs.length = 2 → ¬ IsUtf8 bs → arcTryFrom bs = .err .invalidNumber) ∧
    (bs.length = 2 → IsUtf8 bs →
      (¬ ∃ d1 d2, d1 < 10 ∧ d2 < 10 ∧ bs = [UInt8.ofNat (48 + d1), UInt8.ofNat (48 + d2)] ∧
        (responseCodes.lookup (10 * d1 + d2)).isSome) → arcTryFrom bs = .err .unrecognised) := by
  refine ⟨fun h => by rw [arcTryFrom, if_pos h], fun h hu => ?_, fun h hu hn => ?_⟩
  · obtain ⟨a, b, rfl⟩ : ∃ a b, bs = [a, b] := by
      match bs, h with
      | [a, b], _ => exact ⟨a, b, rfl⟩
    exact (arc_two a b).1 hu
  · obtain ⟨a, b, rfl⟩ : ∃ a b, bs = [a, b] := by
      match bs, h with
      | [a, b], _ => exact ⟨a, b, rfl⟩
    rcases (arc_two a b).2 hu with ⟨v, hv⟩ | he
    · obtain ⟨d1, d2, h1, h2, h3, h4⟩ := c63_response_code _ v hv
      exact absurd ⟨d1, d2, h1, h2, h3, by rw [h4]; rfl⟩ hn
    · exact he

example : arcTryFrom [0x35] = .err (.byteCountIncorrect .eq 2 1) ∧ arcTryFrom [0xC3, 0xA9] = .err .unrecognised ∧
    arcTryFrom [0xC3, 0x33] = .err .invalidNumber := by decide +kernel

/-! ### C64 -/

/-- **C64.** An unmasked value that the decoder of its data element accepts is shown decoded by it. -/
theorem c64_decoded (tag : List Byte) (cls : TagClass) (typ : DataObjectType) (d : List Byte)
    (dec : List Byte → Out ParsedValue) (v : ParsedValue) (hdec : (tag, dec) ∈ decoders)
    (h : dec d = .ok v) :
    (processEmvTag ⟨tag, cls, typ, .normal d⟩).map valueOf = .ok (some v) := by
  obtain ⟨name, -, -, h3⟩ := processEmvTag_decoder hdec cls typ
  rw [h3, h]; rfl

example := c64_decoded [0x9B] .contextSpecific .primitive [0xE8, 0x00] _ _
  (show ([0x9B], fun d => (tsiLayout.tryFrom d).map .tsi) ∈ decoders by simp [decoders]) rfl

/-- **C64.** A decoded value is only shown for those tags, and never for a masked value. -/
theorem c64_only (t : RawEmvTag) (p : ProcessedEmvTag) (v : ParsedValue) (h : processEmvTag t = .ok p)
    (hv : valueOf p = some v) :
    ∃ dec d, (t.tag, dec) ∈ decoders ∧ t.data = .normal d ∧ dec d = .ok v := by
  rcases processEmvTag_cases t with ⟨dec, d, hdec, hd, hc⟩ | ⟨dec, name, -, hd, hi, hc⟩ | ⟨hn, hc⟩
  · rcases hc with ⟨name, q, hi, hq, hc, ha⟩ | ⟨e, n, he, htol, hc, ha⟩ | ⟨e, -, hc, ha⟩
    · rw [hc] at h; cases h; cases hv; exact ⟨dec, d, hdec, hd, hq⟩
    · rw [hc] at h; cases h; cases hv
    · rw [hc] at h; cases h
  · rw [hc] at h; cases h; cases hv
  · rcases hc with ⟨name, hi, hc⟩ | ⟨hi, hc⟩ <;> rw [hc] at h <;> cases h <;> cases hv

example : ∃ v, (processEmvTag ⟨[0x9B], .contextSpecific, .primitive, .normal [0xE8, 0x00]⟩).map valueOf =
    .ok (some (.tsi v)) := ⟨_, rfl⟩

/-! ### C65 -/

/-- **C65.** Tag identification is the EMV data element dictionary. -/
theorem c65_dictionary (tag : List Byte) (name : String) :
    identifyTag tag = some name ↔ ∃ n, (name, n) ∈ dictionary ∧ tag = tagBytes n := by
  constructor
  · intro h
    have key : ∀ p ∈ tagTable, ∃ q ∈ dictionary, q.1 = p.2 ∧ p.1 = tagBytes q.2 := by decide +kernel
    obtain ⟨q, hq, h1, h2⟩ := key _ (lookup_mem h)
    simp only at h1 h2
    exact ⟨q.2, by rw [← h1]; exact hq, h2⟩
  · rintro ⟨n, hn, rfl⟩
    have key : ∀ q ∈ dictionary, identifyTag (tagBytes q.2) = some q.1 := by decide +kernel
    exact key _ hn

example : ("Cardholder Name", 0x5F20) ∈ dictionary := by decide

end Pemv
