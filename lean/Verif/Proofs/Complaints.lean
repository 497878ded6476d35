import Verif.Spec.Complaints
import Verif.Props.Whole
import Verif.Props.Process
import Verif.Props.Codes
import Verif.Props.Bitflags

/-!
# Lemmas: the errors each option can report (C97)
-/

namespace Pemv

open Spec

theorem out_map_err {α β : Type} {x : Out α} {f : α → β} {e : ParseError} (h : x.map f = .err e) : x = .err e := by
  cases x with
  | err e' => simp only [Out.map_err, Out.err.injEq] at h; rw [h]
  | _ => cases h

theorem err_of_check {α : Type} {x : Out α} {e : ParseError}
    (h : (match x with | .err e' => some e' | _ => none) = some e) : x = .err e := by
  cases x with
  | err e' => cases h; rfl
  | _ => cases h

/-! ### Values -/

theorem valueError_of_decoder {tag d : List Byte} {dec : List Byte → Out ParsedValue} {e : ParseError}
    (hd : (tag, dec) ∈ decoders) (ha : ¬ Acceptable tag d) (h : dec d = .err e) : ValueError e := by
  have sized : ∀ (bv : BitValue), bv ∈ bitValues → bv.numBytes ∈ [1, 2, 3, 5] → d.length ≠ bv.numBytes →
      bv.layout.tryFrom d = .err e → ValueError e := by
    intro bv hbv hk hn he
    rw [c40_wrong_length bv (List.mem_cons_of_mem _ hbv) d hn] at he
    cases he
    exact .size _ _ hk hn
  have five : tag ∈ [[0x95], [0x9F, 0x0D], [0x9F, 0x0E], [0x9F, 0x0F], [0x9F, 0x40]] → d.length ≠ 5 := by
    intro ht h5
    apply ha
    simp only [List.mem_cons, List.not_mem_nil, or_false] at ht
    rcases ht with rfl | rfl | rfl | rfl | rfl <;> constructor <;> intro h' <;> first | exact h5 | simp at h'
  simp only [decoders, List.mem_cons, Prod.mk.injEq, List.not_mem_nil, or_false] at hd
  rcases hd with ⟨rfl, rfl⟩ | ⟨rfl, rfl⟩ | ⟨rfl, rfl⟩ | ⟨rfl, rfl⟩ | ⟨rfl, rfl⟩ | ⟨rfl, rfl⟩ | ⟨rfl, rfl⟩ | ⟨rfl, rfl⟩ |
    ⟨rfl, rfl⟩ | ⟨rfl, rfl⟩ | ⟨rfl, rfl⟩ | ⟨rfl, rfl⟩ | ⟨rfl, rfl⟩ | ⟨rfl, rfl⟩ | ⟨rfl, rfl⟩ <;>
    replace h := out_map_err h
  · by_cases hl : d.length = 2
    · match d, hl with
      | [a, b], _ =>
        rw [serviceCode_bytes] at h
        split at h
        · rw [ServiceCode.tryFromU16.eq_def] at h
          split at h
          · cases h; exact .number
          · rename_i hn
            obtain ⟨v, hv, -⟩ := serviceCode_number _ (Nat.le_of_not_lt hn)
            rw [ServiceCode.tryFromU16, if_neg hn] at hv
            rw [hv] at h; cases h
        · cases h; exact .number
    · rw [c48_length d hl] at h; cases h; exact .size 2 _ (by simp) hl
  · by_cases hl : d.length = 2
    · by_cases hu : IsUtf8 d
      · exact absurd ⟨fun h' => by simp at h', fun _ => ⟨hl, hu⟩, fun h' => by simp at h', fun h' => by simp at h',
          fun h' => by simp at h', fun h' => by simp at h', fun h' => by simp at h', fun h' => by simp at h',
          fun h' => by simp at h', fun h' => by simp at h'⟩ ha
      · rw [(c63_response_code_errors d).2.1 hl hu] at h; cases h; exact .number
    · rw [(c63_response_code_errors d).1 hl] at h; cases h; exact .size 2 _ (by simp) hl
  · rw [CvmList.tryFrom] at h
    split at h
    · cases h; exact .short _ ‹_›
    · split at h
      · cases h; exact .odd
      · exfalso
        apply ha
        refine ⟨fun h' => by simp at h', fun h' => by simp at h', fun _ => ⟨(d.length - 8) / 2, by omega⟩,
          fun h' => by simp at h',
          fun h' => by simp at h', fun h' => by simp at h', fun h' => by simp at h', fun h' => by simp at h',
          fun h' => by simp at h', fun h' => by simp at h'⟩
  · exact sized ⟨tvrLayout, 5, tvrItems⟩ (by simp [bitValues]) (by simp) (five (by simp)) h
  · refine sized ⟨tsiLayout, 2, tsiItems⟩ (by simp [bitValues]) (by simp) (fun hl => ha ?_) h
    constructor <;> intro h' <;> first | exact hl | simp at h'
  · by_cases hl : d.length = 1
    · exfalso; apply ha
      constructor <;> intro h' <;> first | exact hl | simp at h'
    · rw [((c63_errors d).1 hl).1] at h; cases h; exact .size 1 _ (by simp) hl
  · exact sized ⟨tvrLayout, 5, tvrItems⟩ (by simp [bitValues]) (by simp) (five (by simp)) h
  · exact sized ⟨tvrLayout, 5, tvrItems⟩ (by simp [bitValues]) (by simp) (five (by simp)) h
  · exact sized ⟨tvrLayout, 5, tvrItems⟩ (by simp [bitValues]) (by simp) (five (by simp)) h
  · exact absurd (c35_others _ _ (by decide)) ha
  · refine sized ⟨terminalCapabilitiesLayout, 3, terminalCapabilitiesItems⟩ (by simp [bitValues]) (by simp)
      (fun hl => ha ?_) h
    constructor <;> intro h' <;> first | exact hl | simp at h'
  · obtain ⟨h1, h2, h3⟩ := c40_cvm_results d
    by_cases hl : d.length = 3
    · by_cases hc : (d.getD 2 0).toNat ≤ 2
      · obtain ⟨v, hv⟩ := h2 hl hc; rw [hv] at h; cases h
      · rw [h3 hl (by omega)] at h; cases h; exact .code
    · rw [h1 hl] at h; cases h; exact .size 3 _ (by simp) hl
  · by_cases hl : d.length = 1
    · match d, hl with
      | [b], _ =>
        rw [terminalTypeTryFrom, byteEnumTryFrom, if_neg (by simp)] at h
        change enumTryFrom _ _ b = _ at h
        rw [enumTryFrom] at h
        split at h
        · cases h
        · cases h; exact .unlisted
    · rw [((c63_errors d).1 hl).2.1] at h; cases h; exact .size 1 _ (by simp) hl
  · by_cases hl : d.length = 1
    · match d, hl with
      | [b], _ =>
        rw [posEntryModeTryFrom, byteEnumTryFrom, if_neg (by simp)] at h
        change enumTryFrom _ _ b = _ at h
        rw [enumTryFrom] at h
        split at h
        · cases h
        · cases h; exact .unlisted
    · rw [((c63_errors d).1 hl).2.2] at h; cases h; exact .size 1 _ (by simp) hl
  · exact sized ⟨additionalTerminalCapabilitiesLayout, 5, additionalTerminalCapabilitiesItems⟩ (by simp [bitValues])
      (by simp) (five (by simp)) h

theorem valueError_of_process {b : RawEmvBlock} {e : ParseError} (h : processBlock b = .err e) : ValueError e := by
  obtain ⟨pre, t, post, dec, d, -, -, -, ha, hd, he⟩ := (c34_first_error b e).1 h
  exact valueError_of_decoder hd ha he

/-- A value that is wrong in a given way. -/
theorem valueError_occurs {e : ParseError} (h : ValueError e) (hs : SmallCount e) :
    ∃ tag d, IsTag tag ∧ typeOf tag = .primitive ∧ d.length < 2 ^ 32 ∧ (∀ b ∈ d, b.toNat = 0) ∧
      processBlock [.mk ⟨tag, classOf tag, typeOf tag, .normal d⟩ []] = .err e ∨
      IsTag tag ∧ typeOf tag = .primitive ∧ d.length < 2 ^ 32 ∧ (∃ b ∈ d, ∃ b' ∈ d, b ≠ b') ∧
      processBlock [.mk ⟨tag, classOf tag, typeOf tag, .normal d⟩ []] = .err e := by
  have one : ∀ (tag : List Byte) (dec : List Byte → Out ParsedValue) (d : List Byte) (e : ParseError), (tag, dec) ∈ decoders →
      ¬ Acceptable tag d → dec d = .err e →
      processBlock [.mk ⟨tag, classOf tag, typeOf tag, .normal d⟩ []] = .err e := by
    intro tag dec d e hd ha he
    refine (c34_first_error _ _).2 ⟨[], ⟨tag, classOf tag, typeOf tag, .normal d⟩, [], dec, d, rfl, by simp, rfl, ha, hd, he⟩
  have zeros : ∀ n, ∀ b ∈ List.replicate n (0 : Byte), b.toNat = 0 := by
    intro n b hb; rw [(List.mem_replicate.1 hb).2]; rfl
  cases h with
  | size k n hk hn =>
    have hl : (List.replicate n (0 : Byte)).length = n := List.length_replicate
    have hn' : (List.replicate n (0 : Byte)).length < 2 ^ 32 := by rw [hl]; exact hs
    have he : ∀ (bv : BitValue), bv ∈ bitValues → bv.numBytes = k →
        bv.layout.tryFrom (List.replicate n (0 : Byte)) = .err (.byteCountIncorrect .eq k n) := by
      intro bv hbv hk
      have := c40_wrong_length bv (List.mem_cons_of_mem _ hbv) (List.replicate n 0) (by rw [hl, hk]; exact hn)
      rwa [hl, hk] at this
    simp only [List.mem_cons, List.not_mem_nil, or_false] at hk
    rcases hk with rfl | rfl | rfl | rfl
    · refine ⟨[0x9C], List.replicate n 0, .inl ⟨.low _ (by decide), by decide, hn', zeros n, ?_⟩⟩
      refine one _ _ _ _ (by rw [decoders]; simp only [List.mem_cons, Prod.mk.injEq]; simp; rfl) (fun ha => hn (hl ▸ ha.h9C rfl)) ?_
      rw [((c63_errors _).1 (by rw [hl]; exact hn)).1, hl]; rfl
    · refine ⟨[0x9B], List.replicate n 0, .inl ⟨.low _ (by decide), by decide, hn', zeros n, ?_⟩⟩
      refine one _ _ _ _ (by rw [decoders]; simp only [List.mem_cons, Prod.mk.injEq]; simp; rfl) (fun ha => hn (hl ▸ ha.h9B rfl)) ?_
      rw [he ⟨tsiLayout, 2, tsiItems⟩ (by simp [bitValues]) rfl]; rfl
    · refine ⟨[0x9F, 0x33], List.replicate n 0, .inl ⟨.high _ [] _ (by decide) (by simp) (by decide), by decide, hn', zeros n, ?_⟩⟩
      refine one _ _ _ _ (by rw [decoders]; simp only [List.mem_cons, Prod.mk.injEq]; simp; rfl) (fun ha => hn (hl ▸ ha.h9F33 rfl)) ?_
      rw [he ⟨terminalCapabilitiesLayout, 3, terminalCapabilitiesItems⟩ (by simp [bitValues]) rfl]; rfl
    · refine ⟨[0x95], List.replicate n 0, .inl ⟨.low _ (by decide), by decide, hn', zeros n, ?_⟩⟩
      refine one _ _ _ _ (by rw [decoders]; simp only [List.mem_cons, Prod.mk.injEq]; simp; rfl) (fun ha => hn (hl ▸ ha.h5 (by simp))) ?_
      rw [he ⟨tvrLayout, 5, tvrItems⟩ (by simp [bitValues]) rfl]; rfl
  | short n hn =>
    have hl : (List.replicate n (0 : Byte)).length = n := List.length_replicate
    have hn' : (List.replicate n (0 : Byte)).length < 2 ^ 32 := by rw [hl]; exact hs
    refine ⟨[0x8E], List.replicate n 0, .inl ⟨.low _ (by decide), by decide, hn', zeros n, ?_⟩⟩
    refine one _ _ _ _ (by rw [decoders]; simp only [List.mem_cons, Prod.mk.injEq]; simp; rfl) ?_ ?_
    · intro ha
      obtain ⟨k, hk⟩ := ha.h8E rfl
      rw [hl] at hk; omega
    · rw [CvmList.tryFrom, if_pos (by rw [hl]; exact hn), hl]; rfl
  | odd =>
    refine ⟨[0x8E], List.replicate 9 0, .inl ⟨.low _ (by decide), by decide, by decide, zeros 9, ?_⟩⟩
    exact err_of_check (by decide +kernel)
  | number =>
    exact ⟨[0x5F, 0x30], [0x00, 0x0A], .inr ⟨.high _ [] _ (by decide) (by simp) (by decide), by decide, by decide,
      ⟨0x00, by simp, 0x0A, by simp, by decide⟩, err_of_check (by decide +kernel)⟩⟩
  | code =>
    exact ⟨[0x9F, 0x34], [0x00, 0x00, 0x03], .inr ⟨.high _ [] _ (by decide) (by simp) (by decide), by decide, by decide,
      ⟨0x00, by simp, 0x03, by simp, by decide⟩, err_of_check (by decide +kernel)⟩⟩
  | unlisted =>
    exact ⟨[0x9F, 0x35], [0x00], .inl ⟨.high _ [] _ (by decide) (by simp) (by decide), by decide, by decide,
      by decide, err_of_check (by decide +kernel)⟩⟩

theorem unmasked_of_values {d : List Byte} {masks : List Char} (hm : Char.ofNat 0 ∉ masks)
    (h : (∀ b ∈ d, b.toNat = 0) ∨ ∃ b ∈ d, ∃ b' ∈ d, b ≠ b') : ¬ IsMasked (latin1 d) masks := by
  rintro ⟨hl, c, hc, hall⟩
  rcases h with h | ⟨b, hb, b', hb', hne⟩
  · cases d with
    | nil => simp [latin1] at hl
    | cons x xs =>
      have := hall (Char.ofNat x.toNat) (by simp [latin1])
      rw [h x (by simp)] at this
      exact hm (this ▸ hc)
  · have h1 := hall (Char.ofNat b.toNat) (List.mem_map_of_mem hb)
    have h2 := hall (Char.ofNat b'.toNat) (List.mem_map_of_mem hb')
    have h3 := congrArg Char.toNat (h1.trans h2.symm)
    rw [toNat_ofNat_of_lt (by have := b.toNat_lt; omega), toNat_ofNat_of_lt (by have := b'.toNat_lt; omega)] at h3
    exact hne (UInt8.toNat_inj.1 h3)

/-! ### Runs -/

theorem fails_unique {r : Run} {a b : Text} (ha : Fails r a) (hb : Fails r b) : a = b := by
  have := ha.stderr.symm.trans hb.stderr
  exact List.append_cancel_right (Option.some.inj this)

theorem tlv_fails {m : Machine} {masks : List Char} {sort : Bool} {op : Operation}
    (hop : op ∈ [.autoTlv, .berTlv, .ingenicoTlv]) {s : Text} {e : ParseError}
    (h : Fails (runOp m masks sort op s) (message e)) :
    tlvParse m masks op s = .err e ∨ ∃ f b, tlvParse m masks op s = .ok (f, b) ∧ processBlock b = .err e := by
  simp only [List.mem_cons, List.not_mem_nil, or_false] at hop
  have two : ∀ x : Out RawEmvBlock,
      Fails (finish .nil ((x >>= processBlock).map (maybeSort sort)) (fun b => displayBlock m b 0 true)) (message e) →
      x = .err e ∨ ∃ b, x = .ok b ∧ processBlock b = .err e := by
    intro x h
    obtain ⟨e', he, hm⟩ := finish_fails h
    cases message_inj _ _ hm
    replace he := out_map_err he
    cases x with
    | ok b => exact .inr ⟨b, rfl, he⟩
    | err e' => left; cases he; rfl
    | panic => cases he
    | diverge => cases he
  rcases hop with rfl | rfl | rfl
  · rw [runOp, runAuto] at h
    rw [tlvParse]
    cases hp : autoParse m s masks with
    | ok p =>
      obtain ⟨f, b⟩ := p
      rw [hp] at h
      simp only at h
      cases hq : processBlock b with
      | ok q => rw [hq] at h; have := h.stderr; cases this
      | err e' =>
        rw [hq] at h
        obtain ⟨e'', he, hm⟩ := finish_fails h
        cases message_inj _ _ hm
        cases he
        exact .inr ⟨some f, b, rfl, hq⟩
      | panic => rw [hq] at h; have := h.stderr; cases this
      | diverge => rw [hq] at h; have := h.stderr; cases this
    | err e' =>
      rw [hp] at h
      obtain ⟨e'', he, hm⟩ := finish_fails h
      cases message_inj _ _ hm
      cases he
      exact .inl rfl
    | panic => rw [hp] at h; have := h.stderr; cases this
    | diverge => rw [hp] at h; have := h.stderr; cases this
  · rw [runOp] at h
    rw [tlvParse]
    rcases two _ h with h | ⟨b, hb, he⟩
    · exact .inl (by rw [h]; rfl)
    · exact .inr ⟨none, b, by rw [hb]; rfl, he⟩
  · rw [runOp] at h
    rw [tlvParse]
    rcases two _ h with h | ⟨b, hb, he⟩
    · exact .inl (by rw [h]; rfl)
    · exact .inr ⟨none, b, by rw [hb]; rfl, he⟩

theorem canReport_of_fails {m : Machine} {masks : List Char} {sort : Bool} {op : Operation} {s : Text} {e : ParseError}
    (hm : Fits m s.length) (h : Fails (runOp m masks sort op s) (message e)) : CanReport op e := by
  have hb : Fits m (parseHexStr s).length := by
    refine fits_mono hm ?_
    rw [c01_length]
    have := List.length_filter_le (fun c => decide (IsHex c)) s
    omega
  have hex : ∀ op, op ∈ hexOperations → Fails (runOp m masks sort op s) (message e) →
      hexReport op (hexBytes s) = .error (message e) := by
    intro op hop h
    have := reports_hex m masks sort op hop s
    cases hr : hexReport op (hexBytes s) with
    | ok ls => rw [hr] at this; have h1 := this.stderr; rw [h.stderr] at h1; cases h1
    | error msg => rw [hr] at this; rw [fails_unique this h]
  have eqm : ∀ {a : Text} {e' : ParseError}, (.error a : Except Text (List Line)) = .error (message e) →
      message e' = a → e' = e := by
    intro a e' h1 h2
    cases h1
    exact message_inj _ _ h2
  cases op with
  | tvr =>
    have := hex .tvr (by simp [hexOperations]) h
    rw [hexReport] at this
    split at this
    · cases this
    · rename_i hn; cases eqm (e' := .byteCountIncorrect .eq 5 _) this rfl; exact .tvr _ hn
  | ccdIad =>
    have := hex .ccdIad (by simp [hexOperations]) h
    rw [hexReport] at this
    split at this
    · cases this
    · cases eqm this rfl; exact .ccdIad
  | ccdCvr =>
    have := hex .ccdCvr (by simp [hexOperations]) h
    rw [hexReport] at this
    split at this
    · cases this
    · rename_i hn; cases eqm (e' := .byteCountIncorrect .eq 5 _) this rfl; exact .ccdCvr _ hn
  | tsi =>
    have := hex .tsi (by simp [hexOperations]) h
    rw [hexReport] at this
    split at this
    · cases this
    · rename_i hn; cases eqm (e' := .byteCountIncorrect .eq 2 _) this rfl; exact .tsi _ hn
  | cvmResults =>
    have := hex .cvmResults (by simp [hexOperations]) h
    rw [hexReport] at this
    split at this
    · rename_i hn; cases eqm (e' := .byteCountIncorrect .eq 3 _) this rfl; exact .cvmResults _ hn
    · split at this
      · cases eqm this rfl; exact .cvmResultsCode
      · cases this
  | cvmList =>
    have := hex .cvmList (by simp [hexOperations]) h
    rw [hexReport] at this
    split at this
    · rename_i hn; cases eqm (e' := .byteCountIncorrect .gt 8 _) this rfl; exact .cvmList _ hn
    · split at this
      · cases eqm this rfl; exact .cvmListOdd
      · cases this
  | identify =>
    have := hex .identify (by simp [hexOperations]) h
    rw [hexReport] at this
    split at this
    · cases eqm (e' := .byteCountIncorrect .gt 1 0) this rfl; exact .identify
    · cases this
  | serviceCode =>
    obtain ⟨h1, h2⟩ := reports_serviceCode m masks sort s
    by_cases hn : ∃ n, IsU16Text s n ∧ n ≤ 999
    · obtain ⟨n, hn, hle⟩ := hn
      have h1 := (h1 n hn hle).stderr
      rw [h.stderr] at h1; cases h1
    · cases message_inj _ _ (fails_unique (h2 hn) h); exact .serviceCode
  | autoTlv =>
    rcases tlv_fails (by simp) h with he | ⟨f, b, -, he⟩
    · have he := out_map_err he
      cases (c29_agrees masks s hm).2.2 (by rintro ⟨r, hr⟩; rw [he] at hr; cases hr) ▸ he
      exact .autoTlv
    · exact .autoTlvValue _ (valueError_of_process he)
  | berTlv =>
    rcases tlv_fails (by simp) h with he | ⟨f, b, -, he⟩
    · rcases c15_kinds masks _ hb _ (out_map_err he) with rfl | rfl
      · exact .berTlv
      · exact .berTlvLength
    · exact .berTlvValue _ (valueError_of_process he)
  | ingenicoTlv =>
    rcases tlv_fails (by simp) h with he | ⟨f, b, -, he⟩
    · rcases c28_kinds masks s hm _ (out_map_err he) with rfl | rfl
      · exact .ingenicoTlv
      · exact .ingenicoTlvLength
    · exact .ingenicoTlvValue _ (valueError_of_process he)

/-! ### Inputs -/

theorem hexText_noColon (bs : List Byte) : ':' ∉ hexText bs := by
  intro h
  exact absurd ((hexText_digits bs).1 _ h) (by decide)

/-- An object whose value is wrong in a given way. -/
theorem wrong_object {masks : List Char} (h0 : Char.ofNat 0 ∉ masks) {e : ParseError} (h : ValueError e)
    (hs : SmallCount e) :
    ∃ tag d, tag.length ≤ 2 ∧ d.length < 2 ^ 32 ∧ (Obj.prim tag d).WF masks ∧
      processBlock (nodes [.prim tag d]) = .err e := by
  obtain ⟨tag, d, h⟩ := valueError_occurs h hs
  have key : ∃ (_ : tag.length ≤ 2), IsTag tag ∧ typeOf tag = .primitive ∧ d.length < 2 ^ 32 ∧
      ((∀ b ∈ d, b.toNat = 0) ∨ ∃ b ∈ d, ∃ b' ∈ d, b ≠ b') ∧
      processBlock [.mk ⟨tag, classOf tag, typeOf tag, .normal d⟩ []] = .err e := by
    have ht : tag.length ≤ 2 := by
      have hp : processBlock [.mk ⟨tag, classOf tag, typeOf tag, .normal d⟩ []] = .err e := by
        rcases h with h | h <;> exact h.2.2.2.2
      obtain ⟨pre, t, post, dec, d', hb, -, -, -, hd, -⟩ := (c34_first_error _ e).1 hp
      have : t.tag = tag := by
        have hmem : t ∈ blockTags [.mk ⟨tag, classOf tag, typeOf tag, .normal d⟩ []] := by rw [hb]; simp
        change t ∈ [_] at hmem
        rw [List.mem_singleton.1 hmem]
      rw [← this]
      have all : ∀ p ∈ decoders, p.1.length ≤ 2 := by
        intro p hp
        simp only [decoders, List.mem_cons, List.not_mem_nil, or_false] at hp
        rcases hp with rfl | rfl | rfl | rfl | rfl | rfl | rfl | rfl | rfl | rfl | rfl | rfl | rfl | rfl | rfl <;> simp
      exact all _ hd
    rcases h with ⟨h1, h2, h3, h4, h5⟩ | ⟨h1, h2, h3, h4, h5⟩
    · exact ⟨ht, h1, h2, h3, .inl h4, h5⟩
    · exact ⟨ht, h1, h2, h3, .inr h4, h5⟩
  obtain ⟨ht, h1, h2, h3, h4, h5⟩ := key
  refine ⟨tag, d, ht, h3, ⟨h1, h2, h3, unmasked_of_values h0 h4⟩, ?_⟩
  rw [nodes, nodes, Obj.node, ← h2]
  exact h5

theorem hexText_length (bs : List Byte) : (hexText bs).length = 2 * bs.length := (hexText_digits bs).2.1

theorem reports_each {m : Machine} (h64 : m.usizeBits = 64) (masks : List Char)
    (hmasks : ∀ c ∈ masks, ¬ IsHex c ∧ c ≠ Char.ofNat 0) (sort : Bool) {op : Operation} {e : ParseError}
    (h : CanReport op e) (hs : SmallCount e) : ∃ s, Fits m s.length ∧ Fails (runOp m masks sort op s) (message e) := by
  have h0 : Char.ofNat 0 ∉ masks := fun h => (hmasks _ h).2 rfl
  have fits : ∀ n, n < 2 ^ 63 → Fits m n := fun n h => c16_fits_64 h64 n h
  have hex : ∀ op, op ∈ hexOperations → ∀ bs : List Byte, bs.length < 2 ^ 32 → hexReport op bs = .error (message e) →
      ∃ s, Fits m s.length ∧ Fails (runOp m masks sort op s) (message e) := by
    intro op hop bs hl hr
    have := reports_hex m masks sort op hop (hexText bs)
    rw [hexBytes_hexText, hr] at this
    exact ⟨_, fits _ (by rw [hexText_length]; omega), this⟩
  have zeros : ∀ n, (List.replicate n (0 : Byte)).length = n := fun n => List.length_replicate
  have size : ∀ tag d, (tag : List Byte).length ≤ 2 → (d : List Byte).length < 2 ^ 32 →
      (encodeAll [.prim tag d]).length < 2 ^ 33 := by
    intro tag d ht hd
    have := encodeLength_length hd
    simp only [encodeAll, Obj.encode, List.length_append, List.length_nil]
    omega
  have parse : ∀ tag d, (tag : List Byte).length ≤ 2 → (d : List Byte).length < 2 ^ 32 → (Obj.prim tag d).WF masks →
      berParse m (parseHexStr (hexText (encodeAll [.prim tag d]))) masks = .ok (nodes [.prim tag d]) := by
    intro tag d ht hd hw
    rw [hexBytes_eq, hexBytes_hexText]
    exact c11_round_trip masks [.prim tag d] ⟨hw, trivial⟩ (fits _ (by have := size tag d ht hd; omega))
  cases h with
  | tvr n hn =>
    refine hex .tvr (by simp [hexOperations]) (List.replicate n 0) (by rw [zeros]; exact hs) ?_
    rw [hexReport, zeros, if_neg hn]; rfl
  | ccdIad => exact hex .ccdIad (by simp [hexOperations]) [] (by simp) (by
      rw [hexReport, if_neg (by decide)])
  | ccdCvr n hn =>
    refine hex .ccdCvr (by simp [hexOperations]) (List.replicate n 0) (by rw [zeros]; exact hs) ?_
    rw [hexReport, zeros, if_neg hn]; rfl
  | tsi n hn =>
    refine hex .tsi (by simp [hexOperations]) (List.replicate n 0) (by rw [zeros]; exact hs) ?_
    rw [hexReport, zeros, if_neg hn]; rfl
  | cvmResults n hn =>
    refine hex .cvmResults (by simp [hexOperations]) (List.replicate n 0) (by rw [zeros]; exact hs) ?_
    rw [hexReport, zeros, if_pos hn]; rfl
  | cvmResultsCode =>
    refine hex .cvmResults (by simp [hexOperations]) [0, 0, 3] (by simp) ?_
    rw [hexReport, if_neg (by decide), if_pos (by decide)]
  | cvmList n hn =>
    refine hex .cvmList (by simp [hexOperations]) (List.replicate n 0) (by rw [zeros]; exact hs) ?_
    rw [hexReport, zeros, if_pos hn]; rfl
  | cvmListOdd =>
    refine hex .cvmList (by simp [hexOperations]) (List.replicate 9 0) (by simp) ?_
    rw [hexReport, if_neg (by decide), if_pos (by decide)]
  | identify =>
    refine hex .identify (by simp [hexOperations]) [] (by simp) ?_
    rw [hexReport, if_pos rfl]; rfl
  | serviceCode =>
    refine ⟨[], fits _ (by simp), ?_⟩
    rw [runOp]
    exact finish_err rfl _
  | autoTlv =>
    refine ⟨[], fits _ (by simp), (reports_tlv m masks sort .autoTlv (by simp) []).1 _ ?_⟩
    rw [tlvParse, autoParse, if_pos rfl]; rfl
  | autoTlvValue e h =>
    obtain ⟨tag, d, ht, hd, hw, he⟩ := wrong_object h0 h hs
    have hl := size tag d ht hd
    have hf : Fits m (hexText (encodeAll [.prim tag d])).length := fits _ (by rw [hexText_length]; omega)
    refine ⟨_, hf, (reports_tlv m masks sort .autoTlv (by simp) _).2.1 (some .berTlv) _ e ?_ he⟩
    have hp := parse tag d ht hd hw
    have hne : hexText (encodeAll [.prim tag d]) ≠ [] := by
      intro h
      have h1 := hexText_length (encodeAll [.prim tag d])
      rw [h] at h1
      have h3 : 0 < tag.length := List.length_pos_iff.2 (isTag_shape hw.1).1
      simp only [encodeAll, Obj.encode, List.length_append, List.length_nil] at h1
      omega
    rcases (c30_no_colon masks _ hf hne (hexText_noColon _)).2 with ⟨b, h1, h2⟩ | ⟨h1, -⟩
    · rw [hp] at h1; cases h1
      rw [tlvParse, h2]; rfl
    · exact absurd ⟨_, hp⟩ h1
  | berTlv =>
    refine ⟨hexText [0x5A], fits _ (by rw [hexText_length]; simp),
      (reports_tlv m masks sort .berTlv (by simp) _).1 _ ?_⟩
    have h5A : berParse m [0x5A] masks = .err .nonCompliant :=
      c14_truncation masks [] ⟨[0x5A], [0], []⟩ [0x5A] [0] (by simp) ⟨.low _ (by decide), .short 0 (by decide)⟩ rfl (by simp)
        (by simp) (fits _ (by decide))
    rw [tlvParse, hexBytes_eq, hexBytes_hexText, h5A]
    rfl
  | berTlvLength =>
    refine ⟨hexText [0x5A, 0x85], fits _ (by rw [hexText_length]; simp),
      (reports_tlv m masks sort .berTlv (by simp) _).1 _ ?_⟩
    rw [tlvParse, hexBytes_eq, hexBytes_hexText,
      (c15_unsupported masks [0x5A, 0x85] (fits _ (by simp))).2 ⟨[], [0x5A], 0x85, [], rfl, by simp, .low _ (by decide), by decide⟩]
    rfl
  | berTlvValue e h =>
    obtain ⟨tag, d, ht, hd, hw, he⟩ := wrong_object h0 h hs
    have hl := size tag d ht hd
    refine ⟨_, fits _ (by rw [hexText_length (encodeAll [.prim tag d])]; omega),
      (reports_tlv m masks sort .berTlv (by simp) _).2.1 none _ e ?_ he⟩
    rw [tlvParse, parse tag d ht hd hw]; rfl
  | ingenicoTlv =>
    refine ⟨['é'], fits _ (by simp), (reports_tlv m masks sort .ingenicoTlv (by simp) _).1 _ ?_⟩
    rw [tlvParse, c28_non_ascii m masks _ 'é' (by simp) (by decide)]; rfl
  | ingenicoTlvLength =>
    refine ⟨"T5A:0000000001:".toList, fits _ (by decide), (reports_tlv m masks sort .ingenicoTlv (by simp) _).1 _ ?_⟩
    rw [tlvParse, (c28_unsupported masks "T5A:0000000001:".toList (fits _ (by decide))).2
      ⟨by decide, [], 'T', "5A".toList, "0000000001".toList, [], by decide, by simp, by decide, by decide, by decide, by decide⟩]
    rfl
  | ingenicoTlvValue e h =>
    obtain ⟨tag, d, ht, hd, hw, he⟩ := wrong_object h0 h hs
    have hl := size tag d ht hd
    have hr : (asRecords [(.prim tag d, false, ',')]).length < 2 ^ 40 := by
      have := (minBytes_spec hd).2.2
      simp only [asRecords, List.map_cons, List.map_nil, render, Record.text, writeRecord, Obj.tagBytes, Obj.content,
        List.flatMap_cons, List.flatMap_nil, List.append_nil, List.length_append, List.length_cons, List.length_nil,
        hexText_length, Bool.false_eq_true, if_false]
      omega
    have hf : Fits m (asRecords [(.prim tag d, false, ',')]).length := fits _ (by omega)
    refine ⟨_, hf, (reports_tlv m masks sort .ingenicoTlv (by simp) _).2.1 none _ e ?_ he⟩
    rw [tlvParse, records_parse masks (fun c hc => (hmasks c hc).1) [(.prim tag d, false, ',')] ⟨hw, trivial⟩
      (by simp) (by simp) hf (fits _ (by show (encodeAll [.prim tag d]).length < _; omega))]
    rfl

end Pemv
