import Verif.Spec.Process
import Verif.Props.Codes
import Verif.Props.Values
import Verif.Props.Bitflags

/-! # Lemmas about tag processing -/

namespace Pemv

open Spec

/-! ### One tag -/

/-- Processing of a tag that has a decoder. -/
theorem processEmvTag_decoder {tag : List Byte} {dec : List Byte → Out ParsedValue}
    (hmem : (tag, dec) ∈ decoders) (cls : TagClass) (typ : DataObjectType) :
    ∃ name, identifyTag tag = some name ∧
      processEmvTag ⟨tag, cls, typ, .masked⟩ = .ok (.annotated name ⟨tag, cls, typ, .masked⟩) ∧
      ∀ d, processEmvTag ⟨tag, cls, typ, .normal d⟩ =
        (match dec d with
        | .ok p => .ok (.parsed name p ⟨tag, cls, typ, .normal d⟩)
        | .err e => match tolerated.lookup tag with
          | some (e', n) => if e = e' then .ok (.annotated n ⟨tag, cls, typ, .normal d⟩) else .err e
          | none => .err e
        | .panic => .panic
        | .diverge => .diverge) := by
  have raw : ∀ (tag : List Byte) (name : String) (f : List Byte → Out ParsedValue),
      identifyTag tag = some name → tolerated.lookup tag = none →
      (∀ data, processEmvTag ⟨tag, cls, typ, data⟩ = parseRaw name ⟨tag, cls, typ, data⟩ f) →
      ∃ name, identifyTag tag = some name ∧
      processEmvTag ⟨tag, cls, typ, .masked⟩ = .ok (.annotated name ⟨tag, cls, typ, .masked⟩) ∧
      ∀ d, processEmvTag ⟨tag, cls, typ, .normal d⟩ =
        (match f d with
        | .ok p => .ok (.parsed name p ⟨tag, cls, typ, .normal d⟩)
        | .err e => match tolerated.lookup tag with
          | some (e', n) => if e = e' then .ok (.annotated n ⟨tag, cls, typ, .normal d⟩) else .err e
          | none => .err e
        | .panic => .panic
        | .diverge => .diverge) := by
    intro tag name f h1 h2 h3
    refine ⟨name, h1, by rw [h3]; rfl, fun d => ?_⟩
    rw [h3]
    cases hf : f d <;> simp [parseRaw, hf, h2]
  have unr : ∀ (tag : List Byte) (name n : String) (e' : ParseError) (f : List Byte → Out ParsedValue),
      identifyTag tag = some name → tolerated.lookup tag = some (e', n) →
      (∀ data, processEmvTag ⟨tag, cls, typ, data⟩ =
        parseRawUnrecognised name n ⟨tag, cls, typ, data⟩ f (fun e => e == e')) →
      ∃ name, identifyTag tag = some name ∧
      processEmvTag ⟨tag, cls, typ, .masked⟩ = .ok (.annotated name ⟨tag, cls, typ, .masked⟩) ∧
      ∀ d, processEmvTag ⟨tag, cls, typ, .normal d⟩ =
        (match f d with
        | .ok p => .ok (.parsed name p ⟨tag, cls, typ, .normal d⟩)
        | .err e => match tolerated.lookup tag with
          | some (e', n) => if e = e' then .ok (.annotated n ⟨tag, cls, typ, .normal d⟩) else .err e
          | none => .err e
        | .panic => .panic
        | .diverge => .diverge) := by
    intro tag name n e' f h1 h2 h3
    refine ⟨name, h1, by rw [h3]; rfl, fun d => ?_⟩
    rw [h3]
    cases hf : f d <;> simp [parseRawUnrecognised, hf, h2]
  simp only [decoders, List.mem_cons, Prod.mk.injEq, List.not_mem_nil, or_false] at hmem
  rcases hmem with ⟨rfl, rfl⟩ | ⟨rfl, rfl⟩ | ⟨rfl, rfl⟩ | ⟨rfl, rfl⟩ | ⟨rfl, rfl⟩ | ⟨rfl, rfl⟩ | ⟨rfl, rfl⟩ |
    ⟨rfl, rfl⟩ | ⟨rfl, rfl⟩ | ⟨rfl, rfl⟩ | ⟨rfl, rfl⟩ | ⟨rfl, rfl⟩ | ⟨rfl, rfl⟩ | ⟨rfl, rfl⟩ | ⟨rfl, rfl⟩
  · exact raw _ _ _ rfl rfl (fun _ => rfl)
  · exact unr _ _ _ _ _ rfl rfl (fun _ => rfl)
  · exact raw _ _ _ rfl rfl (fun _ => rfl)
  · exact raw _ _ _ rfl rfl (fun _ => rfl)
  · exact raw _ _ _ rfl rfl (fun _ => rfl)
  · exact unr _ _ _ _ _ rfl rfl (fun _ => rfl)
  · exact raw _ _ _ rfl rfl (fun _ => rfl)
  · exact raw _ _ _ rfl rfl (fun _ => rfl)
  · exact raw _ _ _ rfl rfl (fun _ => rfl)
  · exact unr _ _ _ _ _ rfl rfl (fun _ => rfl)
  · exact raw _ _ _ rfl rfl (fun _ => rfl)
  · exact raw _ _ _ rfl rfl (fun _ => rfl)
  · exact raw _ _ _ rfl rfl (fun _ => rfl)
  · exact raw _ _ _ rfl rfl (fun _ => rfl)
  · exact raw _ _ _ rfl rfl (fun _ => rfl)

/-- Processing of a tag without a decoder. -/
theorem processEmvTag_other {t : RawEmvTag} (h : ∀ dec, (t.tag, dec) ∉ decoders) :
    processEmvTag t = .ok (match identifyTag t.tag with
      | some name => .annotated name t
      | none => .raw t) := by
  have hn : ∀ x ∈ decoders.map Prod.fst, t.tag ≠ x := by
    intro x hx he
    obtain ⟨⟨x', dec⟩, hm, rfl⟩ := List.mem_map.1 hx
    exact h dec (he ▸ hm)
  rw [processEmvTag]
  cases identifyTag t.tag with
  | none => rfl
  | some name =>
    simp only
    rw [if_neg (hn [0x5F, 0x30] (by decide)),
      if_neg (hn [0x8A] (by decide)),
      if_neg (hn [0x8E] (by decide)),
      if_neg (hn [0x95] (by decide)),
      if_neg (hn [0x9B] (by decide)),
      if_neg (hn [0x9C] (by decide)),
      if_neg (hn [0x9F, 0x0D] (by decide)),
      if_neg (hn [0x9F, 0x0E] (by decide)),
      if_neg (hn [0x9F, 0x0F] (by decide)),
      if_neg (hn [0x9F, 0x10] (by decide)),
      if_neg (hn [0x9F, 0x33] (by decide)),
      if_neg (hn [0x9F, 0x34] (by decide)),
      if_neg (hn [0x9F, 0x35] (by decide)),
      if_neg (hn [0x9F, 0x39] (by decide)),
      if_neg (hn [0x9F, 0x40] (by decide))]

/-- The tolerated errors are those of 8A, 9C and 9F10. -/
theorem tolerated_lookup (tag : List Byte) (e : ParseError) (n : String)
    (h : tolerated.lookup tag = some (e, n)) :
    (tag = [0x8A] ∧ e = .unrecognised) ∨ (tag = [0x9C] ∧ e = .unrecognised) ∨
      (tag = [0x9F, 0x10] ∧ e = .nonCcdCompliant) := by
  simp only [tolerated, List.lookup] at h
  split at h
  · next ht => cases h; exact Or.inl ⟨by simpa using ht, rfl⟩
  · split at h
    · next ht => cases h; exact Or.inr (Or.inl ⟨by simpa using ht, rfl⟩)
    · split at h
      · next ht => cases h; exact Or.inr (Or.inr ⟨by simpa using ht, rfl⟩)
      · cases h

/-! ### UTF-8 in two bytes -/

theorem encode_cases (c : Char) : (∃ a, String.utf8EncodeChar c = [a] ∧ a.toNat < 128) ∨
    (∃ a b, String.utf8EncodeChar c = [a, b] ∧ 0xC2 ≤ a.toNat ∧ a.toNat ≤ 0xDF ∧ 0x80 ≤ b.toNat ∧
      b.toNat ≤ 0xBF) ∨
    (∃ a b d l, String.utf8EncodeChar c = a :: b :: d :: l) := by
  rw [String.utf8EncodeChar]
  split
  · left
    refine ⟨_, rfl, ?_⟩
    simp only [UInt8.toNat_ofNat']
    omega
  · split
    · right; left
      refine ⟨_, _, rfl, ?_⟩
      simp only [UInt8.toNat_ofNat']
      omega
    · right; right
      split
      · exact ⟨_, _, _, _, rfl⟩
      · exact ⟨_, _, _, _, rfl⟩

theorem fromUtf8Two_iff (a b : Byte) : (∃ s, fromUtf8Two a b = some s) ↔ IsUtf8 [a, b] := by
  constructor
  · rintro ⟨s, hs⟩; exact ⟨s, fromUtf8Two_sound a b s hs⟩
  · rintro ⟨s, hs⟩
    rw [fromUtf8Two]
    match s with
    | [] => simp at hs
    | c :: s =>
      rw [List.flatMap_cons] at hs
      rcases encode_cases c with ⟨x, hx, hlt⟩ | ⟨x, y, hxy, h⟩ | ⟨x, y, z, l, h⟩
      · rw [hx] at hs
        simp only [List.cons_append, List.nil_append, List.cons.injEq] at hs
        obtain ⟨rfl, hs⟩ := hs
        match s with
        | [] => simp at hs
        | c' :: s =>
          rw [List.flatMap_cons] at hs
          rcases encode_cases c' with ⟨x', hx', hlt'⟩ | ⟨x', y', hxy', h'⟩ | ⟨x', y', z', l', h'⟩
          · rw [hx'] at hs
            simp only [List.cons_append, List.nil_append, List.cons.injEq] at hs
            obtain ⟨rfl, hs⟩ := hs
            rw [if_pos ⟨by rw [UInt8.lt_iff_toNat_lt]; simpa using hlt,
              by rw [UInt8.lt_iff_toNat_lt]; simpa using hlt'⟩]
            exact ⟨_, rfl⟩
          · rw [hxy'] at hs; simp at hs
          · rw [h'] at hs; simp at hs
      · rw [hxy] at hs
        simp only [List.cons_append, List.nil_append, List.cons.injEq] at hs
        obtain ⟨rfl, rfl, -⟩ := hs
        rw [if_neg (by rw [UInt8.lt_iff_toNat_lt, UInt8.lt_iff_toNat_lt]; simp; omega),
          if_pos (by simp only [UInt8.le_iff_toNat_le]; simp; omega)]
        exact ⟨_, rfl⟩
      · rw [h] at hs; simp at hs

theorem arc_two (a b : Byte) :
    (¬ IsUtf8 [a, b] → arcTryFrom [a, b] = .err .invalidNumber) ∧
    (IsUtf8 [a, b] → (∃ v, arcTryFrom [a, b] = .ok v) ∨ arcTryFrom [a, b] = .err .unrecognised) := by
  rw [arcTryFrom, if_neg (by simp)]
  simp only [index, List.getElem?_cons_zero, List.getElem?_cons_succ, Out.ok_bind]
  rw [← fromUtf8Two_iff]
  cases fromUtf8Two a b with
  | none => simp
  | some s =>
    simp only [enumTryFrom]
    cases enumMatch arcTable s <;> simp

/-! ### Acceptable values, tag by tag -/

/-- A decoder accepts exactly the acceptable values, up to tolerated errors. -/
def DecSpec (tag : List Byte) (A : List Byte → Prop) (dec : List Byte → Out ParsedValue) : Prop :=
  ∀ d, (A d → (∃ p, dec d = .ok p) ∨ ∃ e n, dec d = .err e ∧ tolerated.lookup tag = some (e, n)) ∧
    (¬ A d → ∃ e, dec d = .err e ∧ ∀ e' n, tolerated.lookup tag = some (e', n) → e ≠ e')

theorem decSpec_layout {tag : List Byte} {bv : BitValue} (hbv : bv ∈ cvRule :: bitValues)
    (hcci : bv.items ≠ cciItems) (f : Value → ParsedValue) (ht : tolerated.lookup tag = none) :
    DecSpec tag (fun d => d.length = bv.numBytes) (fun d => (bv.layout.tryFrom d).map f) := by
  intro d
  constructor
  · intro h
    obtain ⟨v, hv⟩ := c40_total bv hbv hcci d h
    exact Or.inl ⟨f v, by simp only [hv, Out.map_ok]⟩
  · intro h
    refine ⟨_, by simp only [c40_wrong_length bv hbv d h, Out.map_err]; rfl, ?_⟩
    intro e' n he; rw [ht] at he; cases he

theorem eq_two {bs : List Byte} (h : bs.length = 2) : ∃ a b, bs = [a, b] := by
  match bs, h with
  | [a, b], _ => exact ⟨a, b, rfl⟩

theorem eq_one {bs : List Byte} (h : bs.length = 1) : ∃ a, bs = [a] := by
  match bs, h with
  | [a], _ => exact ⟨a, rfl⟩

theorem byteEnum_returned (table : List (Variant Byte)) (b : Byte) :
    (∃ v, byteEnumTryFrom table [b] = .ok v) ∨ byteEnumTryFrom table [b] = .err .unrecognised := by
  simp only [byteEnumTryFrom, List.length_cons, List.length_nil, index, List.getElem?_cons_zero, enumTryFrom]
  cases h : enumMatch table b <;> simp [h]

theorem decSpec_acceptable {tag : List Byte} {dec : List Byte → Out ParsedValue}
    (hmem : (tag, dec) ∈ decoders) : DecSpec tag (Acceptable tag) dec := by
  have congr : ∀ {tag : List Byte} {A : List Byte → Prop} {dec}, (∀ d, Acceptable tag d ↔ A d) →
      DecSpec tag A dec → DecSpec tag (Acceptable tag) dec := by
    intro tag A dec h hd d
    rw [h d]; exact hd d
  simp only [decoders, List.mem_cons, Prod.mk.injEq, List.not_mem_nil, or_false] at hmem
  rcases hmem with ⟨rfl, rfl⟩ | ⟨rfl, rfl⟩ | ⟨rfl, rfl⟩ | ⟨rfl, rfl⟩ | ⟨rfl, rfl⟩ | ⟨rfl, rfl⟩ | ⟨rfl, rfl⟩ |
    ⟨rfl, rfl⟩ | ⟨rfl, rfl⟩ | ⟨rfl, rfl⟩ | ⟨rfl, rfl⟩ | ⟨rfl, rfl⟩ | ⟨rfl, rfl⟩ | ⟨rfl, rfl⟩ | ⟨rfl, rfl⟩
  · -- 5F30
    refine congr (A := fun value => ∃ d1 d2 d3 : Nat, d1 ≤ 9 ∧ d2 ≤ 9 ∧ d3 ≤ 9 ∧
      value = [UInt8.ofNat d1, UInt8.ofNat (16 * d2 + d3)]) (fun d => ⟨fun h => h.h5F30 rfl, ?_⟩) ?_
    · intro h
      constructor <;> intro ht <;> first | exact absurd ht (by decide) | exact h
    · intro d
      by_cases hl : d.length = 2
      · obtain ⟨a, b, rfl⟩ := eq_two hl
        have := c48_bytes a b
        by_cases hc : a.toNat / 16 = 0 ∧ a.toNat % 16 ≤ 9 ∧ b.toNat / 16 ≤ 9 ∧ b.toNat % 16 ≤ 9
        · obtain ⟨-, v, hv⟩ := this.1 hc
          refine ⟨fun _ => Or.inl ⟨_, by simp only [hv, Out.map_ok]; rfl⟩, fun hn => absurd ?_ hn⟩
          refine ⟨a.toNat % 16, b.toNat / 16, b.toNat % 16, hc.2.1, hc.2.2.1, hc.2.2.2, ?_⟩
          rw [show a.toNat % 16 = a.toNat by omega, Nat.div_add_mod]
          simp
        · have he := this.2 hc
          refine ⟨fun h => absurd ?_ hc, fun _ => ⟨.invalidNumber, by simp only [he, Out.map_err], ?_⟩⟩
          · obtain ⟨d1, d2, d3, h1, h2, h3, h⟩ := h
            simp only [List.cons.injEq, and_true] at h
            obtain ⟨rfl, rfl⟩ := h
            simp only [UInt8.toNat_ofNat']
            rw [Nat.mod_eq_of_lt (by omega : d1 < 2 ^ 8), Nat.mod_eq_of_lt (by omega : 16 * d2 + d3 < 2 ^ 8)]
            omega
          · intro e' n h; cases h
      · refine ⟨?_, fun _ => ⟨_, by simp only [c48_length d hl, Out.map_err]; rfl, fun e' n h => by cases h⟩⟩
        rintro ⟨d1, d2, d3, -, -, -, rfl⟩
        simp at hl
  · -- 8A
    refine congr (A := fun value => value.length = 2 ∧ IsUtf8 value) (fun d => ⟨fun h => h.h8A rfl, ?_⟩) ?_
    · intro h
      constructor <;> intro ht <;> first | exact absurd ht (by decide) | exact h
    · intro d
      by_cases hl : d.length = 2
      · obtain ⟨a, b, rfl⟩ := eq_two hl
        constructor
        · intro h
          rcases (arc_two a b).2 h.2 with ⟨v, hv⟩ | he
          · exact Or.inl ⟨_, by simp only [hv, Out.map_ok]; rfl⟩
          · exact Or.inr ⟨_, _, by simp only [he, Out.map_err], rfl⟩
        · intro h
          refine ⟨.invalidNumber, by simp only [(arc_two a b).1 (fun h' => h ⟨rfl, h'⟩), Out.map_err], ?_⟩
          intro e' n h; cases h; decide
      · refine ⟨fun h => absurd h.1 hl, fun _ => ⟨.byteCountIncorrect .eq 2 d.length, ?_, ?_⟩⟩
        · simp only [arcTryFrom, if_pos hl, Out.map_err]
        · intro e' n h; cases h; simp
  · -- 8E
    refine congr (A := fun value => ∃ k, value.length = 8 + 2 * k) (fun d => ⟨fun h => h.h8E rfl, ?_⟩) ?_
    · intro h
      constructor <;> intro ht <;> first | exact absurd ht (by decide) | exact h
    · intro d
      constructor
      · rintro ⟨k, hk⟩
        obtain ⟨v, hv, -⟩ := c49_accepted d (by omega) (by omega)
        exact Or.inl ⟨_, by simp only [hv, Out.map_ok]; rfl⟩
      · intro h
        by_cases h8 : d.length < 8
        · exact ⟨_, by simp only [(c49_rejected d).1 h8, Out.map_err]; rfl, fun e' n h => by cases h⟩
        · have hodd : d.length % 2 = 1 :=
            Classical.byContradiction (fun hne => h ⟨(d.length - 8) / 2, by omega⟩)
          exact ⟨_, by simp only [(c49_rejected d).2 (by omega) hodd, Out.map_err]; rfl,
            fun e' n h => by cases h⟩
  · -- 95
    refine congr (A := fun value => value.length = 5) (fun d => ⟨fun h => h.h5 (by simp), ?_⟩)
      (decSpec_layout (bv := ⟨tvrLayout, 5, tvrItems⟩) (by simp [bitValues]) (by decide) _ rfl)
    intro h
    constructor <;> intro ht <;> first | exact absurd ht (by decide) | exact h
  · -- 9B
    refine congr (A := fun value => value.length = 2) (fun d => ⟨fun h => h.h9B rfl, ?_⟩)
      (decSpec_layout (bv := ⟨tsiLayout, 2, tsiItems⟩) (by simp [bitValues]) (by decide) _ rfl)
    intro h
    constructor <;> intro ht <;> first | exact absurd ht (by decide) | exact h
  · -- 9C
    refine congr (A := fun value => value.length = 1) (fun d => ⟨fun h => h.h9C rfl, ?_⟩) ?_
    · intro h
      constructor <;> intro ht <;> first | exact absurd ht (by decide) | exact h
    · intro d
      constructor
      · intro h
        obtain ⟨a, rfl⟩ := eq_one h
        rcases byteEnum_returned transactionTypeTable a with ⟨v, hv⟩ | he
        · exact Or.inl ⟨_, by simp only [transactionTypeTryFrom, hv, Out.map_ok]; rfl⟩
        · exact Or.inr ⟨_, _, by simp only [transactionTypeTryFrom, he, Out.map_err], rfl⟩
      · intro h
        refine ⟨_, by simp only [((c63_errors d).1 h).1, Out.map_err]; rfl, ?_⟩
        intro e' n h; cases h; simp
  · -- 9F0D
    refine congr (A := fun value => value.length = 5) (fun d => ⟨fun h => h.h5 (by simp), ?_⟩)
      (decSpec_layout (bv := ⟨tvrLayout, 5, tvrItems⟩) (by simp [bitValues]) (by decide) _ rfl)
    intro h
    constructor <;> intro ht <;> first | exact absurd ht (by decide) | exact h
  · -- 9F0E
    refine congr (A := fun value => value.length = 5) (fun d => ⟨fun h => h.h5 (by simp), ?_⟩)
      (decSpec_layout (bv := ⟨tvrLayout, 5, tvrItems⟩) (by simp [bitValues]) (by decide) _ rfl)
    intro h
    constructor <;> intro ht <;> first | exact absurd ht (by decide) | exact h
  · -- 9F0F
    refine congr (A := fun value => value.length = 5) (fun d => ⟨fun h => h.h5 (by simp), ?_⟩)
      (decSpec_layout (bv := ⟨tvrLayout, 5, tvrItems⟩) (by simp [bitValues]) (by decide) _ rfl)
    intro h
    constructor <;> intro ht <;> first | exact absurd ht (by decide) | exact h
  · -- 9F10
    refine congr (A := fun _ => True) (fun d => ⟨fun _ => trivial, ?_⟩) ?_
    · intro h
      constructor <;> intro ht <;> exact absurd ht (by decide)
    · intro d
      refine ⟨fun _ => ?_, fun h => absurd trivial h⟩
      by_cases hc : d.length = 32 ∧ d[0]? = some 0x0F ∧ d[16]? = some 0x0F ∧
          (d[1]? = some 0xA5 ∨ d[1]? = some 0xA6)
      · obtain ⟨v, hv, -⟩ := (iad_spec d).1 hc
        exact Or.inl ⟨_, by simp only [hv, Out.map_ok]; rfl⟩
      · exact Or.inr ⟨_, _, by simp only [(iad_spec d).2 hc, Out.map_err], rfl⟩
  · -- 9F33
    refine congr (A := fun value => value.length = 3) (fun d => ⟨fun h => h.h9F33 rfl, ?_⟩)
      (decSpec_layout (bv := ⟨terminalCapabilitiesLayout, 3, terminalCapabilitiesItems⟩)
        (by simp [bitValues]) (by decide) _ rfl)
    intro h
    constructor <;> intro ht <;> first | exact absurd ht (by decide) | exact h
  · -- 9F34
    refine congr (A := fun value => ∃ a b c : Byte, value = [a, b, c] ∧ c.toNat ≤ 2)
      (fun d => ⟨fun h => h.h9F34 rfl, ?_⟩) ?_
    · intro h
      constructor <;> intro ht <;> first | exact absurd ht (by decide) | exact h
    · intro d
      constructor
      · rintro ⟨a, b, c, rfl, hc⟩
        obtain ⟨v, hv⟩ := (c40_cvm_results [a, b, c]).2.1 rfl hc
        exact Or.inl ⟨_, by simp only [hv, Out.map_ok]; rfl⟩
      · intro h
        by_cases hl : d.length = 3
        · obtain ⟨a, b, c, rfl⟩ := eq_three hl
          have hc : 2 < c.toNat := Nat.lt_of_not_le (fun hle => h ⟨a, b, c, rfl, hle⟩)
          exact ⟨_, by simp only [(c40_cvm_results [a, b, c]).2.2 rfl hc, Out.map_err]; rfl,
            fun e' n h => by cases h⟩
        · exact ⟨_, by simp only [cvmResults_wrong d hl, Out.map_err]; rfl, fun e' n h => by cases h⟩
  · -- 9F35
    refine congr (A := fun value => ∃ b : Byte, value = [b] ∧ (terminalType b.toNat).isSome)
      (fun d => ⟨fun h => h.h9F35 rfl, ?_⟩) ?_
    · intro h
      constructor <;> intro ht <;> first | exact absurd ht (by decide) | exact h
    · intro d
      constructor
      · rintro ⟨b, rfl, hb⟩
        rcases byteEnum_returned terminalTypeTable b with ⟨v, hv⟩ | he
        · exact Or.inl ⟨_, by simp only [terminalTypeTryFrom, hv, Out.map_ok]; rfl⟩
        · rw [((c63_errors [b]).2 b rfl).2.1.2 he] at hb; cases hb
      · intro h
        by_cases hl : d.length = 1
        · obtain ⟨b, rfl⟩ := eq_one hl
          have hb : terminalType b.toNat = none := by
            cases hb : terminalType b.toNat with
            | none => rfl
            | some x => exact absurd ⟨b, rfl, by rw [hb]; rfl⟩ h
          exact ⟨_, by simp only [((c63_errors [b]).2 b rfl).2.1.1 hb, Out.map_err]; rfl,
            fun e' n h => by cases h⟩
        · exact ⟨_, by simp only [((c63_errors d).1 hl).2.1, Out.map_err]; rfl, fun e' n h => by cases h⟩
  · -- 9F39
    refine congr (A := fun value => ∃ b : Byte, value = [b] ∧ (posEntryModes.lookup b.toNat).isSome)
      (fun d => ⟨fun h => h.h9F39 rfl, ?_⟩) ?_
    · intro h
      constructor <;> intro ht <;> first | exact absurd ht (by decide) | exact h
    · intro d
      constructor
      · rintro ⟨b, rfl, hb⟩
        rcases byteEnum_returned posEntryModeTable b with ⟨v, hv⟩ | he
        · exact Or.inl ⟨_, by simp only [posEntryModeTryFrom, hv, Out.map_ok]; rfl⟩
        · rw [((c63_errors [b]).2 b rfl).2.2.2 he] at hb; cases hb
      · intro h
        by_cases hl : d.length = 1
        · obtain ⟨b, rfl⟩ := eq_one hl
          have hb : posEntryModes.lookup b.toNat = none := by
            cases hb : posEntryModes.lookup b.toNat with
            | none => rfl
            | some x => exact absurd ⟨b, rfl, by rw [hb]; rfl⟩ h
          exact ⟨_, by simp only [((c63_errors [b]).2 b rfl).2.2.1 hb, Out.map_err]; rfl,
            fun e' n h => by cases h⟩
        · exact ⟨_, by simp only [((c63_errors d).1 hl).2.2, Out.map_err]; rfl, fun e' n h => by cases h⟩
  · -- 9F40
    refine congr (A := fun value => value.length = 5) (fun d => ⟨fun h => h.h5 (by simp), ?_⟩)
      (decSpec_layout (bv := ⟨additionalTerminalCapabilitiesLayout, 5, additionalTerminalCapabilitiesItems⟩)
        (by simp [bitValues]) (by decide) _ rfl)
    intro h
    constructor <;> intro ht <;> first | exact absurd ht (by decide) | exact h

theorem acceptable_other {tag : List Byte} (h : ∀ dec, (tag, dec) ∉ decoders) (d : List Byte) :
    Acceptable tag d := by
  have hn : ∀ x ∈ decoders.map Prod.fst, tag ≠ x := by
    intro x hx he
    obtain ⟨⟨x', dec⟩, hm, rfl⟩ := List.mem_map.1 hx
    exact h dec (he ▸ hm)
  constructor <;> intro ht <;> first
    | exact absurd ht (hn _ (by decide))
    | (simp only [List.mem_cons, List.not_mem_nil, or_false] at ht
       rcases ht with h | h | h | h | h <;> exact absurd h (hn _ (by decide)))

/-! ### Any tag -/

theorem processEmvTag_cases (t : RawEmvTag) :
    (∃ dec d, (t.tag, dec) ∈ decoders ∧ t.data = .normal d ∧
      ((∃ name p, identifyTag t.tag = some name ∧ dec d = .ok p ∧
          processEmvTag t = .ok (.parsed name p t) ∧ Acceptable t.tag d) ∨
       (∃ e n, dec d = .err e ∧ tolerated.lookup t.tag = some (e, n) ∧
          processEmvTag t = .ok (.annotated n t) ∧ Acceptable t.tag d) ∨
       (∃ e, dec d = .err e ∧ processEmvTag t = .err e ∧ ¬ Acceptable t.tag d))) ∨
    (∃ dec name, (t.tag, dec) ∈ decoders ∧ t.data = .masked ∧ identifyTag t.tag = some name ∧
      processEmvTag t = .ok (.annotated name t)) ∨
    ((∀ dec, (t.tag, dec) ∉ decoders) ∧ ((∃ name, identifyTag t.tag = some name ∧
      processEmvTag t = .ok (.annotated name t)) ∨
      (identifyTag t.tag = none ∧ processEmvTag t = .ok (.raw t)))) := by
  by_cases hd : ∃ dec, (t.tag, dec) ∈ decoders
  · obtain ⟨dec, hdec⟩ := hd
    obtain ⟨tag, cls, typ, data⟩ := t
    obtain ⟨name, h1, h2, h3⟩ := processEmvTag_decoder hdec cls typ
    cases data with
    | masked => exact Or.inr (Or.inl ⟨dec, name, hdec, rfl, h1, h2⟩)
    | normal d =>
      left
      refine ⟨dec, d, hdec, rfl, ?_⟩
      have hs := decSpec_acceptable hdec d
      have h3 := h3 d
      by_cases ha : Acceptable tag d
      · rcases hs.1 ha with ⟨p, hp⟩ | ⟨e, n, he, htol⟩
        · left
          rw [hp] at h3
          exact ⟨name, p, h1, hp, h3, ha⟩
        · right; left
          rw [he] at h3
          simp only at htol
          simp only [htol, if_true] at h3
          exact ⟨e, n, he, htol, h3, ha⟩
      · right; right
        obtain ⟨e, he, hne⟩ := hs.2 ha
        refine ⟨e, he, ?_, ha⟩
        rw [h3, he]
        cases htol : tolerated.lookup tag with
        | none => rfl
        | some x =>
          obtain ⟨e', n⟩ := x
          simp only
          rw [if_neg (hne e' n htol)]
  · have hd' : ∀ dec, (t.tag, dec) ∉ decoders := fun dec h => hd ⟨dec, h⟩
    refine Or.inr (Or.inr ⟨hd', ?_⟩)
    have := processEmvTag_other hd'
    cases hi : identifyTag t.tag with
    | none => rw [hi] at this; exact Or.inr ⟨rfl, this⟩
    | some name => rw [hi] at this; exact Or.inl ⟨name, rfl, this⟩

theorem processEmvTag_ok_iff (t : RawEmvTag) :
    (∃ p, processEmvTag t = .ok p) ↔ ∀ d, t.data = .normal d → Acceptable t.tag d := by
  rcases processEmvTag_cases t with ⟨dec, d, -, hd, h⟩ | ⟨dec, name, -, hd, -, h⟩ | ⟨hn, h⟩
  · rw [hd]
    have e : (∀ d', EmvData.normal d = .normal d' → Acceptable t.tag d') ↔ Acceptable t.tag d :=
      ⟨fun h => h d rfl, fun h d' e => by cases e; exact h⟩
    rw [e]
    rcases h with ⟨name, p, -, -, h, ha⟩ | ⟨e, n, -, -, h, ha⟩ | ⟨e, -, h, ha⟩
    · exact ⟨fun _ => ha, fun _ => ⟨_, h⟩⟩
    · exact ⟨fun _ => ha, fun _ => ⟨_, h⟩⟩
    · rw [h]
      constructor
      · rintro ⟨p, hp⟩; cases hp
      · intro h; exact absurd h ha
  · exact ⟨fun _ d h => (by rw [hd] at h; cases h), fun _ => ⟨_, h⟩⟩
  · refine ⟨fun _ d _ => acceptable_other hn d, fun _ => ?_⟩
    rcases h with ⟨name, -, h⟩ | ⟨-, h⟩ <;> exact ⟨_, h⟩

theorem processEmvTag_err_iff (t : RawEmvTag) (e : ParseError) :
    processEmvTag t = .err e ↔ ∃ dec d, (t.tag, dec) ∈ decoders ∧ t.data = .normal d ∧
      ¬ Acceptable t.tag d ∧ dec d = .err e := by
  constructor
  · intro he
    rcases processEmvTag_cases t with ⟨dec, d, hdec, hd, h⟩ | ⟨dec, name, -, hd, -, h⟩ | ⟨hn, h⟩
    · rcases h with ⟨name, p, -, -, h, ha⟩ | ⟨e', n, -, -, h, ha⟩ | ⟨e', h', h, ha⟩
      · rw [h] at he; cases he
      · rw [h] at he; cases he
      · rw [h] at he; cases he; exact ⟨dec, d, hdec, hd, ha, h'⟩
    · rw [h] at he; cases he
    · rcases h with ⟨name, -, h⟩ | ⟨-, h⟩ <;> rw [h] at he <;> cases he
  · rintro ⟨dec, d, hdec, hd, ha, he⟩
    obtain ⟨tag, cls, typ, data⟩ := t
    simp only at hd; subst hd
    obtain ⟨name, h1, h2, h3⟩ := processEmvTag_decoder hdec cls typ
    obtain ⟨e', he', hne⟩ := (decSpec_acceptable hdec d).2 ha
    rw [he] at he'; cases he'
    rw [h3, he]
    cases htol : tolerated.lookup tag with
    | none => rfl
    | some x =>
      obtain ⟨e', n⟩ := x
      simp only
      rw [if_neg (hne e' n htol)]

theorem processEmvTag_total (t : RawEmvTag) :
    (∃ p, processEmvTag t = .ok p) ∨ ∃ e, processEmvTag t = .err e := by
  rcases processEmvTag_cases t with ⟨dec, d, -, -, h⟩ | ⟨dec, name, -, hd, -, h⟩ | ⟨hn, h⟩
  · rcases h with ⟨name, p, -, -, h, ha⟩ | ⟨e, n, -, -, h, ha⟩ | ⟨e, -, h, ha⟩
    · exact Or.inl ⟨_, h⟩
    · exact Or.inl ⟨_, h⟩
    · exact Or.inr ⟨_, h⟩
  · exact Or.inl ⟨_, h⟩
  · rcases h with ⟨name, -, h⟩ | ⟨-, h⟩ <;> exact Or.inl ⟨_, h⟩

theorem processEmvTag_raw (t : RawEmvTag) (p : ProcessedEmvTag) (hp : processEmvTag t = .ok p) :
    rawOf p = t := by
  rcases processEmvTag_cases t with ⟨dec, d, -, -, h⟩ | ⟨dec, name, -, hd, -, h⟩ | ⟨hn, h⟩
  · rcases h with ⟨name, q, -, -, h, ha⟩ | ⟨e, n, -, -, h, ha⟩ | ⟨e, -, h, ha⟩ <;>
      rw [h] at hp <;> cases hp <;> rfl
  · rw [h] at hp; cases hp; rfl
  · rcases h with ⟨name, -, h⟩ | ⟨-, h⟩ <;> rw [h] at hp <;> cases hp <;> rfl

/-! ### Blocks -/

/-- Processing a list of tags one after the other. -/
def runTags : List RawEmvTag → Out (List ProcessedEmvTag)
  | [] => .ok []
  | t :: ts => do
    let p ← processEmvTag t
    let ps ← runTags ts
    .ok (p :: ps)

theorem runTags_append (a b : List RawEmvTag) :
    runTags (a ++ b) = (do let x ← runTags a; let y ← runTags b; .ok (x ++ y)) := by
  induction a with
  | nil => simp only [List.nil_append, runTags, Out.ok_bind]; cases runTags b <;> rfl
  | cons t ts ih =>
    simp only [List.cons_append, runTags, ih]
    cases processEmvTag t with
    | ok p =>
      simp only [Out.ok_bind]
      cases runTags ts with
      | ok ps => simp only [Out.ok_bind]; cases runTags b <;> rfl
      | _ => rfl
    | _ => rfl

mutual
theorem processNode_run : ∀ n : RawEmvNode, (processNode n).map nodeProcessed = runTags (nodeTags n)
  | .mk t c => by
    have ih := processBlock_run c
    simp only [processNode, nodeTags, runTags]
    cases processEmvTag t with
    | ok p =>
      simp only [Out.ok_bind]
      rw [← ih]
      cases processBlock c <;> rfl
    | _ => rfl
theorem processBlock_run : ∀ b : List RawEmvNode, (processBlock b).map blockProcessed = runTags (blockTags b)
  | [] => rfl
  | n :: ns => by
    have ih1 := processNode_run n
    have ih2 := processBlock_run ns
    simp only [processBlock, blockTags, runTags_append]
    rw [← ih1, ← ih2]
    cases processNode n with
    | ok p => cases processBlock ns <;> rfl
    | _ => rfl
end

theorem runTags_ok_iff (ts : List RawEmvTag) (ps : List ProcessedEmvTag) :
    runTags ts = .ok ps ↔ ts.map processEmvTag = ps.map .ok := by
  induction ts generalizing ps with
  | nil => cases ps <;> simp [runTags]
  | cons t ts ih =>
    simp only [runTags, List.map_cons]
    cases ht : processEmvTag t with
    | ok p =>
      simp only [Out.ok_bind]
      cases ps with
      | nil => cases runTags ts <;> simp
      | cons q qs =>
        simp only [List.map_cons, List.cons.injEq, Out.ok.injEq]
        rw [← ih]
        cases runTags ts with
        | ok rs => simp
        | _ => simp
    | _ => cases ps <;> simp

theorem runTags_err_iff (ts : List RawEmvTag) (e : ParseError) :
    runTags ts = .err e ↔ ∃ pre t post, ts = pre ++ t :: post ∧ (∀ x ∈ pre, ∃ p, processEmvTag x = .ok p) ∧
      processEmvTag t = .err e := by
  induction ts with
  | nil => simp [runTags]
  | cons t ts ih =>
    rcases processEmvTag_total t with ⟨p, hp⟩ | ⟨e', he'⟩
    · simp only [runTags, hp, Out.ok_bind]
      have : (do let ps ← runTags ts; Out.ok (p :: ps)) = Out.err e ↔ runTags ts = .err e := by
        cases runTags ts <;> simp
      rw [this, ih]
      constructor
      · rintro ⟨pre, x, post, rfl, h1, h2⟩
        refine ⟨t :: pre, x, post, rfl, ?_, h2⟩
        intro y hy
        rcases List.mem_cons.1 hy with rfl | hy
        · exact ⟨p, hp⟩
        · exact h1 y hy
      · rintro ⟨pre, x, post, hs, h1, h2⟩
        cases pre with
        | nil => cases hs; rw [hp] at h2; cases h2
        | cons y pre => cases hs; exact ⟨pre, x, post, rfl, fun z hz => h1 z (by simp [hz]), h2⟩
    · simp only [runTags, he', Out.err_bind, Out.err.injEq]
      constructor
      · rintro rfl; exact ⟨[], t, ts, rfl, by simp, he'⟩
      · rintro ⟨pre, x, post, hs, h1, h2⟩
        cases pre with
        | nil => cases hs; rw [he'] at h2; cases h2; rfl
        | cons y pre =>
          cases hs
          obtain ⟨p, hp⟩ := h1 t (by simp)
          rw [he'] at hp; cases hp

theorem runTags_total (ts : List RawEmvTag) : (∃ ps, runTags ts = .ok ps) ∨ ∃ e, runTags ts = .err e := by
  induction ts with
  | nil => exact Or.inl ⟨[], rfl⟩
  | cons t ts ih =>
    rcases processEmvTag_total t with ⟨p, hp⟩ | ⟨e', he'⟩
    · rcases ih with ⟨ps, hps⟩ | ⟨e, he⟩
      · exact Or.inl ⟨p :: ps, by simp [runTags, hp, hps]⟩
      · exact Or.inr ⟨e, by simp [runTags, hp, he]⟩
    · exact Or.inr ⟨e', by simp [runTags, he']⟩

mutual
theorem processNode_erase : ∀ (n : RawEmvNode) (p : ProcessedEmvNode), processNode n = .ok p → eraseNode p = n
  | .mk t c, p, h => by
    have ih := processBlock_erase c
    simp only [processNode] at h
    cases ht : processEmvTag t with
    | ok q =>
      simp only [ht, Out.ok_bind] at h
      cases hc : processBlock c with
      | ok c' =>
        simp only [hc, Out.ok_bind] at h
        cases h
        rw [eraseNode, ih c' hc, processEmvTag_raw t q ht]
      | _ => rw [hc] at h; cases h
    | _ => rw [ht] at h; cases h
theorem processBlock_erase : ∀ (b : List RawEmvNode) (p : ProcessedEmvBlock), processBlock b = .ok p →
    eraseBlock p = b
  | [], p, h => by cases h; rfl
  | n :: ns, p, h => by
    have ih1 := processNode_erase n
    have ih2 := processBlock_erase ns
    simp only [processBlock] at h
    cases hn : processNode n with
    | ok q =>
      simp only [hn, Out.ok_bind] at h
      cases hs : processBlock ns with
      | ok qs =>
        simp only [hs, Out.ok_bind] at h
        cases h
        rw [eraseBlock, ih1 q hn, ih2 qs hs]
      | _ => rw [hs] at h; cases h
    | _ => rw [hn] at h; cases h
end

theorem processBlock_ok {b : List RawEmvNode} {p : ProcessedEmvBlock} (h : processBlock b = .ok p) :
    (blockTags b).map processEmvTag = (blockProcessed p).map .ok := by
  rw [← runTags_ok_iff, ← processBlock_run, h]; rfl

theorem processBlock_ok_iff (b : List RawEmvNode) :
    (∃ p, processBlock b = .ok p) ↔ ∀ t ∈ blockTags b, ∃ q, processEmvTag t = .ok q := by
  constructor
  · rintro ⟨p, hp⟩ t ht
    have := List.mem_map_of_mem (f := processEmvTag) ht
    rw [processBlock_ok hp] at this
    obtain ⟨q, -, hq⟩ := List.mem_map.1 this
    exact ⟨q, hq.symm⟩
  · intro h
    have hr := processBlock_run b
    rcases runTags_total (blockTags b) with ⟨ps, hps⟩ | ⟨e, he⟩
    · cases hb : processBlock b with
      | ok p => exact ⟨p, rfl⟩
      | _ => rw [hb, hps] at hr; cases hr
    · obtain ⟨pre, t, post, hs, -, ht⟩ := (runTags_err_iff _ _).1 he
      obtain ⟨q, hq⟩ := h t (by rw [hs]; simp)
      rw [hq] at ht; cases ht

theorem processBlock_err_iff (b : List RawEmvNode) (e : ParseError) :
    processBlock b = .err e ↔ ∃ pre t post, blockTags b = pre ++ t :: post ∧
      (∀ x ∈ pre, ∃ p, processEmvTag x = .ok p) ∧ processEmvTag t = .err e := by
  rw [← runTags_err_iff, ← processBlock_run]
  cases processBlock b <;> simp

theorem processBlock_total (b : List RawEmvNode) :
    (∃ p, processBlock b = .ok p) ∨ ∃ e, processBlock b = .err e := by
  have hr := processBlock_run b
  rcases runTags_total (blockTags b) with ⟨ps, hps⟩ | ⟨e, he⟩
  · cases hb : processBlock b with
    | ok p => exact Or.inl ⟨p, rfl⟩
    | _ => rw [hb, hps] at hr; cases hr
  · right
    refine ⟨e, ?_⟩
    rw [processBlock_err_iff, ← runTags_err_iff, he]

/-! ### Tables -/

theorem lookup_mem {α β : Type} [BEq α] [LawfulBEq α] {l : List (α × β)} {x : α} {y : β}
    (h : l.lookup x = some y) : (x, y) ∈ l := by
  induction l with
  | nil => cases h
  | cons z zs ih =>
    rw [List.lookup_cons] at h
    split at h
    · next hx =>
      cases h
      have : x = z.1 := by simpa using hx
      subst this; simp
    · exact List.mem_cons_of_mem _ (ih h)

theorem tagTable_isTag : ∀ p ∈ tagTable, IsTag p.1 := by
  have key : ∀ p ∈ tagTable, (match p.1 with
      | [b] => b.toNat % 32 != 31
      | [b, c] => (b.toNat % 32 == 31) && decide (c.toNat < 128)
      | _ => false) = true := by decide +kernel
  intro p hp
  have hk := key p hp
  split at hk
  · next b he => rw [he]; exact .low b (by simpa using hk)
  · next b c he =>
    rw [he]
    simp only [Bool.and_eq_true, beq_iff_eq, decide_eq_true_eq] at hk
    exact .high b [] c hk.1 (by simp) hk.2
  · cases hk

end Pemv
