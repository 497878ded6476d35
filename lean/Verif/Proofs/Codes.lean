import Verif.Proofs.Decimal
import Verif.Spec.Codes

/-! # Lemmas about codes and service codes -/

namespace Pemv

open Spec

theorem nibble_chars (b : Byte) : ∃ h l, nibbleToChar ((0xF0 &&& b) >>> 4) = .ok h ∧
    nibbleToChar (0x0F &&& b) = .ok l ∧
    (decDigitVal h = if b.toNat / 16 ≤ 9 then some (b.toNat / 16) else none) ∧
    (decDigitVal l = if b.toNat % 16 ≤ 9 then some (b.toNat % 16) else none) ∧
    isRustWhitespace h = false ∧ isRustWhitespace l = false ∧ h ≠ '+' ∧ h ≠ '-' := by
  have key : ∀ n, n < 256 → ∃ h ∈ "0123456789ABCDEF".toList, ∃ l ∈ "0123456789ABCDEF".toList,
      nibbleToChar ((0xF0 &&& UInt8.ofNat n) >>> 4) = .ok h ∧
      nibbleToChar (0x0F &&& UInt8.ofNat n) = .ok l ∧
      (decDigitVal h = if n / 16 ≤ 9 then some (n / 16) else none) ∧
      (decDigitVal l = if n % 16 ≤ 9 then some (n % 16) else none) ∧
      isRustWhitespace h = false ∧ isRustWhitespace l = false ∧ h ≠ '+' ∧ h ≠ '-' := by
    decide +kernel
  obtain ⟨h, -, l, -, k⟩ := key b.toNat b.toNat_lt
  rw [UInt8.ofNat_toNat] at k
  exact ⟨h, l, k⟩

theorem loop_some {acc d : Nat} {c : Char} {cs : Text} (hc : decDigitVal c = some d)
    (h : acc * 10 + d < 65536) : u16DigitLoop acc (c :: cs) = u16DigitLoop (acc * 10 + d) cs := by
  simp only [u16DigitLoop, hc]
  rw [if_neg (by omega), if_neg (by omega)]

theorem loop_none {acc : Nat} {c : Char} {cs : Text} (hc : decDigitVal c = none) :
    u16DigitLoop acc (c :: cs) = none := by simp only [u16DigitLoop, hc]

theorem loop_four (c1 c2 c3 c4 : Char) (x1 x2 x3 x4 : Nat)
    (d1 : decDigitVal c1 = if x1 ≤ 9 then some x1 else none)
    (d2 : decDigitVal c2 = if x2 ≤ 9 then some x2 else none)
    (d3 : decDigitVal c3 = if x3 ≤ 9 then some x3 else none)
    (d4 : decDigitVal c4 = if x4 ≤ 9 then some x4 else none) :
    ((x1 ≤ 9 ∧ x2 ≤ 9 ∧ x3 ≤ 9 ∧ x4 ≤ 9) →
      u16DigitLoop 0 [c1, c2, c3, c4] = some (1000 * x1 + 100 * x2 + 10 * x3 + x4)) ∧
    (¬ (x1 ≤ 9 ∧ x2 ≤ 9 ∧ x3 ≤ 9 ∧ x4 ≤ 9) → u16DigitLoop 0 [c1, c2, c3, c4] = none) := by
  constructor
  · rintro ⟨g1, g2, g3, g4⟩
    rw [if_pos g1] at d1; rw [if_pos g2] at d2; rw [if_pos g3] at d3; rw [if_pos g4] at d4
    rw [loop_some d1 (by omega), loop_some d2 (by omega), loop_some d3 (by omega),
      loop_some d4 (by omega), u16DigitLoop]
    congr 1; omega
  · intro hn
    by_cases g1 : x1 ≤ 9
    · rw [if_pos g1] at d1
      rw [loop_some d1 (by omega)]
      by_cases g2 : x2 ≤ 9
      · rw [if_pos g2] at d2
        rw [loop_some d2 (by omega)]
        by_cases g3 : x3 ≤ 9
        · rw [if_pos g3] at d3
          rw [if_neg (by omega)] at d4
          rw [loop_some d3 (by omega), loop_none d4]
        · rw [if_neg g3] at d3; exact loop_none d3
      · rw [if_neg g2] at d2; exact loop_none d2
    · rw [if_neg g1] at d1; exact loop_none d1

theorem serviceCode_bytes (a b : Byte) :
    ServiceCode.tryFrom [a, b] =
      if a.toNat / 16 ≤ 9 ∧ a.toNat % 16 ≤ 9 ∧ b.toNat / 16 ≤ 9 ∧ b.toNat % 16 ≤ 9 then
        ServiceCode.tryFromU16 (1000 * (a.toNat / 16) + 100 * (a.toNat % 16) + 10 * (b.toNat / 16) +
          b.toNat % 16)
      else .err .invalidNumber := by
  obtain ⟨c1, c2, h1, h2, d1, d2, w1, w2, p1, m1⟩ := nibble_chars a
  obtain ⟨c3, c4, h3, h4, d3, d4, w3, w4, -, -⟩ := nibble_chars b
  have hs : bytesToStr [a, b] = .ok [c1, c2, c3, c4] := by simp [bytesToStr, h1, h2, h3, h4]
  have ht : trimText [c1, c2, c3, c4] = [c1, c2, c3, c4] := by
    simp [trimText, w1, w4]
  have hu : u16FromStr [c1, c2, c3, c4] = u16DigitLoop 0 [c1, c2, c3, c4] := by
    unfold u16FromStr
    split
    · simp_all
    · simp_all
    · simp_all
    · next heq => simp only [List.cons.injEq] at heq; exact absurd heq.1 p1
    · rfl
  rw [ServiceCode.tryFrom, if_neg (by simp), hs]
  simp only [Out.ok_bind, parseStrToU16, ht, hu]
  obtain ⟨k1, k2⟩ := loop_four c1 c2 c3 c4 _ _ _ _ d1 d2 d3 d4
  by_cases h : a.toNat / 16 ≤ 9 ∧ a.toNat % 16 ≤ 9 ∧ b.toNat / 16 ≤ 9 ∧ b.toNat % 16 ≤ 9
  · rw [k1 h, if_pos h]; rfl
  · rw [k2 h, if_neg h]; rfl

/-- The meaning of a digit in a table. -/
theorem enumFrom_text (table : List (Variant Byte)) (f : Nat → String)
    (h : ((List.range 10).all (fun d => match enumFrom table (UInt8.ofNat d) with
      | .ok v => v.text == f d
      | _ => false)) = true) (d : Nat) (hd : d < 10) :
    ∃ v, enumFrom table (UInt8.ofNat d) = .ok v ∧ v.text = f d := by
  rw [List.all_eq_true] at h
  have := h d (by simpa using hd)
  cases he : enumFrom table (UInt8.ofNat d) with
  | ok v => rw [he] at this; exact ⟨v, rfl, by simpa using this⟩
  | _ => rw [he] at this; simp at this

theorem serviceCode_number (n : Nat) (h : n ≤ 999) : ∃ v, ServiceCode.tryFromU16 n = .ok v ∧
    v.number = n ∧ v.interchange.text = interchange (n / 100) ∧ v.technology.text = technology (n / 100) ∧
    v.authorisationProcessing.text = authorisation (n / 10 % 10) ∧
    v.allowedServices.text = services (n % 10) ∧ v.pinRequirements.text = pin (n % 10) := by
  have e1 : n % 1000 / 100 = n / 100 := by omega
  have e2 : n % 100 / 10 = n / 10 % 10 := by omega
  obtain ⟨v1, h1, t1⟩ := enumFrom_text interchangeTable interchange (by decide +kernel) (n / 100) (by omega)
  obtain ⟨v2, h2, t2⟩ := enumFrom_text technologyTable technology (by decide +kernel) (n / 100) (by omega)
  obtain ⟨v3, h3, t3⟩ := enumFrom_text authorisationProcessingTable authorisation (by decide +kernel)
    (n / 10 % 10) (by omega)
  obtain ⟨v4, h4, t4⟩ := enumFrom_text allowedServicesTable services (by decide +kernel) (n % 10) (by omega)
  obtain ⟨v5, h5, t5⟩ := enumFrom_text pinRequirementsTable pin (by decide +kernel) (n % 10) (by omega)
  refine ⟨⟨n, v1, v2, v3, v4, v5⟩, ?_, rfl, t1, t2, t3, t4, t5⟩
  rw [ServiceCode.tryFromU16, if_neg (by omega)]
  simp only [e1, e2, h1, h2, h3, h4, h5, Out.ok_bind]

/-- `str::from_utf8` on two bytes: exactly the texts whose encoding is these two bytes. -/
theorem fromUtf8Two_sound (a b : Byte) (s : Text) (h : fromUtf8Two a b = some s) : asBytes s = [a, b] := by
  rw [fromUtf8Two] at h
  split at h
  · next hc =>
    cases h
    have key : ∀ n, n < 256 → UInt8.ofNat n < (0x80 : Byte) →
        String.utf8EncodeChar (Char.ofNat n) = [UInt8.ofNat n] := by decide +kernel
    have ha := key a.toNat a.toNat_lt (by simpa using hc.1)
    have hb := key b.toNat b.toNat_lt (by simpa using hc.2)
    simp [ha, hb]
  · split at h
    · next hc =>
      cases h
      simp only [UInt8.le_iff_toNat_le] at hc
      have key : ∀ x, x < 30 → ∀ y, y < 64 → String.utf8EncodeChar (Char.ofNat ((x + 2) * 64 + y)) =
          [UInt8.ofNat (0xC2 + x), UInt8.ofNat (0x80 + y)] := by decide +kernel
      have := key (a.toNat - 0xC2) (by have := hc.2.1; simp at this; omega) (b.toNat - 0x80)
        (by have := hc.2.2.2; simp at this; omega)
      have e1 : (a.toNat - 0xC2 + 2) * 64 + (b.toNat - 0x80) = (a.toNat - 0xC0) * 64 + (b.toNat - 0x80) := by
        have := hc.1; simp at this; omega
      have e2 : 0xC2 + (a.toNat - 0xC2) = a.toNat := by have := hc.1; simp at this; omega
      have e3 : 0x80 + (b.toNat - 0x80) = b.toNat := by have := hc.2.2.1; simp at this; omega
      rw [e1, e2, e3] at this
      simp [this]
    · cases h

theorem byteEnum_ok {table : List (Variant Byte)} {bs : List Byte} {v : Variant Byte}
    (h : byteEnumTryFrom table bs = .ok v) : ∃ b, bs = [b] ∧ enumMatch table b = some v := by
  rw [byteEnumTryFrom] at h
  split at h
  · cases h
  · next hn =>
    match bs, hn with
    | [b], _ =>
      refine ⟨b, rfl, ?_⟩
      simp only [index, List.getElem?_cons_zero, Out.ok_bind, enumTryFrom] at h
      cases he : enumMatch table b with
      | none => rw [he] at h; cases h
      | some w => rw [he] at h; cases h; rfl
    | [], hn => simp at hn
    | _ :: _ :: _, hn => simp at hn

theorem arc_ok {bs : List Byte} {v : Variant Text} (h : arcTryFrom bs = .ok v) :
    ∃ a b s, bs = [a, b] ∧ fromUtf8Two a b = some s ∧ enumMatch arcTable s = some v := by
  rw [arcTryFrom] at h
  split at h
  · cases h
  · next hn =>
    match bs, hn with
    | [a, b], _ =>
      simp only [index, List.getElem?_cons_zero, List.getElem?_cons_succ, Out.ok_bind] at h
      cases hs : fromUtf8Two a b with
      | none => rw [hs] at h; cases h
      | some s =>
        rw [hs] at h
        simp only [enumTryFrom] at h
        cases he : enumMatch arcTable s with
        | none => rw [he] at h; cases h
        | some w => rw [he] at h; cases h; exact ⟨a, b, s, rfl, hs, he⟩
    | [], hn => simp at hn
    | [_], hn => simp at hn
    | _ :: _ :: _ :: _, hn => simp at hn

end Pemv
