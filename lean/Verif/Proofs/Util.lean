import Verif.Model.Util
import Verif.Spec.Text

/-! # Lemmas about texts, UTF-8, hex and numbers -/

namespace Pemv

open Spec

theorem forall_byte {P : Byte → Prop} (h : ∀ n, n < 256 → P (UInt8.ofNat n)) (b : Byte) : P b := by
  have := h b.toNat b.toNat_lt
  simpa using this

theorem ite_elim {α : Type} (P : α → Prop) {c : Prop} [Decidable c] {a b : α} (h1 : c → P a)
    (h2 : ¬ c → P b) : P (if c then a else b) := by
  split
  · exact h1 ‹_›
  · exact h2 ‹_›

theorem ite_elim₂ {α β : Type} {f : α → β} {c : Prop} [Decidable c] {a b a' b' : α} (h1 : c → f a = f a')
    (h2 : ¬ c → f b = f b') : f (if c then a else b) = f (if c then a' else b') := by
  by_cases h : c
  · rw [if_pos h, if_pos h]; exact h1 h
  · rw [if_neg h, if_neg h]; exact h2 h

theorem char_ofNat_toNat (c : Char) : Char.ofNat c.toNat = c := Char.ofNat_toNat c

theorem toNat_ofNat_of_lt {n : Nat} (h : n < 55296) : (Char.ofNat n).toNat = n := by
  have hv : n.isValidChar := Or.inl (by omega)
  simp [Char.ofNat, hv, Char.toNat, Char.ofNatAux, UInt32.toNat_ofNatLT]

/-! ### UTF-8 -/

@[simp] theorem asBytes_nil : asBytes [] = [] := rfl
@[simp] theorem asBytes_cons (c : Char) (s : Text) :
    asBytes (c :: s) = String.utf8EncodeChar c ++ asBytes s := by simp [asBytes]
@[simp] theorem asBytes_append (s t : Text) : asBytes (s ++ t) = asBytes s ++ asBytes t := by
  simp [asBytes]

theorem encode_ascii {c : Char} (h : c.toNat < 128) :
    String.utf8EncodeChar c = [UInt8.ofNat c.toNat] := by
  have : c.val.toNat ≤ 127 := Nat.le_of_lt_succ h
  simp only [String.utf8EncodeChar, this, if_true]
  rfl

theorem encode_nonascii {c : Char} (h : ¬ c.toNat < 128) :
    ∀ b ∈ String.utf8EncodeChar c, (0x80 : Byte) ≤ b := by
  have h1 : ¬ c.val.toNat ≤ 127 := fun h' => h (Nat.lt_succ_of_le h')
  intro b hb
  rw [UInt8.le_iff_toNat_le]
  simp only [String.utf8EncodeChar, h1, if_false] at hb
  split at hb
  · simp only [List.mem_cons, List.not_mem_nil, or_false] at hb
    rcases hb with rfl | rfl <;> simp only [UInt8.toNat_ofNat'] <;> simp <;> omega
  · split at hb
    · simp only [List.mem_cons, List.not_mem_nil, or_false] at hb
      rcases hb with rfl | rfl | rfl <;> simp only [UInt8.toNat_ofNat'] <;> simp <;> omega
    · simp only [List.mem_cons, List.not_mem_nil, or_false] at hb
      rcases hb with rfl | rfl | rfl | rfl <;> simp only [UInt8.toNat_ofNat'] <;> simp <;> omega

theorem encode_ne_nil (c : Char) : String.utf8EncodeChar c ≠ [] := String.utf8EncodeChar_ne_nil

theorem isAscii_iff (s : Text) : isAscii s = true ↔ ∀ c ∈ s, c.toNat < 128 := by
  induction s with
  | nil => simp [isAscii]
  | cons c s ih =>
    have hc : isAscii (c :: s) = ((String.utf8EncodeChar c).all (· < 0x80) && isAscii s) := by
      simp [isAscii]
    rw [hc, Bool.and_eq_true, ih]
    by_cases h : c.toNat < 128
    · have hb : UInt8.ofNat c.toNat < (0x80 : Byte) := by
        rw [UInt8.lt_iff_toNat_lt]; simp [UInt8.toNat_ofNat']; omega
      simp [encode_ascii h, h]
      intro _; simpa using hb
    · constructor
      · rintro ⟨h1, -⟩
        obtain ⟨b, l, hb⟩ := List.exists_cons_of_ne_nil (encode_ne_nil c)
        have h2 := encode_nonascii h b (by simp [hb])
        rw [hb] at h1
        simp at h1
        have h3 := h1.1
        rw [UInt8.le_iff_toNat_le] at h2
        rw [UInt8.lt_iff_toNat_lt] at h3
        omega
      · intro h1; exact absurd (h1 c (by simp)) h

theorem asBytes_of_ascii {s : Text} (h : ∀ c ∈ s, c.toNat < 128) :
    asBytes s = s.map (fun c => UInt8.ofNat c.toNat) := by
  induction s with
  | nil => rfl
  | cons c s ih =>
    have h1 : c.toNat < 128 := h c (by simp)
    have h2 := ih (fun d hd => h d (by simp [hd]))
    simp [encode_ascii h1, h2]

theorem asBytes_length_of_ascii {s : Text} (h : ∀ c ∈ s, c.toNat < 128) :
    (asBytes s).length = s.length := by simp [asBytes_of_ascii h]

/-! ### Hex -/

theorem hexVal_ascii {c : Char} (h : c.toNat < 128) :
    hexVal (UInt8.ofNat c.toNat) = (hexDigit? c).map UInt8.ofNat := by
  have key : ∀ n, n < 128 → hexVal (UInt8.ofNat n) = (hexDigit? (Char.ofNat n)).map UInt8.ofNat := by
    decide +kernel
  have := key c.toNat h
  rwa [char_ofNat_toNat] at this

theorem hexVal_nonascii {b : Byte} (h : (0x80 : Byte) ≤ b) : hexVal b = none := by
  have key : ∀ n, n < 256 → 0x80 ≤ n → hexVal (UInt8.ofNat n) = none := by decide +kernel
  have := key b.toNat b.toNat_lt (by rw [UInt8.le_iff_toNat_le] at h; simpa using h)
  simpa using this

theorem hexDigit?_nonascii {c : Char} (h : ¬ c.toNat < 128) : hexDigit? c = none := by
  rw [hexDigit?, List.lookup_eq_none_iff]
  intro p hp
  have key : ∀ p ∈ hexDigits, p.1.toNat < 128 := by decide
  have h1 := key p hp
  simp only [ne_eq, bne_iff_ne]
  rintro rfl
  exact h h1

theorem hexDigit?_lt {c : Char} {d : Nat} (h : hexDigit? c = some d) : d < 16 := by
  by_cases hc : c.toNat < 128
  · have key : ∀ n, n < 128 → ∀ d ∈ hexDigit? (Char.ofNat n), d < 16 := by decide +kernel
    have := key c.toNat hc
    rw [char_ofNat_toNat] at this
    exact this d h
  · rw [hexDigit?_nonascii hc] at h; cases h

theorem filterMap_hexVal_asBytes (s : Text) :
    (asBytes s).filterMap hexVal = (s.filterMap hexDigit?).map UInt8.ofNat := by
  induction s with
  | nil => rfl
  | cons c s ih =>
    rw [asBytes_cons, List.filterMap_append, ih]
    by_cases h : c.toNat < 128
    · rw [encode_ascii h]
      cases hd : hexDigit? c with
      | none => simp [hexVal_ascii h, hd]
      | some d => simp [hexVal_ascii h, hd]
    · have : (String.utf8EncodeChar c).filterMap hexVal = [] := by
        rw [List.filterMap_eq_nil_iff]
        intro b hb
        exact hexVal_nonascii (encode_nonascii h b hb)
      rw [this]
      simp [hexDigit?_nonascii h]

theorem pairUp_length (ds : List Nat) : (pairUp ds).length = ds.length / 2 := by
  fun_induction pairUp ds with
  | case1 a b rest ih => simp only [List.length_cons, ih]; omega
  | case2 l hl =>
    match l, hl with
    | [], _ => rfl
    | [a], _ => simp
    | a :: b :: rest, hl => exact absurd rfl (hl a b rest)

theorem pairNibbles_map (ds : List Nat) (h : ∀ d ∈ ds, d < 16) :
    (pairNibbles (ds.map UInt8.ofNat)).map UInt8.toNat = pairUp ds := by
  have key : ∀ a, a < 16 → ∀ b, b < 16 →
      ((UInt8.ofNat a <<< 4) ||| UInt8.ofNat b).toNat = 16 * a + b := by decide +kernel
  fun_induction pairUp ds with
  | case1 a b rest ih =>
    simp only [List.map_cons, pairNibbles, List.cons.injEq]
    exact ⟨key a (h a (by simp)) b (h b (by simp)), ih (fun d hd => h d (by simp [hd]))⟩
  | case2 ds hds =>
    match ds, hds with
    | [], _ => rfl
    | [a], _ => rfl
    | a :: b :: rest, hds => exact absurd rfl (hds a b rest)

theorem filterMap_hexDigit_lt (s : Text) : ∀ d ∈ s.filterMap hexDigit?, d < 16 := by
  intro d hd
  obtain ⟨c, _, hc⟩ := List.mem_filterMap.1 hd
  exact hexDigit?_lt hc

theorem map_toNat_injective : Function.Injective (List.map UInt8.toNat) :=
  fun _ _ h => (List.map_inj_right (fun _ _ h => UInt8.toNat_inj.1 h)).1 h

theorem parseHexStr_toNat (s : Text) : (parseHexStr s).map UInt8.toNat = hexDecode s := by
  rw [parseHexStr, filterMap_hexVal_asBytes, pairNibbles_map _ (filterMap_hexDigit_lt s), hexDecode]

theorem isHexByte_charAsU8 {c : Char} (h : c.toNat < 128) :
    isHexByte (charAsU8 c) = true ↔ IsHex c := by
  have key : ∀ n, n < 128 →
      (isHexByte (charAsU8 (Char.ofNat n)) = true ↔ IsHex (Char.ofNat n)) := by decide +kernel
  have := key c.toNat h
  rwa [char_ofNat_toNat] at this

theorem ascii_of_isHex {c : Char} (h : IsHex c) : c.toNat < 128 := by
  by_cases hc : c.toNat < 128
  · exact hc
  · simp [IsHex, hexDigit?_nonascii hc] at h

theorem parseHexStrStrict_ok_iff (s : Text) :
    (∀ c ∈ s, IsHex c) → parseHexStrStrict s = .ok (parseHexStr s) := by
  intro h
  have ha : isAscii s = true := (isAscii_iff s).2 (fun c hc => ascii_of_isHex (h c hc))
  have hb : s.any (fun c => !isHexByte (charAsU8 c)) = false := by
    rw [List.any_eq_false]
    intro c hc
    have := (isHexByte_charAsU8 (ascii_of_isHex (h c hc))).2 (h c hc)
    simp [this]
  simp [parseHexStrStrict, ha, hb]

theorem parseHexStrStrict_err (s : Text) (h : ¬ ∀ c ∈ s, IsHex c) :
    parseHexStrStrict s = .err .invalidBytes := by
  rw [parseHexStrStrict]
  by_cases ha : isAscii s = true
  · have : s.any (fun c => !isHexByte (charAsU8 c)) = true := by
      rw [List.any_eq_true]
      simp only [Classical.not_forall] at h
      obtain ⟨c, hc, hn⟩ := h
      refine ⟨c, hc, ?_⟩
      have := mt (isHexByte_charAsU8 ((isAscii_iff s).1 ha c hc)).1 hn
      simpa using this
    simp [this]
  · simp [ha]

/-! ### Hex output -/

theorem bytesToStr_spec (bs : List Byte) : ∃ t, bytesToStr bs = .ok t ∧ t.length = 2 * bs.length ∧
    (∀ c ∈ t, c ∈ "0123456789ABCDEF".toList) ∧
    t.filterMap hexDigit? = bs.flatMap (fun b => [b.toNat / 16, b.toNat % 16]) ∧
    (t.map asciiLower).filterMap hexDigit? = bs.flatMap (fun b => [b.toNat / 16, b.toNat % 16]) := by
  have key : ∀ n, n < 256 → ∃ h ∈ "0123456789ABCDEF".toList, ∃ l ∈ "0123456789ABCDEF".toList,
      nibbleToChar ((0xF0 &&& UInt8.ofNat n) >>> 4) = .ok h ∧
      nibbleToChar (0x0F &&& UInt8.ofNat n) = .ok l ∧
      hexDigit? h = some (n / 16) ∧ hexDigit? l = some (n % 16) ∧
      hexDigit? (asciiLower h) = some (n / 16) ∧ hexDigit? (asciiLower l) = some (n % 16) := by
    decide +kernel
  induction bs with
  | nil => exact ⟨[], rfl, rfl, by simp, rfl, rfl⟩
  | cons b bs ih =>
    obtain ⟨t, h1, h2, h3, h4, h5⟩ := ih
    obtain ⟨h, hh, l, hl, k1, k2, k3, k4, k5, k6⟩ := key b.toNat b.toNat_lt
    simp only [UInt8.ofNat_toNat] at k1 k2
    refine ⟨h :: l :: t, ?_, ?_, ?_, ?_, ?_⟩
    · simp [bytesToStr, k1, k2, h1]
    · simp [h2]; omega
    · intro c hc
      rcases List.mem_cons.1 hc with rfl | hc
      · exact hh
      rcases List.mem_cons.1 hc with rfl | hc
      · exact hl
      exact h3 c hc
    · simp [k3, k4, h4]
    · simp [k5, k6] at h5 ⊢; exact h5

theorem pairUp_nibbles (bs : List Byte) :
    pairUp (bs.flatMap (fun b => [b.toNat / 16, b.toNat % 16])) = bs.map UInt8.toNat := by
  induction bs with
  | nil => rfl
  | cons b bs ih =>
    simp only [List.flatMap_cons, List.cons_append, List.nil_append, pairUp, ih, List.map_cons,
      List.cons.injEq, and_true]
    omega

/-! ### Big-endian values -/

theorem foldl_be (bs : List Byte) (acc : Nat) :
    bs.foldl (fun acc b => acc * 256 + b.toNat) acc = acc * 256 ^ bs.length + beValue bs := by
  induction bs generalizing acc with
  | nil => simp [beValue, ofDigits]
  | cons b bs ih =>
    simp only [List.foldl_cons, ih, List.length_cons, beValue, List.map_cons, ofDigits,
      List.length_map]
    rw [Nat.add_mul, Nat.mul_assoc, Nat.pow_succ, Nat.mul_comm 256, Nat.add_assoc]

theorem fromBeBytes_eq (bs : List Byte) : fromBeBytes bs = beValue bs := by
  simp [fromBeBytes, foldl_be]

theorem beValue_cons (b : Byte) (bs : List Byte) :
    beValue (b :: bs) = b.toNat * 256 ^ bs.length + beValue bs := by
  simp [beValue, ofDigits]

theorem beValue_zeros (n : Nat) (bs : List Byte) :
    beValue (List.replicate n 0 ++ bs) = beValue bs := by
  induction n with
  | zero => rfl
  | succ n ih => rw [List.replicate_succ, List.cons_append, beValue_cons, ih]; simp

theorem beValue_lt (bs : List Byte) : beValue bs < 256 ^ bs.length := by
  induction bs with
  | nil => simp [beValue, ofDigits]
  | cons b bs ih =>
    rw [beValue_cons, List.length_cons, Nat.pow_succ]
    have := b.toNat_lt
    have h1 : b.toNat * 256 ^ bs.length ≤ 255 * 256 ^ bs.length :=
      Nat.mul_le_mul_right _ (by omega)
    omega

theorem byteSliceToU32_ok {bs : List Byte} (h : bs.length ≤ 4) :
    byteSliceToU32 bs = .ok (beValue bs) := by
  simp [byteSliceToU32, h, fromBeBytes_eq, rightAlign, beValue_zeros]

theorem byteSliceToU64_ok {bs : List Byte} (h : bs.length ≤ 8) :
    byteSliceToU64 bs = .ok (beValue bs) := by
  simp [byteSliceToU64, h, fromBeBytes_eq, rightAlign, beValue_zeros]

/-! ### Trimming zero bytes -/

theorem trim_spec (bs : List Byte) : ∃ n, bs = List.replicate n 0 ++ trimLeading0Bytes bs ∧
    (trimLeading0Bytes bs = [] ↔ bs = []) ∧
    (1 < (trimLeading0Bytes bs).length → (trimLeading0Bytes bs).head? ≠ some 0) := by
  fun_induction trimLeading0Bytes bs with
  | case1 b rest ih =>
    obtain ⟨n, h1, h2, h3⟩ := ih
    refine ⟨n + 1, ?_, ?_, h3⟩
    · rw [List.replicate_succ, List.cons_append, ← h1]
    · simp [h2]
  | case2 a b rest ha => exact ⟨0, by simp, by simp, by simpa using ha⟩
  | case3 l hl =>
    refine ⟨0, by simp, Iff.rfl, ?_⟩
    match l, hl with
    | [], _ => simp
    | [a], _ => simp
    | a :: b :: rest, hl => exact absurd rfl (hl a b rest)

theorem trim_idem (bs : List Byte) :
    trimLeading0Bytes (trimLeading0Bytes bs) = trimLeading0Bytes bs := by
  fun_induction trimLeading0Bytes bs with
  | case1 b rest ih => exact ih
  | case2 a b rest ha => simp [trimLeading0Bytes, ha]
  | case3 l hl =>
    match l, hl with
    | [], _ => rfl
    | [a], _ => rfl
    | a :: b :: rest, hl => exact absurd rfl (hl a b rest)

theorem trim_zeros (n : Nat) (bs : List Byte) (h : bs ≠ []) :
    trimLeading0Bytes (List.replicate n 0 ++ bs) = trimLeading0Bytes bs := by
  induction n with
  | zero => rfl
  | succ n ih =>
    rw [List.replicate_succ, List.cons_append]
    cases hr : List.replicate n 0 ++ bs with
    | nil => simp [h] at hr
    | cons b rest => rw [hr] at ih; simp [trimLeading0Bytes, ih]

end Pemv
