import Verif.Proofs.Decimal
import Verif.Model.Display

/-!
# C01 – C07: hex, integers, decimal numbers
-/

namespace Pemv

open Spec

/-! ### C01 -/

/-- **C01.** Lenient hex decoding gives the bytes denoted by the hex digits of the text. -/
theorem c01_lenient_hex (s : Text) : (parseHexStr s).map UInt8.toNat = hexDecode s :=
  parseHexStr_toNat s

/-- **C01.** Only the sequence of digit values matters: any other character, anywhere, has no effect. -/
theorem c01_only_digits_matter (s t : Text) (h : s.filterMap hexDigit? = t.filterMap hexDigit?) :
    parseHexStr s = parseHexStr t :=
  map_toNat_injective (by rw [c01_lenient_hex, c01_lenient_hex, hexDecode, hexDecode, h])

example : parseHexStr "5f-2A".toList = parseHexStr "5F 2a".toList := c01_only_digits_matter _ _ (by decide)

/-- **C01.** In particular a character that is no hex digit can be inserted anywhere. -/
theorem c01_insert_noise (s t : Text) (c : Char) (h : ¬ IsHex c) :
    parseHexStr (s ++ c :: t) = parseHexStr (s ++ t) := by
  apply c01_only_digits_matter
  have : hexDigit? c = none := by simpa [IsHex] using h
  simp [this]

example : parseHexStr ("5".toList ++ 'é' :: "F".toList) = parseHexStr ("5".toList ++ "F".toList) :=
  c01_insert_noise _ _ _ (by decide)

/-- **C01.** The number of bytes is half the number of hex digits, rounded down. -/
theorem c01_length (s : Text) : (parseHexStr s).length = (s.filter (fun c => decide (IsHex c))).length / 2 := by
  have h1 : (parseHexStr s).length = (hexDecode s).length := by
    rw [← c01_lenient_hex, List.length_map]
  have h2 : ∀ ds : List Nat, (pairUp ds).length = ds.length / 2 := pairUp_length
  have h3 : (s.filterMap hexDigit?).length = (s.filter (fun c => decide (IsHex c))).length := by
    clear h1
    induction s with
    | nil => rfl
    | cons c s ih =>
      cases hc : hexDigit? c with
      | none => simp [hc, IsHex] at ih ⊢; exact ih
      | some d => simp [hc, IsHex] at ih ⊢; exact ih
  rw [h1, hexDecode, h2, h3]

example : parseHexStr "5f-2A é 1\t0 F".toList = [0x5F, 0x2A, 0x10] := by decide

/-! ### C02 -/

/-- **C02.** Strict hex decoding succeeds exactly on texts of hex digits. -/
theorem c02_strict_hex (s : Text) :
    ((∀ c ∈ s, IsHex c) → parseHexStrStrict s = .ok (parseHexStr s)) ∧
    ((¬ ∀ c ∈ s, IsHex c) → parseHexStrStrict s = .err .invalidBytes) :=
  ⟨parseHexStrStrict_ok_iff s, parseHexStrStrict_err s⟩

/-- **C02.** The accepted texts and their values, as one equivalence. -/
theorem c02_strict_hex_iff (s : Text) (bs : List Byte) :
    parseHexStrStrict s = .ok bs ↔ (∀ c ∈ s, IsHex c) ∧ bs.map UInt8.toNat = hexDecode s := by
  constructor
  · intro h
    by_cases hs : ∀ c ∈ s, IsHex c
    · rw [(c02_strict_hex s).1 hs] at h
      cases h
      exact ⟨hs, c01_lenient_hex s⟩
    · rw [(c02_strict_hex s).2 hs] at h; cases h
  · rintro ⟨hs, hb⟩
    rw [(c02_strict_hex s).1 hs]
    congr 1
    exact map_toNat_injective (by rw [c01_lenient_hex, hb])

/-- **C02.** A text with any non-ASCII character is rejected, whatever its low 8 bits. -/
theorem c02_rejects_non_ascii (s : Text) (c : Char) (hc : c ∈ s) (h : 128 ≤ c.toNat) :
    parseHexStrStrict s = .err .invalidBytes :=
  (c02_strict_hex s).2 (fun hs => absurd (ascii_of_isHex (hs c hc)) (by omega))

example : parseHexStrStrict "9f2A".toList = .ok [0x9F, 0x2A] := by decide
/-- U+0141: its low byte is `A`. -/
example : charAsU8 'Ł' = 0x41 ∧ parseHexStrStrict ['Ł', '1'] = .err .invalidBytes := by decide

/-! ### C03 -/

/-- **C03.** The hex text of bytes: produced without panic, two upper-case digits per byte, and decoded
back to the bytes by both decoders, also after lower-casing. -/
theorem c03_round_trip (bs : List Byte) : ∃ t, bytesToStr bs = .ok t ∧ t.length = 2 * bs.length ∧
    (∀ c ∈ t, c ∈ "0123456789ABCDEF".toList) ∧ parseHexStr t = bs ∧ parseHexStrStrict t = .ok bs ∧
    parseHexStr (t.map asciiLower) = bs ∧ parseHexStrStrict (t.map asciiLower) = .ok bs := by
  obtain ⟨t, h1, h2, h3, h4, h5⟩ := bytesToStr_spec bs
  have k1 : parseHexStr t = bs :=
    map_toNat_injective (by rw [c01_lenient_hex, hexDecode, h4, pairUp_nibbles])
  have k2 : parseHexStr (t.map asciiLower) = bs :=
    map_toNat_injective (by rw [c01_lenient_hex, hexDecode, h5, pairUp_nibbles])
  have hex : ∀ c ∈ "0123456789ABCDEF".toList, IsHex c ∧ IsHex (asciiLower c) := by decide
  refine ⟨t, h1, h2, h3, k1, ?_, k2, ?_⟩
  · rw [(c02_strict_hex t).1 (fun c hc => (hex c (h3 c hc)).1), k1]
  · rw [(c02_strict_hex _).1, k2]
    intro c hc
    obtain ⟨d, hd, rfl⟩ := List.mem_map.1 hc
    exact (hex d (h3 d hd)).2

/-- **C03.** Different byte sequences have different texts. -/
theorem c03_injective (bs bs' : List Byte) (h : bytesToStr bs = bytesToStr bs') : bs = bs' := by
  obtain ⟨t, h1, -, -, h2, -⟩ := c03_round_trip bs
  obtain ⟨t', k1, -, -, k2, -⟩ := c03_round_trip bs'
  rw [h1, k1] at h
  cases h
  rw [← h2, k2]

example : bytesToStr [0x9F, 0x0A] = .ok "9F0A".toList ∧ "9F0A".toList.map asciiLower = "9f0a".toList := by
  decide

/-! ### C04 -/

/-- **C04.** `byte_slice_to_u32`: the big-endian value, which fits, or a panic for more than 4 bytes. -/
theorem c04_u32 (bs : List Byte) :
    (bs.length ≤ 4 → byteSliceToU32 bs = .ok (beValue bs) ∧ beValue bs < 2 ^ 32) ∧
    (4 < bs.length → byteSliceToU32 bs = .panic) := by
  refine ⟨fun h => ⟨byteSliceToU32_ok h, ?_⟩, fun h => by simp [byteSliceToU32, Nat.not_le.2 h]⟩
  calc beValue bs < 256 ^ bs.length := beValue_lt bs
    _ ≤ 256 ^ 4 := Nat.pow_le_pow_right (by omega) h
    _ = 2 ^ 32 := by decide

/-- **C04.** `byte_slice_to_u64`: the big-endian value, which fits, or a panic for more than 8 bytes. -/
theorem c04_u64 (bs : List Byte) :
    (bs.length ≤ 8 → byteSliceToU64 bs = .ok (beValue bs) ∧ beValue bs < 2 ^ 64) ∧
    (8 < bs.length → byteSliceToU64 bs = .panic) := by
  refine ⟨fun h => ⟨byteSliceToU64_ok h, ?_⟩, fun h => by simp [byteSliceToU64, Nat.not_le.2 h]⟩
  calc beValue bs < 256 ^ bs.length := beValue_lt bs
    _ ≤ 256 ^ 8 := Nat.pow_le_pow_right (by omega) h
    _ = 2 ^ 64 := by decide

example : beValue [0x12, 0x34, 0x56] = 0x123456 ∧ byteSliceToU32 [0x12, 0x34, 0x56] = .ok 0x123456 ∧
    byteSliceToU32 [0, 0, 0, 0, 1] = .panic := by decide

/-! ### C05 -/

/-- **C05.** Trimming removes only leading zero bytes, keeps the value, never empties a vector, and
leaves no leading zero unless one byte is left. -/
theorem c05_trim (bs : List Byte) :
    (∃ n, bs = List.replicate n 0 ++ trimLeading0Bytes bs) ∧
    beValue (trimLeading0Bytes bs) = beValue bs ∧
    (trimLeading0Bytes bs = [] ↔ bs = []) ∧
    (trimLeading0Bytes bs).getLast? = bs.getLast? ∧
    (1 < (trimLeading0Bytes bs).length → (trimLeading0Bytes bs).head? ≠ some 0) := by
  obtain ⟨n, h1, h2, h3⟩ := trim_spec bs
  refine ⟨⟨n, h1⟩, ?_, h2, ?_, h3⟩
  · conv => rhs; rw [h1]
    rw [beValue_zeros]
  · by_cases hb : bs = []
    · subst hb; rfl
    · have ht : trimLeading0Bytes bs ≠ [] := fun h => hb (h2.1 h)
      conv => rhs; rw [h1]
      rw [List.getLast?_append, List.getLast?_eq_some_getLast ht]
      rfl

/-- **C05.** Trimming is idempotent, and adding leading zero bytes to a non-empty vector is undone. -/
theorem c05_trim_idempotent (bs : List Byte) :
    trimLeading0Bytes (trimLeading0Bytes bs) = trimLeading0Bytes bs ∧
    (bs ≠ [] → ∀ n, trimLeading0Bytes (List.replicate n 0 ++ bs) = trimLeading0Bytes bs) :=
  ⟨trim_idem bs, fun h n => trim_zeros n bs h⟩

/-- **C05.** A tag without a leading zero byte is untouched. -/
theorem c05_trim_keeps (b : Byte) (bs : List Byte) (h : b ≠ 0) :
    trimLeading0Bytes (b :: bs) = b :: bs := by
  cases bs with
  | nil => rfl
  | cons c bs => simp [trimLeading0Bytes, h]

example : trimLeading0Bytes [0, 0, 0x9F, 0, 2] = [0x9F, 0, 2] ∧ trimLeading0Bytes [0, 0] = [0] := by
  decide

/-! ### C06 -/

/-- **C06.** `num_dec_digits n` is the number of digits of the decimal numeral of `n`: there are digits
`ds` of that number, of value `n`, without a superfluous leading zero. -/
theorem c06_num_dec_digits (n : Nat) : ∃ ds : List Nat, (∀ d ∈ ds, d < 10) ∧ ofDigits 10 ds = n ∧
    ds ≠ [] ∧ (ds.length = 1 ∨ ds.head? ≠ some 0) ∧ numDecDigits n = ds.length := by
  obtain ⟨ds, h1, h2, h3, h4⟩ := natToText_spec n
  refine ⟨ds, ?_, h2, h3, h4, by rw [numDecDigits_eq, isDecimal_length h1]⟩
  intro d hd
  have : some d ∈ (natToText n).map decDigit? := by rw [h1]; exact List.mem_map_of_mem hd
  obtain ⟨c, -, hc⟩ := List.mem_map.1 this
  exact decDigit?_lt hc

/-- **C06.** The number of digits by powers of ten: `10^(k-1) ≤ n < 10^k`, or `n = 0` and `k = 1`. -/
theorem c06_num_dec_digits_bounds (n : Nat) :
    n < 10 ^ numDecDigits n ∧ 0 < numDecDigits n ∧
    (n = 0 ∧ numDecDigits n = 1 ∨ 10 ^ (numDecDigits n - 1) ≤ n) := by
  obtain ⟨ds, h1, h2, hne, h3, h4⟩ := c06_num_dec_digits n
  rw [h4]
  have hlt : ∀ l : List Nat, (∀ d ∈ l, d < 10) → ofDigits 10 l < 10 ^ l.length := by
    intro l
    induction l with
    | nil => simp [ofDigits]
    | cons d l ih =>
      intro hl
      have := ih (fun x hx => hl x (by simp [hx]))
      have hd := hl d (by simp)
      rw [ofDigits, List.length_cons, Nat.pow_succ]
      have h1 : d * 10 ^ l.length ≤ 9 * 10 ^ l.length := Nat.mul_le_mul_right _ (by omega)
      omega
  refine ⟨h2 ▸ hlt ds h1, ?_, ?_⟩
  · exact List.length_pos_iff.2 hne
  · cases ds with
    | nil => exact absurd rfl hne
    | cons d ds =>
      by_cases hd : d = 0
      · left
        rcases h3 with h3 | h3
        · simp at h3; subst h3; subst hd; simp [ofDigits] at h2; simp [← h2]
        · simp [hd] at h3
      · right
        rw [← h2, ofDigits]
        simp only [List.length_cons, Nat.add_sub_cancel]
        have : 1 * 10 ^ ds.length ≤ d * 10 ^ ds.length := Nat.mul_le_mul_right _ (by omega)
        omega

/-- **C06.** The X and Y amounts of a CVM list are printed with equally many (at least 3) decimal
digits denoting their values. -/
theorem c06_amounts_aligned (v : CvmList) :
    ∃ dx dy, IsDecimal (padLeft0 (xyWidth v) (natToText v.xValue)) dx ∧
      IsDecimal (padLeft0 (xyWidth v) (natToText v.yValue)) dy ∧
      ofDigits 10 dx = v.xValue ∧ ofDigits 10 dy = v.yValue ∧ dx.length = dy.length ∧
      3 ≤ dx.length := by
  obtain ⟨dx, h1, h2, h3⟩ := padLeft0_spec (xyWidth v) v.xValue
  obtain ⟨dy, k1, k2, k3⟩ := padLeft0_spec (xyWidth v) v.yValue
  refine ⟨dx, dy, h1, k1, h2, k2, ?_, ?_⟩
  all_goals
    rw [xyWidth, numDecDigits_eq, numDecDigits_eq] at h3 k3
    omega

/-- **C06.** These texts are what the two amount lines show. -/
theorem c06_amount_lines (v : CvmList) (indentation : Nat) :
    (displayXY v indentation).text =
      List.replicate indentation '\t' ++ "X Value: ".toList ++ padLeft0 (xyWidth v) (natToText v.xValue) ++
      " (implicit decimal point based on application currency)\n".toList ++
      List.replicate indentation '\t' ++ "Y Value: ".toList ++ padLeft0 (xyWidth v) (natToText v.yValue) ++
      "\n".toList := by
  simp [displayXY, Disp.all, Disp.seq, Disp.text, evText, printIndentation, Disp.print, Disp.println,
    Disp.color, Disp.reset, Disp.nil]

example : numDecDigits 0 = 1 ∧ numDecDigits 9 = 1 ∧ numDecDigits 10 = 2 ∧ numDecDigits 4095 = 4 := by
  decide
example : padLeft0 (xyWidth ⟨5, 12345, []⟩) (natToText 5) = "00005".toList := by decide

/-! ### C07 -/

/-- **C07.** `parse_str_to_u16` succeeds exactly on trimmed optional-plus decimal numerals below
65536. -/
theorem c07_u16 (s : Text) (n : Nat) : parseStrToU16 s = .ok n ↔ IsU16Text s n := by
  have plus : decDigit? '+' = none := rfl
  have minus : decDigit? '-' = none := rfl
  have loop : ∀ t, u16DigitLoop 0 t = some n ↔ ∃ ds, IsDecimal t ds ∧ n = ofDigits 10 ds ∧ n < 65536 := by
    intro t
    rw [u16DigitLoop_eq t 0 (by omega) n]
    simp
  have from_ : ∀ t, u16FromStr t = some n ↔ ∃ t' ds, (t = t' ∨ t = '+' :: t') ∧ IsDecimal t' ds ∧
      ds ≠ [] ∧ n = ofDigits 10 ds ∧ n < 65536 := by
    intro t
    have nodec : ∀ c t, decDigit? c = none → ¬ ∃ ds, IsDecimal (c :: t) ds := by
      rintro c t hc ⟨ds, h⟩
      cases ds <;> simp [IsDecimal, hc] at h
    unfold u16FromStr
    split
    · simp only [reduceCtorEq, false_iff]
      rintro ⟨t', ds, h1, h2, h3, -⟩
      rcases h1 with rfl | h1
      · exact h3 (isDecimal_nil_left.1 h2)
      · cases h1
    · simp only [reduceCtorEq, false_iff]
      rintro ⟨t', ds, h1, h2, h3, -⟩
      rcases h1 with rfl | h1
      · exact nodec _ _ plus ⟨ds, h2⟩
      · cases h1; exact h3 (isDecimal_nil_left.1 h2)
    · simp only [reduceCtorEq, false_iff]
      rintro ⟨t', ds, h1, h2, h3, -⟩
      rcases h1 with rfl | h1
      · exact nodec _ _ minus ⟨ds, h2⟩
      · cases h1
    · rename_i _ t' hne
      rw [loop]
      constructor
      · rintro ⟨ds, h1, h2, h3⟩
        refine ⟨t', ds, Or.inr rfl, h1, ?_, h2, h3⟩
        rintro rfl
        have := isDecimal_length h1
        simp at this
        exact hne this
      · rintro ⟨t'', ds, h1, h2, h3, h4⟩
        rcases h1 with rfl | h1
        · exact absurd ⟨ds, h2⟩ (nodec _ _ plus)
        · cases h1; exact ⟨ds, h2, h4⟩
    · rename_i h1 h2 h3 h4
      rw [loop]
      constructor
      · rintro ⟨ds, k1, k2, k3⟩
        refine ⟨t, ds, Or.inl rfl, k1, ?_, k2, k3⟩
        rintro rfl
        have := isDecimal_length k1
        simp at this
        exact h1 this
      · rintro ⟨t', ds, k1, k2, k3, k4⟩
        rcases k1 with rfl | k1
        · exact ⟨ds, k2, k4⟩
        · exact absurd k1 (h4 t')
  have htrim := trimText_isTrim s
  rw [parseStrToU16]
  constructor
  · intro h
    cases hu : u16FromStr (trimText s) with
    | none => rw [hu] at h; cases h
    | some k =>
      rw [hu] at h; cases h
      obtain ⟨t, ds, h1, h2⟩ := (from_ _).1 hu
      refine ⟨t, ds, ?_, h2⟩
      rcases h1 with h1 | h1
      · exact Or.inl (h1 ▸ htrim)
      · exact Or.inr (h1 ▸ htrim)
  · rintro ⟨t, ds, h1, h2⟩
    have : u16FromStr (trimText s) = some n := by
      rw [from_]
      refine ⟨t, ds, ?_, h2⟩
      rcases h1 with h1 | h1
      · exact Or.inl (isTrim_unique htrim h1)
      · exact Or.inr (isTrim_unique htrim h1)
    rw [this]

/-- **C07.** Everything else is `InvalidNumber`; the value is determined by the text. -/
theorem c07_otherwise_invalid (s : Text) (h : ¬ ∃ n, IsU16Text s n) :
    parseStrToU16 s = .err .invalidNumber := by
  cases hp : parseStrToU16 s with
  | ok n => exact absurd ⟨n, (c07_u16 s n).1 hp⟩ h
  | _ => rw [parseStrToU16] at hp; split at hp <;> simp_all

example : parseStrToU16 " +00201\n".toList = .ok 201 ∧ parseStrToU16 "65536".toList = .err .invalidNumber ∧
    parseStrToU16 "-1".toList = .err .invalidNumber ∧ parseStrToU16 "+".toList = .err .invalidNumber ∧
    parseStrToU16 "2 01".toList = .err .invalidNumber := by decide
example : IsU16Text " +00201\n".toList 201 := (c07_u16 _ _).1 (by decide)

/-- Only the 26 letters are lower-cased. -/
example : (List.range 128).map (fun n => asciiLower (Char.ofNat n)) =
    (List.range 65).map Char.ofNat ++ "abcdefghijklmnopqrstuvwxyz".toList ++ (List.range' 91 37).map Char.ofNat := by decide +kernel

end Pemv
