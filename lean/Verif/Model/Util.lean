import Verif.Model.Basic

/-!
# src/util.rs (parsing half)
-/

namespace Pemv

/-! ### `parse_str_to_u16`, src/util.rs:9-11 -/

/-- Unicode `White_Space`, used by Rust's `str::trim` (called in src/util.rs:10). -/
def isRustWhitespace (c : Char) : Bool :=
  let n := c.toNat
  (0x09 ≤ n && n ≤ 0x0D) || n == 0x20 || n == 0x85 || n == 0xA0 || n == 0x1680 ||
  (0x2000 ≤ n && n ≤ 0x200A) || n == 0x2028 || n == 0x2029 || n == 0x202F || n == 0x205F ||
  n == 0x3000

/-- Rust's `str::trim` (called in src/util.rs:10). -/
def trimText (s : Text) : Text :=
  ((s.dropWhile isRustWhitespace).reverse.dropWhile isRustWhitespace).reverse

/-- The value of an ASCII decimal digit. -/
def decDigitVal (c : Char) : Option Nat :=
  if '0' ≤ c ∧ c ≤ '9' then some (c.toNat - '0'.toNat) else none

/-- The digit loop of Rust's `u16::from_str` (called in src/util.rs:10): `checked_mul(10)`,
`checked_add(digit)`, failing on the first non-digit or overflow. -/
def u16DigitLoop : Nat → Text → Option Nat
  | acc, [] => some acc
  | acc, c :: cs =>
    match decDigitVal c with
    | none => none
    | some d =>
      if acc * 10 ≥ 65536 then none
      else if acc * 10 + d ≥ 65536 then none
      else u16DigitLoop (acc * 10 + d) cs

/-- Rust's `u16::from_str` (called in src/util.rs:10): empty, a lone sign, or a `-` are errors; one
leading `+` is allowed. -/
def u16FromStr (s : Text) : Option Nat :=
  match s with
  | [] => none
  | ['+'] => none
  | ['-'] => none
  | '+' :: cs => u16DigitLoop 0 cs
  | cs => u16DigitLoop 0 cs

/-- `parse_str_to_u16`, src/util.rs:9-11. -/
def parseStrToU16 (s : Text) : Out Nat :=
  match u16FromStr (trimText s) with
  | some n => .ok n
  | none => .err .invalidNumber

/-! ### Hex parsing, src/util.rs:18-46 -/

/-- The closure of `filter_map`, src/util.rs:22-27. -/
def hexVal (b : Byte) : Option Byte :=
  if 0x30 ≤ b ∧ b ≤ 0x39 then some (b - 0x30)
  else if 0x61 ≤ b ∧ b ≤ 0x66 then some (b - 0x61 + 10)
  else if 0x41 ≤ b ∧ b ≤ 0x46 then some (b - 0x41 + 10)
  else none

/-- The `while let` loop pairing nibbles, src/util.rs:30-34. -/
def pairNibbles : List Byte → List Byte
  | h :: l :: rest => ((h <<< 4) ||| l) :: pairNibbles rest
  | _ => []

/-- `parse_hex_str`, src/util.rs:18-35. -/
def parseHexStr (s : Text) : List Byte := pairNibbles ((asBytes s).filterMap hexVal)

/-- `str::is_ascii`, used at src/util.rs:39 and src/emv/tlv_parsing/ingenico_tlv.rs:30: all UTF-8
bytes are below 0x80. -/
def isAscii (s : Text) : Bool := (asBytes s).all (· < 0x80)

/-- `c as u8` on a `char`: truncation to the low 8 bits (src/util.rs:40). -/
def charAsU8 (c : Char) : Byte := UInt8.ofNat (c.toNat % 256)

/-- The `matches!` of src/util.rs:40. -/
def isHexByte (b : Byte) : Bool :=
  (0x30 ≤ b && b ≤ 0x39) || (0x61 ≤ b && b ≤ 0x66) || (0x41 ≤ b && b ≤ 0x46)

/-- `parse_hex_str_strict`, src/util.rs:38-46. -/
def parseHexStrStrict (s : Text) : Out (List Byte) :=
  if !isAscii s || s.any (fun c => !isHexByte (charAsU8 c)) then .err .invalidBytes
  else .ok (parseHexStr s)

/-! ### Integers from bytes, src/util.rs:49-80 -/

/-- The `for` loop filling the fixed-size array from the right, src/util.rs:57-60, 74-77. -/
def rightAlign (width : Nat) (bytes : List Byte) : List Byte :=
  List.replicate (width - bytes.length) 0 ++ bytes

/-- `u32::from_be_bytes` / `u64::from_be_bytes`, src/util.rs:62, 79. -/
def fromBeBytes (bytes : List Byte) : Nat := bytes.foldl (fun acc b => acc * 256 + b.toNat) 0

/-- `byte_slice_to_u32`, src/util.rs:53-63 (`assert!` fails with a panic). -/
def byteSliceToU32 (bytes : List Byte) : Out Nat :=
  if bytes.length ≤ 4 then .ok (fromBeBytes (rightAlign 4 bytes)) else .panic

/-- `byte_slice_to_u64`, src/util.rs:70-80. -/
def byteSliceToU64 (bytes : List Byte) : Out Nat :=
  if bytes.length ≤ 8 then .ok (fromBeBytes (rightAlign 8 bytes)) else .panic

/-! ### `bytes_to_str`, src/util.rs:83-98 -/

/-- `nibble_to_char`, src/util.rs:84-90; `unreachable!` is a panic. -/
def nibbleToChar (num : Byte) : Out Char :=
  if num ≤ 9 then .ok (Char.ofNat (num + 0x30).toNat)
  else if num ≤ 15 then .ok (Char.ofNat ((num - 10) + 0x41).toNat)
  else .panic

/-- `bytes_to_str`, src/util.rs:83-98. -/
def bytesToStr : List Byte → Out Text
  | [] => .ok []
  | byte :: rest => do
    let h ← nibbleToChar ((0xF0 &&& byte) >>> 4)
    let l ← nibbleToChar (0x0F &&& byte)
    let tail ← bytesToStr rest
    .ok (h :: l :: tail)

/-! ### `trim_leading_0_bytes`, `num_dec_digits`, src/util.rs:102-118 -/

/-- `trim_leading_0_bytes`, src/util.rs:102-110: the loop runs while at least two bytes are left. -/
def trimLeading0Bytes : List Byte → List Byte
  | a :: b :: rest => if a = 0 then trimLeading0Bytes (b :: rest) else a :: b :: rest
  | l => l

/-- The `successors` iterator of src/util.rs:117, with fuel. -/
def decSuccessors : Nat → Nat → List Nat
  | 0, _ => []
  | fuel + 1, n => n :: (if n ≥ 10 then decSuccessors fuel (n / 10) else [])

/-- `num_dec_digits`, src/util.rs:116-118. The fuel `value + 1` is more than enough. -/
def numDecDigits (value : Nat) : Nat := (decSuccessors (value + 1) value).length

end Pemv
