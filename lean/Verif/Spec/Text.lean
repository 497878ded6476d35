import Verif.Model.Basic

/-!
# Specifications about texts, hex and numbers

Written without reference to the model's functions.
-/

namespace Pemv.Spec

/-- The hex digits and their values. -/
def hexDigits : List (Char × Nat) :=
  [('0', 0), ('1', 1), ('2', 2), ('3', 3), ('4', 4), ('5', 5), ('6', 6), ('7', 7), ('8', 8), ('9', 9),
   ('a', 10), ('b', 11), ('c', 12), ('d', 13), ('e', 14), ('f', 15),
   ('A', 10), ('B', 11), ('C', 12), ('D', 13), ('E', 14), ('F', 15)]

/-- The value of a character as a hex digit, if it is one. -/
def hexDigit? (c : Char) : Option Nat := hexDigits.lookup c

/-- Is the character a hex digit? -/
def IsHex (c : Char) : Prop := (hexDigit? c).isSome

instance (c : Char) : Decidable (IsHex c) := inferInstanceAs (Decidable ((hexDigit? c).isSome = true))

/-- Pair digits up from the left; an unpaired last digit is dropped. -/
def pairUp : List Nat → List Nat
  | h :: l :: rest => (16 * h + l) :: pairUp rest
  | _ => []

/-- The byte values denoted by the hex digits of a text. -/
def hexDecode (s : Text) : List Nat := pairUp (s.filterMap hexDigit?)

/-- The value of a digit sequence in a base, most significant digit first. -/
def ofDigits (base : Nat) : List Nat → Nat
  | [] => 0
  | d :: ds => d * base ^ ds.length + ofDigits base ds

/-- The big-endian value of bytes. -/
def beValue (bs : List Byte) : Nat := ofDigits 256 (bs.map UInt8.toNat)

/-- The value of a decimal digit. -/
def decDigit? (c : Char) : Option Nat :=
  [('0', 0), ('1', 1), ('2', 2), ('3', 3), ('4', 4), ('5', 5), ('6', 6), ('7', 7), ('8', 8),
   ('9', 9)].lookup c

/-- `ds` are the decimal digit values of the characters of `t`. -/
def IsDecimal (t : Text) (ds : List Nat) : Prop := t.map decDigit? = ds.map some

/-- Unicode `White_Space` (as listed in PropList.txt). -/
def whiteSpace : List Nat :=
  [0x09, 0x0A, 0x0B, 0x0C, 0x0D, 0x20, 0x85, 0xA0, 0x1680, 0x2000, 0x2001, 0x2002, 0x2003, 0x2004,
   0x2005, 0x2006, 0x2007, 0x2008, 0x2009, 0x200A, 0x2028, 0x2029, 0x202F, 0x205F, 0x3000]

/-- White-space characters. -/
def IsWs (c : Char) : Prop := c.toNat ∈ whiteSpace

/-- `t` is `s` without surrounding white space. -/
def IsTrim (s t : Text) : Prop :=
  ∃ a b, s = a ++ t ++ b ∧ (∀ c ∈ a, IsWs c) ∧ (∀ c ∈ b, IsWs c) ∧
    (∀ c, t.head? = some c → ¬ IsWs c) ∧ (∀ c, t.getLast? = some c → ¬ IsWs c)

/-- The texts accepted as a decimal `u16`, and their values. -/
def IsU16Text (s : Text) (n : Nat) : Prop :=
  ∃ t ds, (IsTrim s t ∨ IsTrim s ('+' :: t)) ∧ IsDecimal t ds ∧ ds ≠ [] ∧ n = ofDigits 10 ds ∧ n < 65536

/-- ASCII lower-casing of a character. -/
def asciiLower (c : Char) : Char := if 'A' ≤ c ∧ c ≤ 'Z' then Char.ofNat (c.toNat + 32) else c

end Pemv.Spec
