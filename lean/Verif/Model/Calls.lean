import Verif.Model.Auto

/-!
# The parsers with a stack that has room for so many calls

Every call of `parse` of src/emv/tlv_parsing/ber_tlv.rs inside another one takes a part of the stack. Here the stack has
room for `k` of them inside each other; a program that needs more is aborted, which is `.diverge`.
Simplification: how much of the stack a call takes is not modelled, nor are the calls of other functions, which are
not inside each other in the parsers.
-/

namespace Pemv

/-- `parse`, src/emv/tlv_parsing/ber_tlv.rs:13-85, which calls itself at line 115, by way of line 71. -/
def berParseOn (k : Nat) (m : Machine) (bytes : List Byte) (masks : List Char) : Out RawEmvBlock :=
  match k with
  | 0 => .diverge
  | k + 1 => berLoop m masks (fun value => berParseOn k m value masks) bytes (bytes.length + 1) 0 []

/-- `parse`, src/emv/tlv_parsing/ingenico_tlv.rs:28-139, which calls the other one at line 128. -/
def ingParseOn (k : Nat) (m : Machine) (data : Text) (masks : List Char) : Out RawEmvBlock :=
  if !isAscii data then .err .nonCompliant
  else ingLoop m masks (fun value => berParseOn k m value masks) data (data.length + 1) 0 []

/-- `parse`, src/emv/tlv_parsing/auto_tlv.rs. -/
def autoParseOn (k : Nat) (m : Machine) (tlvStr : Text) (masks : List Char) : Out (TlvFormat × RawEmvBlock) :=
  if tlvStr = [] then .err .unrecognised
  else
    match ingParseOn k m tlvStr masks with
    | .ok block => .ok (.ingenico, block)
    | .panic => .panic
    | .diverge => .diverge
    | .err _ =>
      match berParseOn k m (parseHexStr tlvStr) masks with
      | .ok block => .ok (.berTlv, block)
      | .panic => .panic
      | .diverge => .diverge
      | .err _ => .err .unrecognised

end Pemv
