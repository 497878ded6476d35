import Verif.Model.Ingenico

/-!
# Automatic format detection, src/emv/tlv_parsing/auto_tlv.rs
-/

namespace Pemv

/-- `parse`, src/emv/tlv_parsing/auto_tlv.rs:16-39. -/
def autoParse (m : Machine) (tlvStr : Text) (masks : List Char) : Out (TlvFormat × RawEmvBlock) :=
  if tlvStr = [] then .err .unrecognised
  else
    match ingParse m tlvStr masks with
    | .ok block => .ok (.ingenico, block)
    | .panic => .panic
    | .diverge => .diverge
    | .err _ =>
      match berParse m (parseHexStr tlvStr) masks with
      | .ok block => .ok (.berTlv, block)
      | .panic => .panic
      | .diverge => .diverge
      | .err _ => .err .unrecognised

end Pemv
