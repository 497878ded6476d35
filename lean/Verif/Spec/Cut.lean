import Verif.Spec.Whole
import Verif.Spec.Ingenico

/-!
# Specification of records written like BER-TLV objects
-/

namespace Pemv.Spec

/-- A hex record the digits of which, read one after the other, are those of a BER-TLV object: a whole tag, a length of
one byte in short form, and as many bytes of value. -/
structure Record.Canonical (r : Record) : Prop where
  typ : ¬ IsHex r.typ
  tagHex : ∀ c ∈ r.tagHex, IsHex c
  tagWhole : r.tagHex.length % 2 = 0
  tag : IsTag (hexBytes r.tagHex)
  lenHex : ∀ c ∈ r.lenHex, IsHex c
  lenWhole : r.lenHex.length = 2
  short : r.length < 128
  fmt : r.fmt = 'h'
  value : ∀ c ∈ r.value, IsHex c
  length : r.value.length = 2 * r.length

/-- The hex digits of a text. -/
def digitsIn (s : Text) : Text := s.filter (fun c => decide (IsHex c))

end Pemv.Spec
