import Verif.Spec.Run

/-!
# Specification: reserved codes (C98)
-/

namespace Pemv.Spec

/-- A word occurs in what is shown. -/
def Says (word : Text) (c : Cells) : Prop := word <:+: c.map Prod.fst

/-- The word for reserved codes. -/
def rfu : Text := ['R', 'F', 'U']

/-- A service code with a digit that ISO/IEC 7813 reserves. -/
def ReservedServiceCode (d1 d2 d3 : Nat) : Prop := d1 ∉ [1, 2, 5, 6, 7, 9] ∨ d2 ∉ [0, 2, 4] ∨ 7 < d3

/-- Card Verification Results with a reserved type of cryptogram (bits 8 and 7, or 6 and 5, of the first byte). -/
def ReservedCvr (bs : List Byte) : Prop := bits (bs.getD 0 0) 8 7 = 3 ∨ bits (bs.getD 0 0) 6 5 = 3

/-- The values of data elements that contain a reserved code. -/
def ReservedValue (tag d : List Byte) : Prop :=
  tag = [0x5F, 0x30] ∧
    ReservedServiceCode ((d.getD 0 0).toNat % 16) ((d.getD 1 0).toNat / 16) ((d.getD 1 0).toNat % 16) ∨
  tag = [0x9F, 0x10] ∧ isFormatA d = true ∧ ReservedCvr ((d.drop 3).take 5)

/-- A value that contains the word itself, within one row of sixteen bytes. -/
def SpellsRfu (d : List Byte) : Prop := ∃ row ∈ rowsOf16 d, [0x52, 0x46, 0x55] <:+: row

end Pemv.Spec
