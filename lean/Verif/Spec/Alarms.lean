import Verif.Spec.Complete

/-!
# Specification of what is shown in red and in yellow

Which bits of which data elements report that something went wrong (red) or may have gone wrong (yellow), by the
numbers of bytes (from 1) and bits (from 8 down to 1) of the EMV books.
-/

namespace Pemv.Spec

/-- Is this bit set? -/
def BitSet (bs : List Byte) (p : Nat × Nat) : Prop := bits (bs.getD (p.1 - 1) 0) p.2 p.2 = 1

/-- The bits of Terminal Verification Results that report errors (red) and warnings (yellow). -/
def tvrAlarms : Severity → List (Nat × Nat)
  | .error =>
    [(1, 7), (1, 6), (1, 5), (1, 4), (1, 3), (2, 7), (2, 6), (2, 5), (3, 6), (3, 5), (5, 7), (5, 6), (5, 5)]
  | .warning => [(2, 8), (2, 4), (3, 8), (3, 7), (3, 4)]
  | .normal => []

/-- The bits of Card Verification Results that report errors and warnings. -/
def cvrAlarms : Severity → List (Nat × Nat)
  | .error => [(1, 1), (2, 3), (2, 2), (4, 4)]
  | .warning => [(1, 2), (2, 1), (4, 3), (4, 1)]
  | .normal => []

/-- The Card Verification Results in Issuer Application Data: bytes 4 to 8. -/
def cvrOf (iad : List Byte) : List Byte := (iad.drop 3).take 5

/-- The value of a data element reports an error or a warning. Issuer action codes have the same bits as Terminal
Verification Results, but they are not results. -/
def Alarms (sev : Severity) (tag d : List Byte) : Prop :=
  (tag = [0x95] ∧ ∃ p ∈ tvrAlarms sev, BitSet d p) ∨
  (tag = [0x9F, 0x10] ∧ isFormatA d = true ∧ ∃ p ∈ cvrAlarms sev, BitSet (cvrOf d) p) ∨
  (tag = [0x9F, 0x34] ∧ sev = .error ∧ d.getD 2 0 = 1)

/-- A request is answered with an error or a warning. -/
def Alarming (masks : List Char) (sev : Severity) (op : Operation) (s : Text) : Prop :=
  match op with
  | .tvr => ∃ p ∈ tvrAlarms sev, BitSet (hexBytes s) p
  | .ccdCvr => ∃ p ∈ cvrAlarms sev, BitSet (hexBytes s) p
  | .ccdIad => ∃ p ∈ cvrAlarms sev, BitSet (cvrOf (hexBytes s)) p
  | .cvmResults => sev = .error ∧ (hexBytes s).getD 2 0 = 1
  | .autoTlv | .berTlv | .ingenicoTlv =>
    ∃ f b, BlockReads masks op s (.ok (f, b)) ∧ ∃ t ∈ blockTags b, ∃ d, t.data = .normal d ∧ Alarms sev t.tag d
  | _ => False

/-- Something is shown in a colour. -/
def InColour (colour : Colour) (cells : Cells) : Prop := ∃ x ∈ cells, x.2.fg = some colour

end Pemv.Spec
