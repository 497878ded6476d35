import Verif.Spec.Run

/-!
# Specification: what can be wrong with what is given to an option (C97)
-/

namespace Pemv.Spec

/-- What can be wrong with the value of a data element inside a block. -/
inductive ValueError : ParseError → Prop
  /-- Most elements have a fixed size. -/
  | size (k n : Nat) (hk : k ∈ [1, 2, 3, 5]) (hn : n ≠ k) : ValueError (.byteCountIncorrect .eq k n)
  /-- A CVM list has at least its two amounts. -/
  | short (n : Nat) (hn : n < 8) : ValueError (.byteCountIncorrect .gt 8 n)
  /-- A CVM list has whole rules. -/
  | odd : ValueError .byteCountNotDivisibleIntoComponents
  /-- A service code is a number, a response code is text. -/
  | number : ValueError .invalidNumber
  /-- The result of CVM results is one of three. -/
  | code : ValueError .nonCompliant
  /-- A terminal type or a POS entry mode that is not listed. -/
  | unlisted : ValueError .unrecognised

/-- What can be wrong with what is given to an option. -/
inductive CanReport : Operation → ParseError → Prop
  | tvr (n : Nat) (hn : n ≠ 5) : CanReport .tvr (.byteCountIncorrect .eq 5 n)
  | ccdIad : CanReport .ccdIad .nonCcdCompliant
  | ccdCvr (n : Nat) (hn : n ≠ 5) : CanReport .ccdCvr (.byteCountIncorrect .eq 5 n)
  | tsi (n : Nat) (hn : n ≠ 2) : CanReport .tsi (.byteCountIncorrect .eq 2 n)
  | cvmResults (n : Nat) (hn : n ≠ 3) : CanReport .cvmResults (.byteCountIncorrect .eq 3 n)
  | cvmResultsCode : CanReport .cvmResults .nonCompliant
  | cvmList (n : Nat) (hn : n < 8) : CanReport .cvmList (.byteCountIncorrect .gt 8 n)
  | cvmListOdd : CanReport .cvmList .byteCountNotDivisibleIntoComponents
  | identify : CanReport .identify (.byteCountIncorrect .gt 1 0)
  | serviceCode : CanReport .serviceCode .invalidNumber
  | autoTlv : CanReport .autoTlv .unrecognised
  | autoTlvValue (e : ParseError) (h : ValueError e) : CanReport .autoTlv e
  | berTlv : CanReport .berTlv .nonCompliant
  | berTlvLength : CanReport .berTlv .unsupported
  | berTlvValue (e : ParseError) (h : ValueError e) : CanReport .berTlv e
  | ingenicoTlv : CanReport .ingenicoTlv .nonCompliant
  | ingenicoTlvLength : CanReport .ingenicoTlv .unsupported
  | ingenicoTlvValue (e : ParseError) (h : ValueError e) : CanReport .ingenicoTlv e

/-- The number of bytes found, if the error is about numbers of bytes, is below 2^32. -/
def SmallCount : ParseError → Prop
  | .byteCountIncorrect _ _ n => n < 2 ^ 32
  | _ => True

end Pemv.Spec
