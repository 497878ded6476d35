import Verif.Spec.Document
import Verif.Spec.Ingenico

/-!
# Specification of C110: what is copied from a dump
-/

namespace Pemv.Spec

/-- The value of the hex digit whose ASCII code a byte is, if it is one. -/
def digitOfByte (b : Byte) : Option Nat :=
  if 48 ≤ b.toNat ∧ b.toNat ≤ 57 then some (b.toNat - 48)
  else if 65 ≤ b.toNat ∧ b.toNat ≤ 70 then some (b.toNat - 55)
  else if 97 ≤ b.toNat ∧ b.toNat ≤ 102 then some (b.toNat - 87)
  else none

/-- The dump of a value with readable text, as it is seen at a level of indentation. -/
def seenDump (level : Nat) (d : List Byte) : Text := (showLines level (dumpWithText d)).map Prod.fst

/-- The first 47 columns of every line, the tabs at its beginning not counted; `k` characters of the first line have
been passed already. -/
def columnsFrom : Nat → Text → Text
  | _, [] => []
  | k, c :: cs =>
    if c = '\n' then '\n' :: columnsFrom 0 cs
    else if c = '\t' then '\t' :: columnsFrom k cs
    else if k < 47 then c :: columnsFrom (k + 1) cs
    else columnsFrom (k + 1) cs

/-- The columns with the hex digits. -/
def hexColumns (t : Text) : Text := columnsFrom 0 t

/-- The whole lines of the dump denote the bytes all the same: no byte is the code of a hex digit, or only one is,
and all bytes on the lines below consist of that digit twice. -/
def WholeLinesDo (d : List Byte) : Prop :=
  (∀ b ∈ d, digitOfByte b = none) ∨
  ∃ above line below v, rowsOf16 d = above ++ line :: below ∧ line.filterMap digitOfByte = [v] ∧
    (∀ r ∈ above, ∀ b ∈ r, digitOfByte b = none) ∧
    ∀ r ∈ below, ∀ b ∈ r, digitOfByte b = none ∧ b.toNat = 17 * v

/-- What may be copied from the dump of a value: the columns with the hex digits, or the whole lines if that does. -/
def CopyOf (d : List Byte) (s : Text) : Prop :=
  ∃ level, level < 256 ∧ (s = hexColumns (seenDump level d) ∨ WholeLinesDo d ∧ s = seenDump level d)

end Pemv.Spec
