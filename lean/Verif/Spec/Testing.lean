import Verif.Model.Testing

/-!
# What the tests that go through a type examine

The tests of src/testing_macros.rs look at the input without any bit and at the inputs with exactly one bit.
-/

namespace Pemv.Spec

/-- The input of `n` bytes in which only bit `j` (the lowest is 0) of byte `i` is set. -/
def oneBit (n i j : Nat) : List Byte :=
  List.replicate i 0 ++ UInt8.ofNat (2 ^ j) :: List.replicate (n - i - 1) 0

/-- A type of `n` bytes made of flags only, its bytes given in order. -/
structure Flags (l : Layout) (n : Nat) : Prop where
  bytes : l.numBytes = n
  inOrder : l.rows.map (·.1) = List.range n
  flags : ∀ r ∈ l.rows, ∀ f ∈ r.2, f.ty = .bool ∧ f.shift = none

/-- Does the flag look at bit `j` of its byte? -/
def Field.looksAt (f : Field) (j : Nat) : Prop := f.mask.toNat.testBit j = true

/-- No flag looks at several bits. -/
def OneBitEach (l : Layout) : Prop :=
  ∀ r ∈ l.rows, ∀ f ∈ r.2, ∀ j k, Field.looksAt f j → Field.looksAt f k → j = k

/-- No two flags of a byte look at the same bit. -/
def OwnBits (l : Layout) : Prop :=
  ∀ r ∈ l.rows, r.2.Pairwise (fun f g => ∀ j, ¬ (Field.looksAt f j ∧ Field.looksAt g j))

/-- Bit `j` of byte `i` is used. -/
def UsedBit (l : Layout) (i j : Nat) : Prop := ∃ r ∈ l.rows, r.1 = i ∧ ∃ f ∈ r.2, Field.looksAt f j

/-- Bit `j` of byte `i` of an input. -/
def inputBit (bs : List Byte) (i j : Nat) : Bool := (bs.getD i 0).toNat.testBit j

/-- `bs'` is `bs` without the bits that are not used. -/
def UsedPart (l : Layout) (bs bs' : List Byte) : Prop :=
  bs'.length = bs.length ∧ ∀ i j, inputBit bs' i j = true ↔ inputBit bs i j = true ∧ UsedBit l i j

/-- The same masks: two types that differ in names, texts and severities only. -/
def SameMasks (l l' : Layout) : Prop :=
  l.rows.map (fun r => r.2.map Field.mask) = l'.rows.map (fun r => r.2.map Field.mask)

/-- The first range shown for a value whose offset is not among those that are shown for the empty value. -/
def newRange (l : Layout) (empty v : Value) : Option EnabledBitRange :=
  (l.bitDisplayInformation v).find? (fun r => decide (r.offset ∉ (l.bitDisplayInformation empty).map (·.offset)))

end Pemv.Spec
