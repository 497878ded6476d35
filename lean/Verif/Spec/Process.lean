import Verif.Spec.Ber
import Verif.Spec.Codes
import Verif.Model.Process

/-!
# Specification of tag processing
-/

namespace Pemv.Spec

/-- The raw tag under an annotation. -/
def rawOf : ProcessedEmvTag → RawEmvTag
  | .raw t => t
  | .annotated _ t => t
  | .parsed _ _ t => t

/-- The name attached to a tag. -/
def nameOf : ProcessedEmvTag → Option String
  | .raw _ => none
  | .annotated n _ => some n
  | .parsed n _ _ => some n

/-- The decoded value attached to a tag. -/
def valueOf : ProcessedEmvTag → Option ParsedValue
  | .parsed _ v _ => some v
  | _ => none

mutual
/-- A processed node without its annotations. -/
def eraseNode : ProcessedEmvNode → RawEmvNode
  | .mk t c => .mk (rawOf t) (eraseBlock c)
/-- A processed block without its annotations. -/
def eraseBlock : List ProcessedEmvNode → List RawEmvNode
  | [] => []
  | n :: ns => eraseNode n :: eraseBlock ns
end

mutual
/-- The tags of a node in document order: itself, then its children. -/
def nodeTags : RawEmvNode → List RawEmvTag
  | .mk t c => t :: blockTags c
/-- The tags of a block in document order. -/
def blockTags : List RawEmvNode → List RawEmvTag
  | [] => []
  | n :: ns => nodeTags n ++ blockTags ns
end

mutual
/-- The processed tags of a node in document order. -/
def nodeProcessed : ProcessedEmvNode → List ProcessedEmvTag
  | .mk t c => t :: blockProcessed c
/-- The processed tags of a block in document order. -/
def blockProcessed : List ProcessedEmvNode → List ProcessedEmvTag
  | [] => []
  | n :: ns => nodeProcessed n ++ blockProcessed ns
end

/-- Valid UTF-8. -/
def IsUtf8 (bs : List Byte) : Prop := ∃ s : List Char, s.flatMap String.utf8EncodeChar = bs

/-- The values that are acceptable for a tag. -/
structure Acceptable (tag value : List Byte) : Prop where
  /-- Service code: four BCD digits, at most 0999. -/
  h5F30 : tag = [0x5F, 0x30] → ∃ d1 d2 d3 : Nat, d1 ≤ 9 ∧ d2 ≤ 9 ∧ d3 ≤ 9 ∧
    value = [UInt8.ofNat d1, UInt8.ofNat (16 * d2 + d3)]
  /-- Authorisation response code: two bytes of text. -/
  h8A : tag = [0x8A] → value.length = 2 ∧ IsUtf8 value
  /-- CVM list: two amounts and any number of rules. -/
  h8E : tag = [0x8E] → ∃ k, value.length = 8 + 2 * k
  /-- TVR, issuer action codes, additional terminal capabilities. -/
  h5 : tag ∈ [[0x95], [0x9F, 0x0D], [0x9F, 0x0E], [0x9F, 0x0F], [0x9F, 0x40]] → value.length = 5
  /-- TSI. -/
  h9B : tag = [0x9B] → value.length = 2
  /-- Transaction type. -/
  h9C : tag = [0x9C] → value.length = 1
  /-- Terminal capabilities. -/
  h9F33 : tag = [0x9F, 0x33] → value.length = 3
  /-- CVM results. -/
  h9F34 : tag = [0x9F, 0x34] → ∃ a b c : Byte, value = [a, b, c] ∧ c.toNat ≤ 2
  /-- Terminal type. -/
  h9F35 : tag = [0x9F, 0x35] → ∃ b : Byte, value = [b] ∧ (terminalType b.toNat).isSome
  /-- POS entry mode. -/
  h9F39 : tag = [0x9F, 0x39] → ∃ b : Byte, value = [b] ∧ (posEntryModes.lookup b.toNat).isSome

/-- The data element each tag stands for, by the decoder of that element. -/
def decoders : List (List Byte × (List Byte → Out ParsedValue)) := [
  ([0x5F, 0x30], fun d => (ServiceCode.tryFrom d).map .serviceCode),
  ([0x8A], fun d => (arcTryFrom d).map .authorisationResponseCode),
  ([0x8E], fun d => (CvmList.tryFrom d).map .cvmList),
  ([0x95], fun d => (tvrLayout.tryFrom d).map .tvr),
  ([0x9B], fun d => (tsiLayout.tryFrom d).map .tsi),
  ([0x9C], fun d => (transactionTypeTryFrom d).map .transactionType),
  ([0x9F, 0x0D], fun d => (tvrLayout.tryFrom d).map (.iac .default)),
  ([0x9F, 0x0E], fun d => (tvrLayout.tryFrom d).map (.iac .denial)),
  ([0x9F, 0x0F], fun d => (tvrLayout.tryFrom d).map (.iac .online)),
  ([0x9F, 0x10], fun d => (Iad.tryFrom d).map .iad),
  ([0x9F, 0x33], fun d => (terminalCapabilitiesLayout.tryFrom d).map .terminalCapabilities),
  ([0x9F, 0x34], fun d => (CvmResults.tryFrom d).map .cvmResults),
  ([0x9F, 0x35], fun d => (terminalTypeTryFrom d).map .terminalType),
  ([0x9F, 0x39], fun d => (posEntryModeTryFrom d).map .posEntryMode),
  ([0x9F, 0x40],
    fun d => (additionalTerminalCapabilitiesLayout.tryFrom d).map .additionalTerminalCapabilities)]

/-- The errors that mean "a value this program does not know" rather than "malformed", and the name shown
then. -/
def tolerated : List (List Byte × ParseError × String) := [
  ([0x8A], .unrecognised, "Authorisation Response Code (Unrecognised - likely payment system-specific)"),
  ([0x9C], .unrecognised, "Transaction Type (Unrecognised - likely payment system-specific)"),
  ([0x9F, 0x10], .nonCcdCompliant, "Issuer Application Data (Not CCD-Compliant)")]

end Pemv.Spec
