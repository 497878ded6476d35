import Verif.Model.Util

/-!
# Raw TLV data structures and masking, src/emv/tlv_parsing/mod.rs
-/

namespace Pemv

/-- `TagClass`, src/emv/tlv_parsing/mod.rs:466-474. -/
inductive TagClass where
  | universal | application | contextSpecific | priv
  deriving DecidableEq, Repr

/-- `TryFrom<u8> for TagClass` generated by `enum_repr_fallible!` (src/macros.rs:145-155) from the
table in src/emv/tlv_parsing/mod.rs:466-474. -/
def TagClass.tryFrom (v : Byte) : Out TagClass :=
  if v = 0 then .ok .universal
  else if v = 1 then .ok .application
  else if v = 2 then .ok .contextSpecific
  else if v = 3 then .ok .priv
  else .err .nonCompliant

/-- `Display for TagClass`, src/emv/tlv_parsing/mod.rs:466-474. -/
def TagClass.text : TagClass → String
  | .universal => "Universal"
  | .application => "Application"
  | .contextSpecific => "Context-Specific"
  | .priv => "Private"

/-- `DataObjectType`, src/emv/tlv_parsing/mod.rs:477-480. -/
inductive DataObjectType where
  | primitive | constructed
  deriving DecidableEq, Repr

/-- `Display for DataObjectType`, src/emv/tlv_parsing/mod.rs:483-490. -/
def DataObjectType.text : DataObjectType → String
  | .primitive => "Primitive"
  | .constructed => "Constructed"

/-- `EmvData`, src/emv/tlv_parsing/mod.rs:495-498. -/
inductive EmvData where
  | normal (data : List Byte)
  | masked
  deriving DecidableEq, Repr

/-- `EmvData::len`, src/emv/tlv_parsing/mod.rs:503-508. -/
def EmvData.len : EmvData → Option Nat
  | .normal data => some data.length
  | .masked => none

/-- `byte as char`, src/emv/tlv_parsing/mod.rs:527: the scalar value U+0000..U+00FF. -/
def byteAsChar (b : Byte) : Char := Char.ofNat b.toNat

/-- `is_masked_u8`, src/emv/tlv_parsing/mod.rs:521-533 (`MASKING_CHAR_MINIMUM` = 2, line 519). -/
def isMaskedU8 (data : List Byte) (maskingCharacters : List Char) : Bool :=
  if data.length < 2 then false
  else maskingCharacters.any (fun maskingChar => data.all (fun b => byteAsChar b == maskingChar))

/-- `is_masked_str`, src/emv/tlv_parsing/mod.rs:535-547; `data.len()` is the UTF-8 length. -/
def isMaskedStr (data : Text) (maskingCharacters : List Char) : Bool :=
  if (asBytes data).length < 2 then false
  else maskingCharacters.any (fun maskingChar => data.all (fun c => c == maskingChar))

/-- `EmvData::from_u8_check_for_masked`, src/emv/tlv_parsing/mod.rs:510-516. -/
def EmvData.fromU8CheckForMasked (data : List Byte) (maskingCharacters : List Char) : EmvData :=
  if isMaskedU8 data maskingCharacters then .masked else .normal data

/-- `RawEmvTag`, src/emv/tlv_parsing/mod.rs:418-423. -/
structure RawEmvTag where
  tag : List Byte
  cls : TagClass
  dataObjectType : DataObjectType
  data : EmvData
  deriving DecidableEq, Repr

/-- `RawEmvNode`, src/emv/tlv_parsing/mod.rs:409-412. A `RawEmvBlock` (lines 384-386) is its list of
nodes. -/
inductive RawEmvNode where
  | mk (tag : RawEmvTag) (childBlock : List RawEmvNode)
  deriving Repr

/-- `RawEmvBlock`, src/emv/tlv_parsing/mod.rs:384-386. -/
abbrev RawEmvBlock := List RawEmvNode

/-- Field `tag`, src/emv/tlv_parsing/mod.rs:410. -/
def RawEmvNode.tag : RawEmvNode → RawEmvTag
  | .mk t _ => t

/-- Field `child_block`, src/emv/tlv_parsing/mod.rs:411. -/
def RawEmvNode.childBlock : RawEmvNode → RawEmvBlock
  | .mk _ c => c

/-- `TlvFormat`, src/emv/tlv_parsing/mod.rs:550-553. -/
inductive TlvFormat where
  | berTlv | ingenico
  deriving DecidableEq, Repr

/-- `Display for TlvFormat`, src/emv/tlv_parsing/mod.rs:556-563. -/
def TlvFormat.text : TlvFormat → String
  | .berTlv => "BER-TLV"
  | .ingenico => "Ingenico"

end Pemv
