import Verif.Model.Tlv

/-!
# The BER-TLV parser, src/emv/tlv_parsing/ber_tlv.rs

The loops of the Rust code run over indices into the byte slice; so do the Lean functions. `m` is the
compilation target, `child` the recursive call on a nested value.
-/

namespace Pemv

/-- `parse_tag_metadata`, src/emv/tlv_parsing/ber_tlv.rs:89-101. The `expect` of line 90 is a panic. -/
def parseTagMetadata (tagByte0 : Byte) : Out (TagClass × DataObjectType) := do
  let cls ← (TagClass.tryFrom ((0xC0 &&& tagByte0) >>> 6)).expect
  let dataObjectType :=
    if 0x20 &&& tagByte0 > 0 then DataObjectType.constructed else DataObjectType.primitive
  .ok (cls, dataObjectType)

/-- `get_child_block`, src/emv/tlv_parsing/ber_tlv.rs:107-119, with the recursive `parse` as a
parameter. -/
def getChildBlock (parse : List Byte → Out RawEmvBlock) (dataObjectType : DataObjectType)
    (tagData : EmvData) : Out RawEmvBlock :=
  match dataObjectType with
  | .primitive => .ok []
  | .constructed =>
    match tagData with
    | .normal data => (parse data).unwrapOrDefault
    | .masked => .ok []

/-- The inner loop `while tag_continues`, src/emv/tlv_parsing/ber_tlv.rs:25-33. Returns
`tag_end_index` (line 34). -/
def berTagLoop (m : Machine) (bytes : List Byte) : (fuel : Nat) → (i : Nat) → (tagContinues : Bool) →
    Out Nat
  | _, i, false => .ok i
  | 0, _, true => .diverge
  | fuel + 1, i, true => do
    let i ← m.add i 1
    if i ≥ bytes.length then .err .nonCompliant
    else
      let b ← index bytes i
      berTagLoop m bytes fuel i (decide (0x80 &&& b > 0))

/-- The length field, src/emv/tlv_parsing/ber_tlv.rs:41-60. Returns the index after the length
field and the length. -/
def berLength (m : Machine) (bytes : List Byte) (i : Nat) : Out (Nat × Nat) := do
  let lengthByte0 ← index bytes i
  if 0x80 &&& lengthByte0 > 0 then
    let subsequentLengthByteCount := (0x7F &&& lengthByte0).toNat
    if subsequentLengthByteCount > 4 then .err .unsupported
    else
      let startIndex := i
      let incr ← m.add 1 subsequentLengthByteCount
      let i ← m.add i incr
      if i ≥ bytes.length then .err .nonCompliant
      else
        let first ← m.add startIndex 1
        let last ← m.add startIndex subsequentLengthByteCount
        let lengthBytes ← slice bytes first (last + 1)
        let length ← byteSliceToU32 lengthBytes
        .ok (i, length)
  else
    let i ← m.add i 1
    .ok (i, lengthByte0.toNat)

/-- One iteration of the outer loop, src/emv/tlv_parsing/ber_tlv.rs:18-81. Returns the pushed node
and the new index. -/
def berStep (m : Machine) (masks : List Char) (parse : List Byte → Out RawEmvBlock)
    (bytes : List Byte) (i : Nat) : Out (RawEmvNode × Nat) := do
  let tagStartIndex := i
  let tagByte0 ← index bytes i
  let (cls, dataObjectType) ← parseTagMetadata tagByte0
  let tagEndIndex ← berTagLoop m bytes (bytes.length + 1) i (decide (0x1F &&& tagByte0 = 0x1F))
  let i ← m.add tagEndIndex 1
  if i ≥ bytes.length then .err .nonCompliant
  else
    let (i, length) ← berLength m bytes i
    let dataEnd ← m.add i length
    let bound ← m.add bytes.length 1
    if dataEnd ≥ bound then .err .nonCompliant
    else
      let data ← slice bytes i dataEnd
      let tagData := EmvData.fromU8CheckForMasked data masks
      let childBlock ← getChildBlock parse dataObjectType tagData
      let tag ← slice bytes tagStartIndex (tagEndIndex + 1)
      let i ← m.add i length
      .ok (.mk ⟨tag, cls, dataObjectType, tagData⟩ childBlock, i)

/-- The outer loop `while index < bytes_len`, src/emv/tlv_parsing/ber_tlv.rs:17-84. `nodes` is the
vector filled by `push` (line 70). -/
def berLoop (m : Machine) (masks : List Char) (parse : List Byte → Out RawEmvBlock)
    (bytes : List Byte) : (fuel : Nat) → (i : Nat) → (nodes : RawEmvBlock) → Out RawEmvBlock
  | fuel, i, nodes =>
    if i < bytes.length then
      match fuel with
      | 0 => .diverge
      | fuel + 1 => do
        let (node, i) ← berStep m masks parse bytes i
        berLoop m masks parse bytes fuel i (nodes ++ [node])
    else .ok nodes

/-- `parse` with an explicit recursion budget. -/
def berParseF (m : Machine) (masks : List Char) : (depth : Nat) → List Byte → Out RawEmvBlock
  | 0, _ => .diverge
  | depth + 1, bytes => berLoop m masks (berParseF m masks depth) bytes (bytes.length + 1) 0 []

/-- `parse`, src/emv/tlv_parsing/ber_tlv.rs:13-85. Budgets: each iteration of the outer loop advances
the index and each recursion is on a strictly shorter slice, so `len + 1` is enough for both (proved:
`diverge` never occurs). -/
def berParse (m : Machine) (bytes : List Byte) (masks : List Char) : Out RawEmvBlock :=
  berParseF m masks (bytes.length + 1) bytes

end Pemv
