import Verif.Model.Ber

/-!
# The Ingenico TLV parser, src/emv/tlv_parsing/ingenico_tlv.rs

Past the `is_ascii` check every character is one byte, so the byte offsets used for slicing the string
and the indices into `data_chars` coincide (`asBytes_length_of_ascii` in the proofs); slices are taken
on the list of characters.
-/

namespace Pemv

/-- `match &data[index..].find(':')`, src/emv/tlv_parsing/ingenico_tlv.rs:47-50 and 62-65: the slice
may panic, a missing separator is `NonCompliant`. -/
def findColon (m : Machine) (data : Text) (i : Nat) : Out Nat := do
  let rest ← slice data i data.length
  match rest.findIdx? (· == ':') with
  | some k => m.add i k
  | none => .err .nonCompliant

/-- The value part of a record, src/emv/tlv_parsing/ingenico_tlv.rs:81-116. Returns the data and the
new index. -/
def ingValue (m : Machine) (masks : List Char) (data : Text) (i : Nat) (length : Nat) :
    Out (EmvData × Nat) := do
  let dataFormat ← index data i
  if dataFormat = 'a' then
    let i ← m.add i 1
    let e ← m.add i length
    if e > data.length then .err .nonCompliant
    else
      let tagDataStr ← slice data i e
      let i ← m.add i length
      if isMaskedStr tagDataStr masks then .ok (.masked, i)
      else .ok (.normal (asBytes tagDataStr), i)
  else if dataFormat = 'h' then
    let charLength ← m.mul length 2
    let i ← m.add i 1
    let e ← m.add i charLength
    if e > data.length then .err .nonCompliant
    else
      let tagDataStr ← slice data i e
      let i ← m.add i charLength
      if isMaskedStr tagDataStr masks then .ok (.masked, i)
      else
        let bytes ← (parseHexStrStrict tagDataStr).mapErr (fun _ => .nonCompliant)
        .ok (.normal bytes, i)
  else .err .nonCompliant

/-- One iteration of the loop, src/emv/tlv_parsing/ingenico_tlv.rs:39-135. Returns the node to push,
if any, and the new index. -/
def ingStep (m : Machine) (masks : List Char) (parse : List Byte → Out RawEmvBlock) (data : Text)
    (i : Nat) : Out (Option RawEmvNode × Nat) := do
  -- Tag Type
  let tagType ← index data i
  let i ← m.add i 1
  if i ≥ data.length then .err .nonCompliant
  else
    -- Tag ID
    let colonIndex ← findColon m data i
    let tagIdStr ← slice data i colonIndex
    let tagIdBytes ← (parseHexStrStrict tagIdStr).mapErr (fun _ => .nonCompliant)
    let tagIdBytes := trimLeading0Bytes tagIdBytes
    let i ← m.add colonIndex 1
    if i ≥ data.length ∨ tagIdBytes = [] then .err .nonCompliant
    else
      let tagByte0 ← index tagIdBytes 0
      let (cls, dataObjectType) ← parseTagMetadata tagByte0
      -- Tag Length
      let colonIndex ← findColon m data i
      let lengthStr ← slice data i colonIndex
      let lengthBytes ← (parseHexStrStrict lengthStr).mapErr (fun _ => .nonCompliant)
      if lengthBytes.length > 4 then .err .unsupported
      else
        let length ← byteSliceToU32 lengthBytes
        let i ← m.add colonIndex 1
        if i ≥ data.length then .err .nonCompliant
        else
          -- Tag Data
          let (tagData, i) ← ingValue m masks data i length
          -- Field separator
          let i ← m.add i 1
          if tagType ≠ 'T' then .ok (none, i)
          else
            let childBlock ← getChildBlock parse dataObjectType tagData
            .ok (some (.mk ⟨tagIdBytes, cls, dataObjectType, tagData⟩ childBlock), i)

/-- The loop, src/emv/tlv_parsing/ingenico_tlv.rs:38-138. -/
def ingLoop (m : Machine) (masks : List Char) (parse : List Byte → Out RawEmvBlock) (data : Text) :
    (fuel : Nat) → (i : Nat) → (nodes : RawEmvBlock) → Out RawEmvBlock
  | fuel, i, nodes =>
    if i < data.length then
      match fuel with
      | 0 => .diverge
      | fuel + 1 => do
        let (node, i) ← ingStep m masks parse data i
        ingLoop m masks parse data fuel i (nodes ++ node.toList)
    else .ok nodes

/-- `parse`, src/emv/tlv_parsing/ingenico_tlv.rs:28-139. Nested values are parsed as BER-TLV
(`get_child_block`, line 128). -/
def ingParse (m : Machine) (data : Text) (masks : List Char) : Out RawEmvBlock :=
  if !isAscii data then .err .nonCompliant
  else ingLoop m masks (fun bytes => berParse m bytes masks) data (data.length + 1) 0 []

end Pemv
