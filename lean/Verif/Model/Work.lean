import Verif.Model.Auto

/-!
# The parsers with a count of the work they do

The functions of `Model/Ber`, `Model/Ingenico` and `Model/Auto` once more, with the same control flow, and with a
counter. What is counted:

* one step for every iteration of a loop of the code;
* for copying a slice (`to_vec`, `collect`) its length;
* for scanning a text or slice (`is_ascii`, `find`, `contains`, the pairing of hex digits) the number of elements
  looked at, or their total number where the scan may stop early;
* for `remove(0)` the number of elements that are moved;
* for a masking check the length of the value times the number of masking characters, although the check of one
  character stops at the first byte that differs.

Comparisons, additions, indexing, slicing without copying and pushing onto a vector are part of the iteration they
occur in. `C91` proves that the results are those of the functions without the counter.
-/

namespace Pemv

/-- A result, and the work that led to it. -/
structure Counted (α : Type) where
  out : Out α
  work : Nat

namespace Counted

/-- Sequencing: the work adds up, and what follows an error or a panic is not done. -/
def bind {α β : Type} (x : Counted α) (f : α → Counted β) : Counted β :=
  match x.out with
  | .ok a => ⟨(f a).out, x.work + (f a).work⟩
  | .err e => ⟨.err e, x.work⟩
  | .panic => ⟨.panic, x.work⟩
  | .diverge => ⟨.diverge, x.work⟩

instance : Monad Counted where
  pure a := ⟨.ok a, 0⟩
  bind := bind

/-- Something that is part of the current iteration. -/
def free {α : Type} (x : Out α) : Counted α := ⟨x, 0⟩

/-- `n` steps. -/
def tick (n : Nat) : Counted Unit := ⟨.ok (), n⟩

end Counted

open Counted

/-! ### src/emv/tlv_parsing/ber_tlv.rs -/

/-- `get_child_block`, src/emv/tlv_parsing/ber_tlv.rs:107-119. -/
def getChildBlockW (parse : List Byte → Counted RawEmvBlock) (dataObjectType : DataObjectType)
    (tagData : EmvData) : Counted RawEmvBlock :=
  match dataObjectType with
  | .primitive => free (.ok [])
  | .constructed =>
    match tagData with
    | .normal data => ⟨(parse data).out.unwrapOrDefault, (parse data).work⟩
    | .masked => free (.ok [])

/-- The loop `while tag_continues`, src/emv/tlv_parsing/ber_tlv.rs:25-33: a step for every iteration. -/
def berTagLoopW (m : Machine) (bytes : List Byte) : (fuel : Nat) → (i : Nat) → (tagContinues : Bool) →
    Counted Nat
  | _, i, false => free (.ok i)
  | 0, _, true => free .diverge
  | fuel + 1, i, true => do
    tick 1
    let i ← free (m.add i 1)
    if i ≥ bytes.length then free (.err .nonCompliant)
    else
      let b ← free (index bytes i)
      berTagLoopW m bytes fuel i (decide (0x80 &&& b > 0))

/-- The length field, src/emv/tlv_parsing/ber_tlv.rs:41-60: `byte_slice_to_u32` (src/util.rs:53-63) has a loop over
the bytes it gets. -/
def berLengthW (m : Machine) (bytes : List Byte) (i : Nat) : Counted (Nat × Nat) := do
  let lengthByte0 ← free (index bytes i)
  if 0x80 &&& lengthByte0 > 0 then
    let subsequentLengthByteCount := (0x7F &&& lengthByte0).toNat
    if subsequentLengthByteCount > 4 then free (.err .unsupported)
    else
      let startIndex := i
      let incr ← free (m.add 1 subsequentLengthByteCount)
      let i ← free (m.add i incr)
      if i ≥ bytes.length then free (.err .nonCompliant)
      else
        let first ← free (m.add startIndex 1)
        let last ← free (m.add startIndex subsequentLengthByteCount)
        let lengthBytes ← free (slice bytes first (last + 1))
        tick lengthBytes.length
        let length ← free (byteSliceToU32 lengthBytes)
        free (.ok (i, length))
  else
    let i ← free (m.add i 1)
    free (.ok (i, lengthByte0.toNat))

/-- One iteration of the outer loop, src/emv/tlv_parsing/ber_tlv.rs:18-81: the value is copied (line 69), checked for
masking, and parsed if constructed; the tag is copied (line 73). -/
def berStepW (m : Machine) (masks : List Char) (parse : List Byte → Counted RawEmvBlock)
    (bytes : List Byte) (i : Nat) : Counted (RawEmvNode × Nat) := do
  tick 1
  let tagStartIndex := i
  let tagByte0 ← free (index bytes i)
  let (cls, dataObjectType) ← free (parseTagMetadata tagByte0)
  let tagEndIndex ← berTagLoopW m bytes (bytes.length + 1) i (decide (0x1F &&& tagByte0 = 0x1F))
  let i ← free (m.add tagEndIndex 1)
  if i ≥ bytes.length then free (.err .nonCompliant)
  else
    let (i, length) ← berLengthW m bytes i
    let dataEnd ← free (m.add i length)
    let bound ← free (m.add bytes.length 1)
    if dataEnd ≥ bound then free (.err .nonCompliant)
    else
      let data ← free (slice bytes i dataEnd)
      tick data.length
      tick (masks.length * data.length)
      let tagData := EmvData.fromU8CheckForMasked data masks
      let childBlock ← getChildBlockW parse dataObjectType tagData
      let tag ← free (slice bytes tagStartIndex (tagEndIndex + 1))
      tick tag.length
      let i ← free (m.add i length)
      free (.ok (.mk ⟨tag, cls, dataObjectType, tagData⟩ childBlock, i))

/-- The outer loop, src/emv/tlv_parsing/ber_tlv.rs:17-84. -/
def berLoopW (m : Machine) (masks : List Char) (parse : List Byte → Counted RawEmvBlock)
    (bytes : List Byte) : (fuel : Nat) → (i : Nat) → (nodes : RawEmvBlock) → Counted RawEmvBlock
  | fuel, i, nodes =>
    if i < bytes.length then
      match fuel with
      | 0 => free .diverge
      | fuel + 1 => do
        let (node, i) ← berStepW m masks parse bytes i
        berLoopW m masks parse bytes fuel i (nodes ++ [node])
    else free (.ok nodes)

/-- `parse` with an explicit recursion budget. -/
def berParseFW (m : Machine) (masks : List Char) : (depth : Nat) → List Byte → Counted RawEmvBlock
  | 0, _ => free .diverge
  | depth + 1, bytes => berLoopW m masks (berParseFW m masks depth) bytes (bytes.length + 1) 0 []

/-- `parse`, src/emv/tlv_parsing/ber_tlv.rs:13-85. -/
def berParseW (m : Machine) (bytes : List Byte) (masks : List Char) : Counted RawEmvBlock :=
  berParseFW m masks (bytes.length + 1) bytes

/-! ### src/util.rs -/

/-- `parse_hex_str`, src/util.rs:18-35: every byte passes through `filter_map`. -/
def parseHexStrW (s : Text) : Counted (List Byte) := do
  tick (asBytes s).length
  free (.ok (parseHexStr s))

/-- `parse_hex_str_strict`, src/util.rs:38-46: `is_ascii`, `contains`, and `parse_hex_str` if both are passed. -/
def parseHexStrStrictW (s : Text) : Counted (List Byte) := do
  tick (asBytes s).length
  tick s.length
  if !isAscii s || s.any (fun c => !isHexByte (charAsU8 c)) then free (.err .invalidBytes)
  else parseHexStrW s

/-- `trim_leading_0_bytes`, src/util.rs:102-110: `remove(0)` moves all the bytes that are left. -/
def trimLeading0BytesW : List Byte → Counted (List Byte)
  | a :: b :: rest => do
    tick 1
    if a = 0 then
      tick (b :: rest).length
      trimLeading0BytesW (b :: rest)
    else free (.ok (a :: b :: rest))
  | l => free (.ok l)

/-! ### src/emv/tlv_parsing/ingenico_tlv.rs -/

/-- `Result::map_err`, used at src/emv/tlv_parsing/ingenico_tlv.rs:53, 70, 111. -/
def Counted.mapErr {α : Type} (x : Counted α) (f : ParseError → ParseError) : Counted α :=
  ⟨x.out.mapErr f, x.work⟩

/-- `data[index..].find(':')`, src/emv/tlv_parsing/ingenico_tlv.rs:47-50 and 62-65: the characters up to the colon,
and the colon, or all of them. -/
def findColonW (m : Machine) (data : Text) (i : Nat) : Counted Nat := do
  let rest ← free (slice data i data.length)
  match rest.findIdx? (· == ':') with
  | some k => do
    tick (k + 1)
    free (m.add i k)
  | none => do
    tick rest.length
    free (.err .nonCompliant)

/-- The value part of a record, src/emv/tlv_parsing/ingenico_tlv.rs:81-116. -/
def ingValueW (m : Machine) (masks : List Char) (data : Text) (i : Nat) (length : Nat) :
    Counted (EmvData × Nat) := do
  let dataFormat ← free (index data i)
  if dataFormat = 'a' then
    let i ← free (m.add i 1)
    let e ← free (m.add i length)
    if e > data.length then free (.err .nonCompliant)
    else
      let tagDataStr ← free (slice data i e)
      let i ← free (m.add i length)
      tick (masks.length * tagDataStr.length)
      if isMaskedStr tagDataStr masks then free (.ok (.masked, i))
      else
        tick (asBytes tagDataStr).length
        free (.ok (.normal (asBytes tagDataStr), i))
  else if dataFormat = 'h' then
    let charLength ← free (m.mul length 2)
    let i ← free (m.add i 1)
    let e ← free (m.add i charLength)
    if e > data.length then free (.err .nonCompliant)
    else
      let tagDataStr ← free (slice data i e)
      let i ← free (m.add i charLength)
      tick (masks.length * tagDataStr.length)
      if isMaskedStr tagDataStr masks then free (.ok (.masked, i))
      else
        let bytes ← (parseHexStrStrictW tagDataStr).mapErr (fun _ => .nonCompliant)
        free (.ok (.normal bytes, i))
  else free (.err .nonCompliant)

/-- One iteration of the loop, src/emv/tlv_parsing/ingenico_tlv.rs:39-135. -/
def ingStepW (m : Machine) (masks : List Char) (parse : List Byte → Counted RawEmvBlock) (data : Text)
    (i : Nat) : Counted (Option RawEmvNode × Nat) := do
  tick 1
  -- Tag Type
  let tagType ← free (index data i)
  let i ← free (m.add i 1)
  if i ≥ data.length then free (.err .nonCompliant)
  else
    -- Tag ID
    let colonIndex ← findColonW m data i
    let tagIdStr ← free (slice data i colonIndex)
    let tagIdBytes ← (parseHexStrStrictW tagIdStr).mapErr (fun _ => .nonCompliant)
    let tagIdBytes ← trimLeading0BytesW tagIdBytes
    let i ← free (m.add colonIndex 1)
    if i ≥ data.length ∨ tagIdBytes = [] then free (.err .nonCompliant)
    else
      let tagByte0 ← free (index tagIdBytes 0)
      let (cls, dataObjectType) ← free (parseTagMetadata tagByte0)
      -- Tag Length
      let colonIndex ← findColonW m data i
      let lengthStr ← free (slice data i colonIndex)
      let lengthBytes ← (parseHexStrStrictW lengthStr).mapErr (fun _ => .nonCompliant)
      if lengthBytes.length > 4 then free (.err .unsupported)
      else
        tick lengthBytes.length
        let length ← free (byteSliceToU32 lengthBytes)
        let i ← free (m.add colonIndex 1)
        if i ≥ data.length then free (.err .nonCompliant)
        else
          -- Tag Data
          let (tagData, i) ← ingValueW m masks data i length
          -- Field separator
          let i ← free (m.add i 1)
          if tagType ≠ 'T' then free (.ok (none, i))
          else
            let childBlock ← getChildBlockW parse dataObjectType tagData
            free (.ok (some (.mk ⟨tagIdBytes, cls, dataObjectType, tagData⟩ childBlock), i))

/-- The loop, src/emv/tlv_parsing/ingenico_tlv.rs:38-138. -/
def ingLoopW (m : Machine) (masks : List Char) (parse : List Byte → Counted RawEmvBlock) (data : Text) :
    (fuel : Nat) → (i : Nat) → (nodes : RawEmvBlock) → Counted RawEmvBlock
  | fuel, i, nodes =>
    if i < data.length then
      match fuel with
      | 0 => free .diverge
      | fuel + 1 => do
        let (node, i) ← ingStepW m masks parse data i
        ingLoopW m masks parse data fuel i (nodes ++ node.toList)
    else free (.ok nodes)

/-- `parse`, src/emv/tlv_parsing/ingenico_tlv.rs:28-139: `is_ascii` (line 30), then the characters are collected
(line 34). -/
def ingParseW (m : Machine) (data : Text) (masks : List Char) : Counted RawEmvBlock := do
  tick (asBytes data).length
  if !isAscii data then free (.err .nonCompliant)
  else
    tick data.length
    ingLoopW m masks (fun bytes => berParseW m bytes masks) data (data.length + 1) 0 []

/-! ### src/emv/tlv_parsing/auto_tlv.rs -/

/-- `parse`, src/emv/tlv_parsing/auto_tlv.rs:16-39. -/
def autoParseW (m : Machine) (tlvStr : Text) (masks : List Char) : Counted (TlvFormat × RawEmvBlock) :=
  if tlvStr = [] then free (.err .unrecognised)
  else
    let ing := ingParseW m tlvStr masks
    match ing.out with
    | .ok block => ⟨.ok (.ingenico, block), ing.work⟩
    | .panic => ⟨.panic, ing.work⟩
    | .diverge => ⟨.diverge, ing.work⟩
    | .err _ =>
      let ber : Counted RawEmvBlock := do
        let bytes ← parseHexStrW tlvStr
        berParseW m bytes masks
      match ber.out with
      | .ok block => ⟨.ok (.berTlv, block), ing.work + ber.work⟩
      | .panic => ⟨.panic, ing.work + ber.work⟩
      | .diverge => ⟨.diverge, ing.work + ber.work⟩
      | .err _ => ⟨.err .unrecognised, ing.work + ber.work⟩

end Pemv
