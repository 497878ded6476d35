import Verif.Model.Ber
import Verif.Model.Values

/-!
# Tag identification and processing, src/emv/tlv_parsing/process_emv_tag.rs and mod.rs
-/

namespace Pemv

/-- `identify_tag`, src/emv/tlv_parsing/process_emv_tag.rs:31-156: a `match` on slice literals. -/
def identifyTag (tag : List Byte) : Option String := tagTable.lookup tag

/-- The `Box<dyn DisplayBreakdown>` of a parsed tag: one constructor per value type that
`process_emv_tag` produces. -/
inductive ParsedValue where
  | serviceCode (v : ServiceCode)
  | authorisationResponseCode (v : Variant Text)
  | cvmList (v : CvmList)
  | tvr (v : Value)
  | tsi (v : Value)
  | transactionType (v : Variant Byte)
  | iac (kind : IacKind) (tvr : Value)
  | iad (v : Iad)
  | terminalCapabilities (v : Value)
  | cvmResults (v : CvmResults)
  | terminalType (v : Variant Byte)
  | posEntryMode (v : Variant Byte)
  | additionalTerminalCapabilities (v : Value)
  deriving DecidableEq, Repr

/-- `ProcessedEmvTag`, src/emv/tlv_parsing/mod.rs:158-171. -/
inductive ProcessedEmvTag where
  | raw (rawTag : RawEmvTag)
  | annotated (name : String) (rawTag : RawEmvTag)
  | parsed (name : String) (parsed : ParsedValue) (rawTag : RawEmvTag)
  deriving DecidableEq, Repr

/-- `get_raw_tag`, src/emv/tlv_parsing/mod.rs:198-204. -/
def ProcessedEmvTag.rawTag : ProcessedEmvTag → RawEmvTag
  | .raw t => t
  | .annotated _ t => t
  | .parsed _ _ t => t

/-- `parse_raw`, src/emv/tlv_parsing/mod.rs:206-222. -/
def parseRaw (name : String) (rawTag : RawEmvTag) (parsingFn : List Byte → Out ParsedValue) :
    Out ProcessedEmvTag :=
  match rawTag.data with
  | .normal data => do
    let p ← parsingFn data
    .ok (.parsed name p rawTag)
  | .masked => .ok (.annotated name rawTag)

/-- `parse_raw_unrecognised`, src/emv/tlv_parsing/mod.rs:233-267. -/
def parseRawUnrecognised (nameRecognised nameUnrecognised : String) (rawTag : RawEmvTag)
    (parsingFn : List Byte → Out ParsedValue) (isUnrecognisedError : ParseError → Bool) :
    Out ProcessedEmvTag :=
  match rawTag.data with
  | .normal data =>
    match parsingFn data with
    | .ok p => .ok (.parsed nameRecognised p rawTag)
    | .err e => if isUnrecognisedError e then .ok (.annotated nameUnrecognised rawTag) else .err e
    | .panic => .panic
    | .diverge => .diverge
  | .masked => .ok (.annotated nameRecognised rawTag)

/-- `process_emv_tag`, src/emv/tlv_parsing/process_emv_tag.rs:165-251. -/
def processEmvTag (rawTag : RawEmvTag) : Out ProcessedEmvTag :=
  match identifyTag rawTag.tag with
  | none => .ok (.raw rawTag)
  | some name =>
    if rawTag.tag = [0x5F, 0x30] then
      parseRaw name rawTag (fun d => (ServiceCode.tryFrom d).map .serviceCode)
    else if rawTag.tag = [0x8A] then
      parseRawUnrecognised name
        "Authorisation Response Code (Unrecognised - likely payment system-specific)" rawTag
        (fun d => (arcTryFrom d).map .authorisationResponseCode) (fun e => e == .unrecognised)
    else if rawTag.tag = [0x8E] then
      parseRaw name rawTag (fun d => (CvmList.tryFrom d).map .cvmList)
    else if rawTag.tag = [0x95] then
      parseRaw name rawTag (fun d => (tvrLayout.tryFrom d).map .tvr)
    else if rawTag.tag = [0x9B] then
      parseRaw name rawTag (fun d => (tsiLayout.tryFrom d).map .tsi)
    else if rawTag.tag = [0x9C] then
      parseRawUnrecognised name "Transaction Type (Unrecognised - likely payment system-specific)"
        rawTag (fun d => (transactionTypeTryFrom d).map .transactionType) (fun e => e == .unrecognised)
    else if rawTag.tag = [0x9F, 0x0D] then
      parseRaw name rawTag (fun d => (iacTryFrom .default d).map (.iac .default))
    else if rawTag.tag = [0x9F, 0x0E] then
      parseRaw name rawTag (fun d => (iacTryFrom .denial d).map (.iac .denial))
    else if rawTag.tag = [0x9F, 0x0F] then
      parseRaw name rawTag (fun d => (iacTryFrom .online d).map (.iac .online))
    else if rawTag.tag = [0x9F, 0x10] then
      parseRawUnrecognised "Issuer Application Data (CCD-Compliant)"
        "Issuer Application Data (Not CCD-Compliant)" rawTag
        (fun d => (Iad.tryFrom d).map .iad) (fun e => e == .nonCcdCompliant)
    else if rawTag.tag = [0x9F, 0x33] then
      parseRaw name rawTag (fun d => (terminalCapabilitiesLayout.tryFrom d).map .terminalCapabilities)
    else if rawTag.tag = [0x9F, 0x34] then
      parseRaw name rawTag (fun d => (CvmResults.tryFrom d).map .cvmResults)
    else if rawTag.tag = [0x9F, 0x35] then
      parseRaw name rawTag (fun d => (terminalTypeTryFrom d).map .terminalType)
    else if rawTag.tag = [0x9F, 0x39] then
      parseRaw name rawTag (fun d => (posEntryModeTryFrom d).map .posEntryMode)
    else if rawTag.tag = [0x9F, 0x40] then
      parseRaw name rawTag
        (fun d => (additionalTerminalCapabilitiesLayout.tryFrom d).map .additionalTerminalCapabilities)
    else .ok (.annotated name rawTag)

/-- `ProcessedEmvNode` and `ProcessedEmvBlock`, src/emv/tlv_parsing/mod.rs:32-34, 99-102. -/
inductive ProcessedEmvNode where
  | mk (tag : ProcessedEmvTag) (childBlock : List ProcessedEmvNode)
  deriving Repr

/-- `ProcessedEmvBlock`, src/emv/tlv_parsing/mod.rs:32-34. -/
abbrev ProcessedEmvBlock := List ProcessedEmvNode

/-- Field `tag`, src/emv/tlv_parsing/mod.rs:100. -/
def ProcessedEmvNode.tag : ProcessedEmvNode → ProcessedEmvTag
  | .mk t _ => t

/-- Field `child_block`, src/emv/tlv_parsing/mod.rs:101. -/
def ProcessedEmvNode.childBlock : ProcessedEmvNode → ProcessedEmvBlock
  | .mk _ c => c

mutual
/-- `TryFrom<RawEmvNode> for ProcessedEmvNode`, src/emv/tlv_parsing/mod.rs:145-154: the tag first,
then the children. -/
def processNode : RawEmvNode → Out ProcessedEmvNode
  | .mk tag children => do
    let t ← processEmvTag tag
    let c ← processBlock children
    .ok (.mk t c)

/-- `TryFrom<RawEmvBlock> for ProcessedEmvBlock`, src/emv/tlv_parsing/mod.rs:85-96. -/
def processBlock : RawEmvBlock → Out ProcessedEmvBlock
  | [] => .ok []
  | node :: nodes => do
    let n ← processNode node
    let ns ← processBlock nodes
    .ok (n :: ns)
end

/-- `TagBasicInfo`, src/emv/tag_basic_info.rs:24-29. -/
structure TagBasicInfo where
  tag : List Byte
  name : Option String
  cls : TagClass
  dataObjectType : DataObjectType
  deriving DecidableEq, Repr

/-- `TryFrom<&[u8]> for TagBasicInfo`, src/emv/tag_basic_info.rs:31-53. -/
def TagBasicInfo.tryFrom (tag : List Byte) : Out TagBasicInfo :=
  if tag.length < 1 then .err (.byteCountIncorrect .gt 1 tag.length)
  else do
    let name := identifyTag tag
    let b0 ← index tag 0
    let (cls, dataObjectType) ← parseTagMetadata b0
    .ok ⟨tag, name, cls, dataObjectType⟩

/-! ### Sorting, src/emv/tlv_parsing/mod.rs:57-62 -/

/-- `Ord for Vec<u8>`: byte-lexicographic `≤` (used through mod.rs:105-109, 183-187, 426-430). -/
def bytesLe : List Byte → List Byte → Bool
  | [], _ => true
  | _ :: _, [] => false
  | a :: as, b :: bs => if a < b then true else if b < a then false else bytesLe as bs

/-- The sort key of a node: the raw tag's bytes only, src/emv/tlv_parsing/mod.rs:105-109, 183-187,
426-430. -/
def ProcessedEmvNode.key (n : ProcessedEmvNode) : List Byte := n.tag.rawTag.tag

/-- Insertion before the first strictly greater-or-equal element (keeps equal elements in order when
used from the right). -/
def insertNode (n : ProcessedEmvNode) : ProcessedEmvBlock → ProcessedEmvBlock
  | [] => [n]
  | x :: xs => if bytesLe n.key x.key then n :: x :: xs else x :: insertNode n xs

/-- `Vec::sort` (src/emv/tlv_parsing/mod.rs:58): a stable sort. Modelled by insertion sort; any stable
sort gives the same result (proved, `stable_sort_unique`). -/
def stableSort : ProcessedEmvBlock → ProcessedEmvBlock
  | [] => []
  | x :: xs => insertNode x (stableSort xs)

mutual
/-- A node with its child block sorted, src/emv/tlv_parsing/mod.rs:59-61. -/
def sortNode : ProcessedEmvNode → ProcessedEmvNode
  | .mk tag children => .mk tag (stableSort (sortEach children))

/-- All nodes of a list with their child blocks sorted. -/
def sortEach : ProcessedEmvBlock → ProcessedEmvBlock
  | [] => []
  | n :: ns => sortNode n :: sortEach ns
end

/-- `sort_nodes`, src/emv/tlv_parsing/mod.rs:57-62. The Rust code sorts the list first and the child
blocks afterwards; since the key does not involve the children the order does not matter
(proved, `sortNodes_eq`). -/
def sortNodes (b : ProcessedEmvBlock) : ProcessedEmvBlock := stableSort (sortEach b)

end Pemv
