import Verif.Model.Process

/-!
# Equality and order of blocks, src/emv/tlv_parsing/mod.rs

`RawEmvBlock`, `RawEmvNode` and `RawEmvTag` derive `PartialEq` and `Eq` (lines 383, 408, 417), which is the equality of
the model.
-/

namespace Pemv

/-- `Ord for Vec<u8>`: byte-lexicographic. -/
def bytesCmp : List Byte → List Byte → Ordering
  | [], [] => .eq
  | [], _ :: _ => .lt
  | _ :: _, [] => .gt
  | a :: as, b :: bs => if a < b then .lt else if b < a then .gt else bytesCmp as bs

/-- `Ord for RawEmvTag`, src/emv/tlv_parsing/mod.rs:426-430. -/
def RawEmvTag.cmp (a b : RawEmvTag) : Ordering := bytesCmp a.tag b.tag

/-- `PartialOrd for RawEmvTag`, src/emv/tlv_parsing/mod.rs:433-437. -/
def RawEmvTag.partialCmp (a b : RawEmvTag) : Option Ordering := some (a.cmp b)

/-- `PartialEq for ProcessedEmvTag`, src/emv/tlv_parsing/mod.rs:174-178. -/
def ProcessedEmvTag.eq (a b : ProcessedEmvTag) : Bool := decide (a.rawTag = b.rawTag)

/-- `Ord for ProcessedEmvTag`, src/emv/tlv_parsing/mod.rs:183-187. -/
def ProcessedEmvTag.cmp (a b : ProcessedEmvTag) : Ordering := a.rawTag.cmp b.rawTag

/-- `PartialOrd for ProcessedEmvTag`, src/emv/tlv_parsing/mod.rs:190-194. -/
def ProcessedEmvTag.partialCmp (a b : ProcessedEmvTag) : Option Ordering := some (a.cmp b)

mutual
/-- `PartialEq for ProcessedEmvNode`, derived, src/emv/tlv_parsing/mod.rs:98: field by field. -/
def ProcessedEmvNode.eq : ProcessedEmvNode → ProcessedEmvNode → Bool
  | .mk t c, .mk t' c' => t.eq t' && ProcessedEmvBlock.eq c c'

/-- `PartialEq for ProcessedEmvBlock`, derived, src/emv/tlv_parsing/mod.rs:31: of the vectors of nodes. -/
def ProcessedEmvBlock.eq : List ProcessedEmvNode → List ProcessedEmvNode → Bool
  | [], [] => true
  | n :: ns, n' :: ns' => n.eq n' && ProcessedEmvBlock.eq ns ns'
  | _, _ => false
end

/-- `Ord for ProcessedEmvNode`, src/emv/tlv_parsing/mod.rs:105-109. -/
def ProcessedEmvNode.cmp (a b : ProcessedEmvNode) : Ordering := a.tag.cmp b.tag

/-- `PartialOrd for ProcessedEmvNode`, src/emv/tlv_parsing/mod.rs:112-116. -/
def ProcessedEmvNode.partialCmp (a b : ProcessedEmvNode) : Option Ordering := some (a.cmp b)

end Pemv
