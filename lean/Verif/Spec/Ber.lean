import Verif.Spec.Text
import Verif.Model.Tlv

/-!
# Specification of BER-TLV data and of masking

Written on values of the code's data types (`RawEmvNode` and its parts), without using its functions.
-/

namespace Pemv.Spec

/-- A value consisting of at least two copies of one masking character. -/
def IsMasked (value : Text) (masks : List Char) : Prop :=
  2 ≤ value.length ∧ ∃ m ∈ masks, ∀ c ∈ value, c = m

/-- Bytes read as characters U+0000 to U+00FF. -/
def latin1 (bs : List Byte) : Text := bs.map (fun b => Char.ofNat b.toNat)

/-- Well-formed BER tags: one byte unless its low five bits are all set, in which case bytes with the
top bit set follow, and one without. -/
inductive IsTag : List Byte → Prop
  | low (b : Byte) (h : b.toNat % 32 ≠ 31) : IsTag [b]
  | high (b : Byte) (mid : List Byte) (last : Byte) (h : b.toNat % 32 = 31)
      (hmid : ∀ c ∈ mid, 128 ≤ c.toNat) (hlast : last.toNat < 128) : IsTag (b :: (mid ++ [last]))

/-- The definite length fields the parser supports: one byte below 128, or 128 plus the number (up to
four) of length bytes that follow. -/
inductive IsLength : List Byte → Nat → Prop
  | short (b : Byte) (h : b.toNat < 128) : IsLength [b] b.toNat
  | long (b : Byte) (ds : List Byte) (h : b.toNat = 128 + ds.length) (h4 : ds.length ≤ 4) :
      IsLength (b :: ds) (beValue ds)

/-- One encoded data object. -/
structure Elem where
  tag : List Byte
  len : List Byte
  value : List Byte
  deriving DecidableEq, Repr

/-- Its bytes. -/
def Elem.bytes (e : Elem) : List Byte := e.tag ++ e.len ++ e.value

/-- Its tag is a tag and its length field denotes the length of its value. -/
def Elem.WF (e : Elem) : Prop := IsTag e.tag ∧ IsLength e.len e.value.length

/-- It has an empty value, with the length written in long form. -/
def Elem.LongZero (e : Elem) : Prop := e.value = [] ∧ ∃ b, e.len.head? = some b ∧ 128 ≤ b.toNat

/-- The bytes of a sequence of objects. -/
def concat (es : List Elem) : List Byte := es.flatMap Elem.bytes

/-- `es` is a sequence of well-formed objects the last of which does not have a long-form zero
length. -/
def IsBlock (es : List Elem) : Prop :=
  (∀ e ∈ es, e.WF) ∧ ∀ e, es.getLast? = some e → ¬ e.LongZero

/-- Tag class by the top two bits of the first tag byte. -/
def classOf (tag : List Byte) : TagClass :=
  match tag.head? with
  | none => .universal
  | some b => match b.toNat / 64 with
    | 0 => .universal
    | 1 => .application
    | 2 => .contextSpecific
    | _ => .priv

/-- Object type by bit 6 (value 32) of the first tag byte. -/
def typeOf (tag : List Byte) : DataObjectType :=
  match tag.head? with
  | none => .primitive
  | some b => if b.toNat / 32 % 2 = 1 then .constructed else .primitive

open Classical in
/-- The data of an object: hidden if the value is masked. -/
noncomputable def dataOf (value : List Byte) (masks : List Char) : EmvData :=
  if IsMasked (latin1 value) masks then .masked else .normal value

open Classical in
/-- The node an object must be reported as, given the parser used for nested values: children only for
constructed, unmasked objects whose value parses on its own. -/
noncomputable def nodeOf (parse : List Byte → Out RawEmvBlock) (masks : List Char) (e : Elem) :
    RawEmvNode :=
  .mk ⟨e.tag, classOf e.tag, typeOf e.tag, dataOf e.value masks⟩
    (if typeOf e.tag = .constructed ∧ ¬ IsMasked (latin1 e.value) masks then
      match parse e.value with
      | .ok b => b
      | _ => []
    else [])

/-- Data objects as trees. -/
inductive Obj where
  | prim (tag value : List Byte)
  | cons (tag : List Byte) (children : List Obj)

/-- The shortest big-endian form of a number below 2^32. -/
def minBytes (n : Nat) : List Byte :=
  if n < 256 then [UInt8.ofNat n]
  else if n < 256 ^ 2 then [UInt8.ofNat (n / 256), UInt8.ofNat n]
  else if n < 256 ^ 3 then [UInt8.ofNat (n / 256 ^ 2), UInt8.ofNat (n / 256), UInt8.ofNat n]
  else [UInt8.ofNat (n / 256 ^ 3), UInt8.ofNat (n / 256 ^ 2), UInt8.ofNat (n / 256), UInt8.ofNat n]

/-- The minimal definite length field. -/
def encodeLength (n : Nat) : List Byte :=
  if n < 128 then [UInt8.ofNat n] else UInt8.ofNat (128 + (minBytes n).length) :: minBytes n

mutual
/-- Encoding of one object. -/
def Obj.encode : Obj → List Byte
  | .prim tag value => tag ++ encodeLength value.length ++ value
  | .cons tag children =>
    tag ++ encodeLength (encodeAll children).length ++ encodeAll children
/-- Encoding of a forest. -/
def encodeAll : List Obj → List Byte
  | [] => []
  | o :: os => o.encode ++ encodeAll os
end

mutual
/-- An encodable object: well-formed tags of the right type, values that fit into a four-byte length,
and no value that looks masked. -/
def Obj.WF (masks : List Char) : Obj → Prop
  | .prim tag value => IsTag tag ∧ typeOf tag = .primitive ∧ value.length < 2 ^ 32 ∧
      ¬ IsMasked (latin1 value) masks
  | .cons tag children => IsTag tag ∧ typeOf tag = .constructed ∧
      (encodeAll children).length < 2 ^ 32 ∧ ¬ IsMasked (latin1 (encodeAll children)) masks ∧
      allWF masks children
/-- Every object of a forest is encodable. -/
def allWF (masks : List Char) : List Obj → Prop
  | [] => True
  | o :: os => o.WF masks ∧ allWF masks os
end

mutual
/-- The node an object must come back as. -/
def Obj.node : Obj → RawEmvNode
  | .prim tag value => .mk ⟨tag, classOf tag, .primitive, .normal value⟩ []
  | .cons tag children =>
    .mk ⟨tag, classOf tag, .constructed, .normal (encodeAll children)⟩ (nodes children)
/-- The nodes of a forest. -/
def nodes : List Obj → List RawEmvNode
  | [] => []
  | o :: os => o.node :: nodes os
end

mutual
/-- Nesting depth of a node (a node without children has depth 1). -/
def nodeDepth : RawEmvNode → Nat
  | .mk _ c => 1 + blockDepth c
/-- Nesting depth of a block. -/
def blockDepth : List RawEmvNode → Nat
  | [] => 0
  | n :: ns => max (nodeDepth n) (blockDepth ns)
end

/-- A node occurs in a block at some depth. -/
inductive InBlock (n : RawEmvNode) : List RawEmvNode → Prop
  | here {ns : List RawEmvNode} (h : n ∈ ns) : InBlock n ns
  | deep {ns : List RawEmvNode} {p : RawEmvNode} (hp : p ∈ ns) (h : InBlock n p.childBlock) : InBlock n ns

mutual
/-- Number of objects of a node, itself included. -/
def nodeSize : RawEmvNode → Nat
  | .mk _ c => 1 + blockSize c
/-- Number of objects at all levels. -/
def blockSize : List RawEmvNode → Nat
  | [] => 0
  | n :: ns => nodeSize n + blockSize ns
end

/-- `d` templates around an empty object. -/
def nest : Nat → Obj
  | 0 => .prim [0x5A] []
  | d + 1 => .cons [0x70] [nest d]

/-- The targets for which inputs of length `n` are safe: room for `n` plus two four-byte lengths. -/
def Fits (m : Machine) (n : Nat) : Prop := n + 2 ^ 34 ≤ 2 ^ m.usizeBits

end Pemv.Spec
