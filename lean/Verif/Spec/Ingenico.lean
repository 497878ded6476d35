import Verif.Spec.Ber

/-!
# Specification of the Ingenico text format
-/

namespace Pemv.Spec

/-- The bytes a hex text denotes. -/
def hexBytes (t : Text) : List Byte := (hexDecode t).map UInt8.ofNat

/-- A tag without superfluous leading zero bytes; a tag of zero bytes only is the single byte zero. -/
def stripZeros (bs : List Byte) : List Byte :=
  match bs.dropWhile (fun b => b == 0) with
  | [] => bs.drop (bs.length - 1)
  | t => t

/-- The fields of one record. -/
structure Record where
  typ : Char
  tagHex : Text
  lenHex : Text
  fmt : Char
  value : Text
  deriving DecidableEq, Repr

namespace Record

/-- Its text: type, tag, colon, length, colon, format, value. -/
def text (r : Record) : Text :=
  r.typ :: (r.tagHex ++ ':' :: (r.lenHex ++ ':' :: r.fmt :: r.value))

/-- Its tag. -/
def tag (r : Record) : List Byte := stripZeros (hexBytes r.tagHex)

/-- The length as the code reads it: an unpaired last digit is ignored (see C27). -/
def length (r : Record) : Nat := beValue (hexBytes r.lenHex)

/-- Well-formed records. -/
structure WF (masks : List Char) (r : Record) : Prop where
  tagHex : ∀ c ∈ r.tagHex, IsHex c
  tagLen : 2 ≤ r.tagHex.length
  lenHex : ∀ c ∈ r.lenHex, IsHex c
  lenLen : r.lenHex.length ≤ 9
  value : (r.fmt = 'a' ∧ r.value.length = r.length) ∨
    (r.fmt = 'h' ∧ r.value.length = 2 * r.length ∧
      ((∀ c ∈ r.value, IsHex c) ∨ IsMasked r.value masks))

open Classical in
/-- The data of a record. -/
noncomputable def data (masks : List Char) (r : Record) : EmvData :=
  if IsMasked r.value masks then .masked
  else if r.fmt = 'h' then .normal (hexBytes r.value)
  else .normal (r.value.map (fun c => UInt8.ofNat c.toNat))

end Record

/-- The children of an object: those of a constructed, unmasked object whose value parses. -/
def childrenOf (parse : List Byte → Out RawEmvBlock) (type : DataObjectType) (data : EmvData) :
    RawEmvBlock :=
  match type, data with
  | .constructed, .normal v =>
    match parse v with
    | .ok b => b
    | _ => []
  | _, _ => []

/-- The node a record must be reported as. -/
noncomputable def Record.node (parse : List Byte → Out RawEmvBlock) (masks : List Char) (r : Record) :
    RawEmvNode :=
  .mk ⟨r.tag, classOf r.tag, typeOf r.tag, r.data masks⟩ (childrenOf parse (typeOf r.tag) (r.data masks))

/-- Texts made of records, each followed by one arbitrary separator character, optional after the
last. -/
inductive IsIngenico (masks : List Char) : Text → List Record → Prop
  | nil : IsIngenico masks [] []
  | last (r : Record) (h : r.WF masks) : IsIngenico masks r.text [r]
  | cons (r : Record) (h : r.WF masks) (sep : Char) (rest : Text) (rs : List Record)
      (hrest : IsIngenico masks rest rs) : IsIngenico masks (r.text ++ sep :: rest) (r :: rs)

/-- The records that carry EMV data. -/
def emvRecords (rs : List Record) : List Record := rs.filter (fun r => r.typ == 'T')

/-- The upper-case hex text of bytes. -/
def hexText (bs : List Byte) : Text :=
  bs.flatMap (fun b => ["0123456789ABCDEF".toList[b.toNat / 16]!, "0123456789ABCDEF".toList[b.toNat % 16]!])

/-- Records, each followed by a separator. -/
def render (l : List (Record × Char)) : Text := l.flatMap (fun p => p.1.text ++ [p.2])

/-- A data object written as a record, with its value in ASCII or in hex. -/
def writeRecord (ascii : Bool) (tag value : List Byte) : Record :=
  ⟨'T', hexText tag, hexText (minBytes value.length), if ascii then 'a' else 'h',
    if ascii then latin1 value else hexText value⟩

/-- Texts that differ at most in the letter case of hex digits. -/
def SameHex : Text → Text → Prop
  | [], [] => True
  | c :: s, c' :: s' => (c = c' ∨ ∃ d, hexDigit? c = some d ∧ hexDigit? c' = some d) ∧ SameHex s s'
  | _, _ => False

/-- Records that differ only in letter case of hex digits and in leading zero bytes of the tag. -/
structure SameRecord (r r' : Record) : Prop where
  typ : r.typ = r'.typ
  fmt : r.fmt = r'.fmt
  tag : ∃ n n' t t', r.tagHex = List.replicate (2 * n) '0' ++ t ∧
    r'.tagHex = List.replicate (2 * n') '0' ++ t' ∧ SameHex t t' ∧ 2 ≤ t.length
  len : SameHex r.lenHex r'.lenHex
  value : if r.fmt = 'h' then SameHex r.value r'.value else r.value = r'.value

/-- The number the digits of a length field denote. -/
def Record.lengthValue (r : Record) : Nat := ofDigits 16 (r.lenHex.filterMap hexDigit?)

end Pemv.Spec
