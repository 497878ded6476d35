import Verif.Spec.Ingenico
import Verif.Spec.Run

/-!
# Specification of what does not fit into 32 bits

The parsers add an announced length to a position. On targets with a `usize` of 32 bits the sum may not fit.
-/

namespace Pemv.Spec

/-- BER-TLV data in which the parser comes to an object the announced end of which is at 2^32 or later: after
well-formed objects, or inside a template that is looked into. The object needs no value: one byte after the length
field is enough. -/
inductive FarEnd (masks : List Char) : List Byte → Prop
  | here (es : List Elem) (tag len rest : List Byte) (n : Nat) (hes : ∀ e ∈ es, e.WF) (htag : IsTag tag)
      (hlen : IsLength len n) (hrest : rest ≠ []) (hfar : 2 ^ 32 ≤ (concat es ++ (tag ++ len)).length + n) :
      FarEnd masks (concat es ++ (tag ++ (len ++ rest)))
  | inside (es : List Elem) (e : Elem) (rest : List Byte) (hes : ∀ e ∈ es, e.WF) (he : e.WF)
      (htype : typeOf e.tag = .constructed) (hmask : ¬ IsMasked (latin1 e.value) masks)
      (hv : FarEnd masks e.value) : FarEnd masks (concat es ++ (e.bytes ++ rest))

/-- The beginning of a record, up to the format character. -/
structure Head where
  typ : Char
  tagHex : Text
  lenHex : Text
  fmt : Char
  deriving DecidableEq, Repr

namespace Head

/-- Its text. -/
def text (h : Head) : Text := h.typ :: (h.tagHex ++ ':' :: (h.lenHex ++ [':', h.fmt]))

/-- The length it announces. -/
def length (h : Head) : Nat := beValue (hexBytes h.lenHex)

/-- The number of characters it announces. -/
def span (h : Head) : Nat := if h.fmt = 'h' then 2 * h.length else h.length

/-- Heads that are read up to the value. -/
structure WF (h : Head) : Prop where
  tagHex : ∀ c ∈ h.tagHex, IsHex c
  tagLen : 2 ≤ h.tagHex.length
  lenHex : ∀ c ∈ h.lenHex, IsHex c
  lenLen : h.lenHex.length ≤ 9
  fmt : h.fmt = 'a' ∨ h.fmt = 'h'

end Head

/-- The text `s` consists of well-formed records, the beginning `h` of a record, and `rest`. -/
def Reaches (masks : List Char) (s : Text) (l : List (Record × Char)) (h : Head) (rest : Text) : Prop :=
  s = render l ++ (h.text ++ rest) ∧ (∀ p ∈ l, p.1.WF masks) ∧ h.WF

/-- Ingenico text in which the parser comes to a record the announced end of which is at 2^32 or later, or to a
record with a template in which it comes to such an object. -/
def FarRecord (masks : List Char) (s : Text) : Prop :=
  (∃ l h rest, Reaches masks s l h rest ∧ 2 ^ 32 ≤ (render l ++ h.text).length + h.span) ∨
  ∃ (l : List (Record × Char)) (r : Record) (rest : Text) (v : List Byte), s = render l ++ (r.text ++ rest) ∧
    (∀ p ∈ l, p.1.WF masks) ∧ r.WF masks ∧ r.typ = 'T' ∧ typeOf r.tag = .constructed ∧ r.data masks = .normal v ∧ FarEnd masks v

/-- Ingenico text in which the parser comes to a record in hex that announces 2^31 bytes or more. -/
def WideRecord (masks : List Char) (s : Text) : Prop :=
  ∃ l h rest, Reaches masks s l h rest ∧ h.fmt = 'h' ∧ 2 ^ 31 ≤ h.length

/-- Heads of records in hex, of the same type and tag, that announce lengths equal up to a multiple of 2^31, in equally
many digits. -/
structure SameLow (h h' : Head) : Prop where
  typ : h.typ = h'.typ
  tagHex : h.tagHex = h'.tagHex
  fmt : h.fmt = 'h' ∧ h'.fmt = 'h'
  digits : h.lenHex.length = h'.lenHex.length
  length : h.length % 2 ^ 31 = h'.length % 2 ^ 31

/-- `s'` is `s` with the announced lengths of some of the records in hex that the parser comes to changed by a multiple
of 2^31. -/
inductive Rewritten (masks : List Char) : Text → Text → Prop
  | refl (s : Text) : Rewritten masks s s
  | step (s s' s'' : Text) (l : List (Record × Char)) (h h' : Head) (rest : Text) (h1 : Reaches masks s l h rest)
      (h2 : Reaches masks s' l h' rest) (hlow : SameLow h h') (hs : Rewritten masks s' s'') : Rewritten masks s s''

/-- What a 32-bit build does not survive: the end of an object or record that it comes to is at 2^32 or later. In
automatic mode the text is read as records first, and as BER-TLV if that fails. -/
def FarInput (masks : List Char) : Operation → Text → Prop
  | .berTlv, s => FarEnd masks (hexBytes s)
  | .ingenicoTlv, s => (∀ c ∈ s, c.toNat < 128) ∧ FarRecord masks s
  | .autoTlv, s => (∀ c ∈ s, c.toNat < 128) ∧ FarRecord masks s ∨
      ((∃ c ∈ s, ¬ c.toNat < 128) ∨ ¬ FarRecord masks s ∧ ¬ ∃ rs, IsIngenico masks s rs) ∧ FarEnd masks (hexBytes s)
  | _, _ => False

end Pemv.Spec
