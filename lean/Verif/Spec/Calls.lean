import Verif.Spec.Ingenico

/-!
# Specification of how deep the calls of the parsers go

`parse` of src/emv/tlv_parsing/ber_tlv.rs calls itself, through `get_child_block`, for the value of every constructed
object that is not masked. It does so when it comes to the object, before it has seen what follows.
-/

namespace Pemv.Spec

/-- Of these bytes, values inside each other are looked into, `k` levels down: each is the value of a constructed,
unmasked object after well-formed objects. Nothing is said about what follows the objects. -/
inductive LooksInto (masks : List Char) : List Byte → Nat → Prop
  | top (bytes : List Byte) : LooksInto masks bytes 0
  | inside (es : List Elem) (e : Elem) (rest : List Byte) (k : Nat) (hes : ∀ x ∈ es, x.WF) (he : e.WF)
      (hz : rest = [] → ¬ e.LongZero) (ht : typeOf e.tag = .constructed) (hm : ¬ IsMasked (latin1 e.value) masks)
      (h : LooksInto masks e.value k) : LooksInto masks (concat es ++ (e.bytes ++ rest)) (k + 1)

/-- The same for records: the first of the values is that of a record of EMV data. -/
def RecordsLookInto (masks : List Char) (s : Text) (k : Nat) : Prop :=
  ∃ (l : List (Record × Char)) (r : Record) (rest : Text), s = render l ++ (r.text ++ rest) ∧ (∀ p ∈ l, p.1.WF masks) ∧
    r.WF masks ∧ r.typ = 'T' ∧ typeOf r.tag = .constructed ∧ ∃ v, r.data masks = .normal v ∧ LooksInto masks v k

end Pemv.Spec
