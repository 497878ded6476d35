import Verif.Spec.Ingenico

/-!
# Data that differ only in what is masked
-/

namespace Pemv.Spec

/-- Well-formed data objects that are the same, or that have the same tag and masked values, possibly of different
lengths and masked with different characters. -/
def HiddenElem (masks : List Char) (p : Elem × Elem) : Prop :=
  p.1.WF ∧ p.2.WF ∧ (p.1 = p.2 ∨
    p.1.tag = p.2.tag ∧ IsMasked (latin1 p.1.value) masks ∧ IsMasked (latin1 p.2.value) masks)

/-- Well-formed records of which the same holds; of the separator behind a record nothing is demanded. -/
def HiddenRecord (masks : List Char) (p : (Record × Char) × (Record × Char)) : Prop :=
  p.1.1.WF masks ∧ p.2.1.WF masks ∧ (p.1.1 = p.2.1 ∨
    p.1.1.typ = p.2.1.typ ∧ p.1.1.tag = p.2.1.tag ∧ IsMasked p.1.1.value masks ∧ IsMasked p.2.1.value masks)

end Pemv.Spec
