import Verif.Spec.Run

/-!
# Specification of what text may reach a terminal
-/

namespace Pemv.Spec

/-- The characters of the drawings. -/
def boxCharacters : List Char := ['│', '└', '├', '─', '┘']

/-- Printable ASCII, tabs, line breaks and the characters of the drawings. In particular no escape and no
other control character. -/
def SafeChar (c : Char) : Prop :=
  c = '\t' ∨ c = '\n' ∨ (32 ≤ c.toNat ∧ c.toNat ≤ 126) ∨ c ∈ boxCharacters

instance (c : Char) : Decidable (SafeChar c) := inferInstanceAs (Decidable (_ ∨ _))

/-- Text made of such characters. -/
def SafeText (t : Text) : Prop := ∀ c ∈ t, SafeChar c

instance (t : Text) : Decidable (SafeText t) := inferInstanceAs (Decidable (∀ c ∈ t, SafeChar c))

/-- A document made of such characters. -/
def SafeLines (ls : List Line) : Prop := ∀ l ∈ ls, ∀ p ∈ l.cells, SafeChar p.1

end Pemv.Spec
