import Verif.Spec.Drawing

/-!
# Specification of an ANSI terminal
-/

namespace Pemv.Spec

/-- Where in an escape sequence the terminal is. -/
inductive Mode where
  | ground
  | escape
  | sequence (parameters : Text)

/-- The renditions a terminal knows. Unknown ones change nothing. -/
def rendition (s : ColorSpec) (parameters : Text) : ColorSpec :=
  if parameters = [] ∨ parameters = ['0'] then ⟨false, none⟩
  else if parameters = ['1'] then { s with bold := true }
  else if parameters = ['3', '1'] then { s with fg := some .red }
  else if parameters = ['3', '3'] then { s with fg := some .yellow }
  else if parameters = ['3', '6'] then { s with fg := some .cyan }
  else s

/-- What a terminal shows when it receives a text, and the style it is left in. -/
def screen : ColorSpec → Mode → Text → List (Char × ColorSpec) × ColorSpec
  | s, _, [] => ([], s)
  | s, .ground, c :: cs =>
    if c.toNat = 27 then screen s .escape cs
    else ((c, s) :: (screen s .ground cs).1, (screen s .ground cs).2)
  | s, .escape, c :: cs => if c = '[' then screen s (.sequence []) cs else screen s .ground cs
  | s, .sequence p, c :: cs =>
    if c.isDigit ∨ c = ';' then screen s (.sequence (p ++ [c])) cs
    else if c = 'm' then screen (rendition s p) .ground cs
    else screen s .ground cs

/-- What a terminal shows when it receives a text while no colours are set. -/
def shownOn (t : Text) : List (Char × ColorSpec) := (screen plainStyle .ground t).1

/-- The style a terminal is left in. -/
def leftIn (t : Text) : ColorSpec := (screen plainStyle .ground t).2

end Pemv.Spec
