import Verif.Spec.Run

/-!
# Specification of lines
-/

namespace Pemv.Spec

/-- Text within a line: neither a line break nor a tab. -/
def Inline (t : Text) : Prop := ∀ c ∈ t, c ≠ '\n' ∧ c ≠ '\t'

/-- A line that ends with its only line break and contains no tab (tabs are for the indentation). -/
def WholeLine (l : Line) : Prop := ∃ t, l.cells.map Prod.fst = t ++ ['\n'] ∧ Inline t

/-- A document made of such lines. -/
def WholeLines (ls : List Line) : Prop := ∀ l ∈ ls, WholeLine l

/-- The text cut after every line break. -/
def cutLines : Text → List Text
  | [] => []
  | c :: t =>
    if c = '\n' then [c] :: cutLines t
    else match cutLines t with
      | [] => [[c]]
      | l :: ls => (c :: l) :: ls

/-- A line that introduces a tag, as a reader sees it: after the tabs it begins with `Tag:`. -/
def introducesTag (t : Text) : Bool := ['T', 'a', 'g', ':'].isPrefixOf (t.dropWhile (· == '\t'))

end Pemv.Spec
