import Verif.Model.Ci

/-!
# Specification of the check for misplaced `use` statements
-/

namespace Pemv.Spec

/-- The lines of a text. -/
def linesOf : Text → List Text
  | [] => [[]]
  | c :: s =>
    if c = '\n' then [] :: linesOf s
    else match linesOf s with
      | l :: ls => (c :: l) :: ls
      | [] => [[c]]

/-- The header for `use` statements. -/
def usesHeader : Text := "// Uses".toList

/-- Some line of the first kind is above a line of the second kind. -/
def Above (first second : Text → Prop) (s : Text) : Prop :=
  ∃ before a between b after, linesOf s = before ++ a :: between ++ b :: after ∧ first a ∧ second b

/-- A line with a `use` statement: indented or not, public or not. -/
def IsUse (l : Text) : Prop :=
  ∃ indentation visibility rest, l = indentation ++ visibility ++ "use ".toList ++ rest ∧
    (∀ c ∈ indentation, c = ' ' ∨ c = '\t') ∧ visibility ∈ ["".toList, "pub ".toList, "pub(crate) ".toList]

/-- A line with the header, with whatever line ends. -/
def IsHeader (l : Text) : Prop := l = usesHeader ∨ l = usesHeader ++ ['\r']

/-- A line that begins with `use`. -/
def BeginsWithUse (l : Text) : Prop := ∃ rest, l = "use ".toList ++ rest

/-- Some Rust file has a `use` statement above the header. -/
def Misplaced (files : List SourceFile) : Prop :=
  ∃ f ∈ files, ∃ name s, f.name = name ++ ".rs".toList ∧ f.content = some s ∧ Above IsUse IsHeader s

end Pemv.Spec
