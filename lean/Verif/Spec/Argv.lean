import Verif.Model.Argv
import Verif.Spec.Cli

/-!
# Specification of the ways to write options
-/

namespace Pemv.Spec

/-- An argument that can stand by itself as a value: it does not begin with a hyphen, or it is a single hyphen. -/
def StandsAlone (t : Text) : Prop := t = ['-'] ∨ t.head? ≠ some '-'

/-- The ways to write a use of an option. -/
inductive WrittenAs : Use → List Text → Prop
  /-- `--name value ...` -/
  | long (n : String) (vs : List Text) (h : ∀ v ∈ vs, StandsAlone v) : WrittenAs ⟨.long n, vs⟩ (("--".toList ++ n.toList) :: vs)
  /-- `--name=value` -/
  | longEquals (n : String) (v : Text) : WrittenAs ⟨.long n, [v]⟩ ["--".toList ++ n.toList ++ '=' :: v]
  /-- `-c value ...` -/
  | short (c : Char) (vs : List Text) (h : ∀ v ∈ vs, StandsAlone v) : WrittenAs ⟨.short c, vs⟩ (['-', c] :: vs)
  /-- `-cvalue` -/
  | shortAttached (c : Char) (v : Text) (h : v ≠ []) (h' : v.head? ≠ some '=') : WrittenAs ⟨.short c, [v]⟩ ['-' :: c :: v]
  /-- `-c=value` -/
  | shortEquals (c : Char) (v : Text) : WrittenAs ⟨.short c, [v]⟩ ['-' :: c :: '=' :: v]

/-- Uses written one after the other. -/
inductive AllWritten : List Use → List Text → Prop
  | nil : AllWritten [] []
  | cons {u : Use} {us : List Use} {ts rest : List Text} (h : WrittenAs u ts) (h' : AllWritten us rest) :
      AllWritten (u :: us) (ts ++ rest)

end Pemv.Spec
