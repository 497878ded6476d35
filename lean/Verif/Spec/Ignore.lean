import Verif.Model.Ignore

/-!
# Specification: what is to be ignored
-/

namespace Pemv.Spec

/-- The name ends like this. -/
def EndsIn (s : String) (name : Text) : Prop := ∃ pre, name = pre ++ s.toList

/-- Names that are ignored wherever they are, of files and of directories. -/
def IgnoredName (name : Text) : Prop :=
  name ∈ [".env".toList, "TODO.md".toList, "tarpaulin-report.html".toList] ∨
  EndsIn ".rs.bk" name ∨ EndsIn ".lib" name ∨ EndsIn "bindings.rs" name ∨ EndsIn ".profraw" name

/-- What is to be ignored: everything in `target` and `install_integrations`, everything in a directory `.idea`, and
everything with one of the names, or in a directory with one. -/
inductive ToIgnore : GitPath → Prop
  | built (d n : Text) (rest : GitPath) (h : d ∈ ["target".toList, "install_integrations".toList]) : ToIgnore (d :: n :: rest)
  | idea (above : GitPath) (n : Text) (rest : GitPath) : ToIgnore (above ++ ".idea".toList :: n :: rest)
  | named (above : GitPath) (n : Text) (rest : GitPath) (h : IgnoredName n) : ToIgnore (above ++ n :: rest)

end Pemv.Spec
