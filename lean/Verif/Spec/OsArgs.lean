import Verif.Spec.Argv
import Verif.Model.OsArgs

/-!
# Specification of arguments that need not be text
-/

namespace Pemv.Spec

/-- Is this argument text? -/
def IsText : OsArg → Prop
  | .text _ => True
  | .broken _ => False

/-- What the program does when it comes to an argument that is not text and begins like this: if it begins with the letter
of a flag, that is obeyed first. -/
def atBroken : Text → Execution
  | '-' :: c :: _ => if c = 'h' ∨ c = '?' then .help else if c = 'V' then .version else .rejected
  | _ => .rejected

end Pemv.Spec
