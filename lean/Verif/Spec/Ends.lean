import Verif.Spec.World

/-!
# Specification of how the program ends
-/

namespace Pemv.Spec

/-- The program panics: before the operation starts, or during it. -/
def Panics (e : Execution) : Prop := e = .ran .panic ∨ ∃ c r, e = .ran (.ok (c, r)) ∧ r.disp.panicked = true

/-- The program ends as it should: the command line is rejected, or the help text or the version is printed, or the
operation fails with one of the documented messages, or it succeeds and shows a document. -/
inductive EndsProperly : Execution → Prop
  | rejected : EndsProperly .rejected
  | help : EndsProperly .help
  | version : EndsProperly .version
  | noOperation (c : TermColorChoice) (r : Run) (h : ShowsHelp r) : EndsProperly (.ran (.ok (c, r)))
  | fails (c : TermColorChoice) (r : Run) (e : ParseError) (h : Fails r (message e)) : EndsProperly (.ran (.ok (c, r)))
  | succeeds (c : TermColorChoice) (r : Run) (ls : List Line) (h : Succeeds r (showLines 0 ls)) :
      EndsProperly (.ran (.ok (c, r)))

end Pemv.Spec
