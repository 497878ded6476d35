import Verif.Model.Argv

/-!
# Arguments that need not be text

The operating system hands over arguments that need not be valid Unicode. `clap` 4.0.15 (contract; called at
src/main.rs:105) takes them as they are (`args_os`): a name, a letter or a value that is not valid Unicode is an error when
reading comes to it. None of the options of src/cli.rs:18-316 accepts such a value.
-/

namespace Pemv

/-- An argument as handed over. -/
inductive OsArg where
  /-- valid Unicode -/
  | text (t : Text)
  /-- Something else. `lead` is what comes before the first piece that is not valid; the rest plays no role. -/
  | broken (lead : Text)
  deriving DecidableEq, Repr

/-- The letters of a cluster before the piece that is not valid: flags, until there is an unknown one or one that takes
the rest as its value. -/
def clusterFlags (table : List ArgDef) : Text → List Use
  | [] => []
  | c :: rest =>
    match resolve table (.short c) with
    | none => [⟨.short c, []⟩]
    | some a => if takesValue a then [] else ⟨.short c, []⟩ :: clusterFlags table rest

/-- The uses of options in an argument that is not valid, before the piece that is not. -/
def brokenUses (table : List ArgDef) : Text → List Use
  | '-' :: '-' :: _ => []
  | '-' :: cluster => clusterFlags table cluster
  | _ => []

/-- `lexArgs` for such arguments: the uses of options, and whether there is then something that is always an error. (A
value that is not valid is an error of the option it is for, which is never one that ends the reading before.) -/
def lexOs (table : List ArgDef) : Option Pending → List OsArg → List Use × Bool
  | p, [] => (flush p, false)
  | p, .broken lead :: _ => (flush p ++ brokenUses table lead, true)
  | p, .text t :: ts =>
    match tokenOf t with
    | .escape => (flush p, !ts.isEmpty)
    | .long n (some v) =>
      (flush p ++ ⟨.long (String.ofList n), [v]⟩ :: (lexOs table none ts).1, (lexOs table none ts).2)
    | .long n none =>
      let r := begin table (.long (String.ofList n))
      (flush p ++ r.1 ++ (lexOs table r.2 ts).1, (lexOs table r.2 ts).2)
    | .short cs =>
      let r := shortCluster table cs
      (flush p ++ r.1 ++ (lexOs table r.2 ts).1, (lexOs table r.2 ts).2)
    | .plain v =>
      match p with
      | none => ([], true)
      | some p =>
        let r := addValue p v
        (r.1 ++ (lexOs table r.2 ts).1, (lexOs table r.2 ts).2)

/-- `main`, src/main.rs:103-219, from the arguments on. -/
def executeOs (m : Machine) (file : FigData) (env : Dict) (profile : Option String) (isTty : Bool)
    (args : List OsArg) : Execution :=
  match lexOs cliTable none args with
  | (uses, false) => execute m file env profile isTty uses
  | (uses, true) =>
    match resolveUses cliTable [] uses with
    | .error .help => .help
    | .error .version => .version
    | _ => .rejected

end Pemv
