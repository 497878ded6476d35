import Verif.Model.Cli

/-!
# Splitting the arguments into options and values

This is `clap` 4.0.15 (contract), for a command without positional arguments and subcommands, as built by
src/cli.rs:18-316. Arguments that are not valid Unicode are in
Verif/Model/OsArgs.lean.
-/

namespace Pemv

/-- What an argument looks like. -/
inductive Token where
  /-- `--` -/
  | escape
  /-- `--name` or `--name=value` -/
  | long (name : Text) (value : Option Text)
  /-- `-abc` -/
  | short (cluster : Text)
  /-- anything else, `-` included -/
  | plain (t : Text)
  deriving DecidableEq, Repr

/-- `split_once('=')`. -/
def splitEquals : Text → Text × Option Text
  | [] => ([], none)
  | c :: cs => if c = '=' then ([], some cs) else (c :: (splitEquals cs).1, (splitEquals cs).2)

/-- What an argument looks like (clap_lex). -/
def tokenOf : Text → Token
  | ['-', '-'] => .escape
  | '-' :: '-' :: rest => .long (splitEquals rest).1 (splitEquals rest).2
  | '-' :: c :: rest => .short (c :: rest)
  | t => .plain t

/-- An option that may take more values. -/
structure Pending where
  name : OptName
  max : Option Nat
  values : List Text
  deriving DecidableEq, Repr

/-- The use of the option that was waiting for values, if any. -/
def flush : Option Pending → List Use
  | none => []
  | some p => [⟨p.name, p.values⟩]

/-- Does the option take values? -/
def takesValue (a : ArgDef) : Bool := a.maxArgs != some 0

/-- An option without a value attached to it: a flag is complete, other options wait for values. A name that does not
exist is an error there and then. -/
def begin (table : List ArgDef) (n : OptName) : List Use × Option Pending :=
  match resolve table n with
  | none => ([⟨n, []⟩], none)
  | some a => if takesValue a then ([], some ⟨n, a.maxArgs, []⟩) else ([⟨n, []⟩], none)

/-- The value attached to a short option: one `=` in front of it is dropped. -/
def attachedValue : Text → Text
  | '=' :: v => v
  | v => v

/-- A cluster of short options: flags, and at the end possibly an option with the rest as its value. -/
def shortCluster (table : List ArgDef) : Text → List Use × Option Pending
  | [] => ([], none)
  | [c] => begin table (.short c)
  | c :: d :: rest =>
    match resolve table (.short c) with
    | none => ([⟨.short c, []⟩], none)
    | some a =>
      if takesValue a then ([⟨.short c, [attachedValue (d :: rest)]⟩], none)
      else (⟨.short c, []⟩ :: (shortCluster table (d :: rest)).1, (shortCluster table (d :: rest)).2)

/-- A further value: the option is complete when it has as many as it can take. -/
def addValue (p : Pending) (v : Text) : List Use × Option Pending :=
  if p.max.all (fun k => decide (p.values.length + 1 < k)) then ([], some { p with values := p.values ++ [v] })
  else ([⟨p.name, p.values ++ [v]⟩], none)

/-- Splitting the arguments: the uses of options, and whether there is then an argument that belongs to no option. -/
def lexArgs (table : List ArgDef) : Option Pending → List Text → List Use × Bool
  | p, [] => (flush p, false)
  | p, t :: ts =>
    match tokenOf t with
    | .escape => (flush p, !ts.isEmpty)
    | .long n (some v) =>
      (flush p ++ ⟨.long (String.ofList n), [v]⟩ :: (lexArgs table none ts).1, (lexArgs table none ts).2)
    | .long n none =>
      let r := begin table (.long (String.ofList n))
      (flush p ++ r.1 ++ (lexArgs table r.2 ts).1, (lexArgs table r.2 ts).2)
    | .short cs =>
      let r := shortCluster table cs
      (flush p ++ r.1 ++ (lexArgs table r.2 ts).1, (lexArgs table r.2 ts).2)
    | .plain v =>
      match p with
      | none => ([], true)
      | some p =>
        let r := addValue p v
        (r.1 ++ (lexArgs table r.2 ts).1, (lexArgs table r.2 ts).2)

/-- `main`, src/main.rs:103-219, from the arguments on. `get_matches` (called at src/main.rs:105) reports an argument
that belongs to no option as an error, unless reading has stopped before it. -/
def executeArgv (m : Machine) (file : FigData) (env : Dict) (profile : Option String) (isTty : Bool)
    (args : List Text) : Execution :=
  match lexArgs cliTable none args with
  | (uses, false) => execute m file env profile isTty uses
  | (uses, true) =>
    match resolveUses cliTable [] uses with
    | .error .help => .help
    | .error .version => .version
    | _ => .rejected

end Pemv
