import Verif.Model.Main

/-!
# The command line, src/cli.rs

`build_cli` is a table of options. What `clap` does with it is a library contract, given here as a function of
the table: which option a name stands for, how many values it takes, which values are valid, which options
exclude or require each other, and what `get_one`, `get_many` and `value_source` answer. Splitting the
arguments into options and values is in Model/Argv.lean. The printing of help and error messages is not modelled.
-/

namespace Pemv

/-- `value_parser` of an option: the type of its values and which texts are valid. -/
inductive ValueParser where
  /-- `NonEmptyStringValueParser` -/
  | nonEmptyString
  /-- `value_parser!(char)` -/
  | char
  /-- `value_parser!(bool)` -/
  | bool
  /-- a list of possible values, compared exactly -/
  | oneOf (names : List String)
  deriving DecidableEq, Repr

/-- `ArgAction`. -/
inductive ArgAction where
  | set | append | help | version
  deriving DecidableEq, Repr

/-- One `Arg` of `build_cli`. `aliases` are the visible and the hidden ones. `maxArgs = none` is an open range
of `num_args`. -/
structure ArgDef where
  id : String
  short : Option Char := none
  shortAliases : List Char := []
  long : String
  aliases : List String := []
  minArgs : Nat := 1
  maxArgs : Option Nat := some 1
  parser : ValueParser := .nonEmptyString
  action : ArgAction := .set
  default : List String := []
  defaultMissing : Option String := none
  groups : List String := []
  conflicts : List String := []
  requires : List String := []
  deriving DecidableEq, Repr

/-- `build_cli`, src/cli.rs:18-316. -/
def cliTable : List ArgDef := [
  { id := "help", short := some 'h', shortAliases := ['?'], long := "help", minArgs := 0, maxArgs := some 0,
    action := .help },
  { id := "version", short := some 'V', long := "version", minArgs := 0, maxArgs := some 0, action := .version },
  { id := "colour", long := "colour", aliases := ["color"], default := ["auto"], defaultMissing := some "always",
    parser := .oneOf ["auto", "always", "ansi", "never"] },
  { id := "masking-character", short := some 'm', long := "masking-character",
    aliases := ["masking-char", "masking"], maxArgs := none, default := ["*"], action := .append, parser := .char,
    requires := ["tlv-parsers"] },
  { id := "sort-parsed-tags", long := "sort-parsed-tags", aliases := ["sort"], minArgs := 0,
    default := ["true"], defaultMissing := some "true", parser := .bool, conflicts := ["no-sort-parsed-tags"],
    requires := ["tlv-parsers"] },
  { id := "no-sort-parsed-tags", long := "no-sort-parsed-tags", aliases := ["no-sort"], minArgs := 0,
    default := ["false"], defaultMissing := some "true", parser := .bool, requires := ["tlv-parsers"] },
  { id := "identify", long := "identify", aliases := ["id"], groups := ["operations"] },
  { id := "auto-tlv", short := some 'a', long := "auto-tlv", aliases := ["auto", "parse-tlv", "parse"],
    groups := ["operations", "tlv-parsers"] },
  { id := "ber-tlv", short := some 'b', long := "ber-tlv", aliases := ["ber"],
    groups := ["operations", "tlv-parsers"] },
  { id := "ingenico-tlv", short := some 'i', long := "ingenico-tlv", aliases := ["ingenico"],
    groups := ["operations", "tlv-parsers"] },
  { id := "tvr", short := some 't', long := "tvr", aliases := ["95", "iac", "tac"], groups := ["operations"] },
  { id := "ccd-iad", long := "ccd-iad", aliases := ["9F10", "9f10", "iad"], groups := ["operations"] },
  { id := "ccd-cvr", long := "ccd-cvr", aliases := ["cvr"], groups := ["operations"] },
  { id := "tsi", long := "tsi", aliases := ["9B", "9b"], groups := ["operations"] },
  { id := "cvm-results", short := some 'r', long := "cvm-results", aliases := ["9F34", "9f34", "cvm-result"],
    groups := ["operations"] },
  { id := "cvm-list", long := "cvm-list", aliases := ["8E", "8e"], groups := ["operations"] },
  { id := "service-code", long := "service-code", aliases := ["5F30", "5f30"], groups := ["operations"] }]

/-- An option as written on the command line: `--name` or `-c`. -/
inductive OptName where
  | long (name : String)
  | short (c : Char)
  deriving DecidableEq, Repr

/-- Is this one of the names of the option? -/
def ArgDef.hasName (a : ArgDef) : OptName → Bool
  | .long n => a.long == n || a.aliases.contains n
  | .short c => a.short == some c || a.shortAliases.contains c

/-- The option a name stands for (clap contract). -/
def resolve (table : List ArgDef) (n : OptName) : Option ArgDef := table.find? (fun a => a.hasName n)

/-- A typed option value. -/
inductive ArgVal where
  | string (s : Text)
  | char (c : Char)
  | bool (b : Bool)
  deriving DecidableEq, Repr

/-- Validation and conversion of a value (clap contract). -/
def ValueParser.parse (p : ValueParser) (s : Text) : Option ArgVal :=
  match p with
  | .nonEmptyString => if s = [] then none else some (.string s)
  | .char => match s with
    | [c] => some (.char c)
    | _ => none
  | .bool => if s = "true".toList then some (.bool true) else if s = "false".toList then some (.bool false) else none
  | .oneOf names => if names.any (fun n => decide (n.toList = s)) then some (.string s) else none

/-- The values of one option after parsing. -/
structure Matched where
  id : String
  values : List ArgVal
  isDefault : Bool
  deriving DecidableEq, Repr

/-- `ArgMatches`. -/
abbrev Matches := List Matched

/-- One use of an option on the command line, with the values given. -/
structure Use where
  name : OptName
  values : List Text
  deriving DecidableEq, Repr

/-- What `clap` does with a command line: reject it, print the help or version text, or report matches. -/
inductive CliResult where
  | rejected
  | help
  | version
  | matches (ms : Matches)
  deriving DecidableEq, Repr

/-- The values of one use (clap contract): the right number, `default_missing_value` when there are none and that
is allowed, each of them valid. -/
def useValues (a : ArgDef) (values : List Text) : Option (List ArgVal) :=
  if values.length < a.minArgs || a.maxArgs.any (fun k => k < values.length) then none
  else
    (if values = [] then a.defaultMissing.toList.map String.toList else values).mapM a.parser.parse

/-- The uses of a command line, read from left to right (clap contract). Reading stops at an unknown name, at an
invalid value, at a `Set` option used before, and at the options that print the help text or the version. `seen`
are the options used before. -/
def resolveUses (table : List ArgDef) (seen : List String) : List Use → Except CliResult (List (ArgDef × List ArgVal))
  | [] => .ok []
  | u :: us =>
    match resolve table u.name with
    | none => .error .rejected
    | some a =>
      match useValues a u.values with
      | none => .error .rejected
      | some vs =>
        match a.action with
        | .help => .error .help
        | .version => .error .version
        | .set =>
          if seen.contains a.id then .error .rejected
          else (resolveUses table (a.id :: seen) us).map ((a, vs) :: ·)
        | .append => (resolveUses table (a.id :: seen) us).map ((a, vs) :: ·)

/-- Was the option given on the command line? -/
def given (uses : List (ArgDef × List ArgVal)) (id : String) : Bool := uses.any (fun u => u.1.id == id)

/-- Members of the same exclusive group, or declared conflicts in either direction (clap contract; a group named
by `Arg::group` only is exclusive). -/
def conflicting (a b : ArgDef) : Bool :=
  a.id != b.id && (a.groups.any b.groups.contains || a.conflicts.contains b.id || b.conflicts.contains a.id)

/-- Is a required option, or a member of a required group, given? -/
def satisfied (uses : List (ArgDef × List ArgVal)) (r : String) : Bool :=
  uses.any (fun u => u.1.id == r || u.1.groups.contains r)

/-- The rules about combinations of options (clap contract): no two conflicting options, everything required
given. -/
def combinationAllowed (uses : List (ArgDef × List ArgVal)) : Bool :=
  uses.all (fun u => uses.all (fun u' => !conflicting u.1 u'.1) && u.1.requires.all (satisfied uses))

/-- The match of an option that is not given: its defaults, if any. -/
def defaultMatched (a : ArgDef) : List Matched :=
  match a.default.mapM (fun s => a.parser.parse s.toList) with
  | some (v :: vs) => [⟨a.id, v :: vs, true⟩]
  | _ => []

/-- The match of one option: the values given, otherwise its defaults. -/
def matchedOf (uses : List (ArgDef × List ArgVal)) (a : ArgDef) : List Matched :=
  if given uses a.id then [⟨a.id, (uses.filter (fun u => u.1.id == a.id)).flatMap Prod.snd, false⟩]
  else defaultMatched a

/-- `get_matches` (clap contract), called at src/main.rs:105. `arg_required_else_help` prints the help text when
there are no arguments. -/
def getMatches (table : List ArgDef) (uses : List Use) : CliResult :=
  if uses = [] then .help
  else
    match resolveUses table [] uses with
    | .error r => r
    | .ok us => if combinationAllowed us then .matches (table.flatMap (matchedOf us)) else .rejected

/-! ### `get_one`, `get_many`, `value_source` (clap contract) -/

/-- The Rust type of an option's values. -/
inductive ArgTy where
  | string | char | bool
  deriving DecidableEq, Repr

/-- The type a value parser produces. -/
def ValueParser.type : ValueParser → ArgTy
  | .nonEmptyString => .string
  | .char => .char
  | .bool => .bool
  | .oneOf _ => .string

/-- `get_many::<T>(id)`: panics unless the option is declared, with values of this type. -/
def getMany (table : List ArgDef) (ms : Matches) (ty : ArgTy) (id : String) : Out (Option (List ArgVal)) :=
  match table.find? (fun a => a.id == id) with
  | none => .panic
  | some a =>
    if a.parser.type = ty then .ok ((ms.find? (fun m => m.id == id)).map Matched.values) else .panic

/-- `get_one::<String>(id)`. -/
def getString (table : List ArgDef) (ms : Matches) (id : String) : Out (Option Text) := do
  let vs ← getMany table ms .string id
  .ok (vs.bind (fun vs => match vs with
    | .string s :: _ => some s
    | _ => none))

/-- `get_one::<bool>(id)`. -/
def getBool (table : List ArgDef) (ms : Matches) (id : String) : Out (Option Bool) := do
  let vs ← getMany table ms .bool id
  .ok (vs.bind (fun vs => match vs with
    | .bool b :: _ => some b
    | _ => none))

/-- `get_many::<char>(id)`, collected. -/
def getChars (table : List ArgDef) (ms : Matches) (id : String) : Out (Option (List Char)) := do
  let vs ← getMany table ms .char id
  .ok (vs.map (fun vs => vs.filterMap (fun v => match v with
    | .char c => some c
    | _ => none)))

/-- `value_source(id).unwrap() != DefaultValue` negated: panics when there is no match for the option. -/
def isDefaultSource (ms : Matches) (id : String) : Out Bool :=
  match ms.find? (fun m => m.id == id) with
  | some m => .ok m.isDefault
  | none => .panic

/-- An option with its source; the source is only asked for when there is a value (src/config/mod.rs:111-112,
122-123, 133-134, 138-139). -/
def cliOpt {α : Type} (ms : Matches) (id : String) (value : Out (Option α)) : Out (CliOpt α) := do
  let v ← value
  match v with
  | none => .ok ⟨none, true⟩
  | some x => do
    let d ← isDefaultSource ms id
    .ok ⟨some x, d⟩

/-- The options `apply_cli_arguments` looks at, src/config/mod.rs:109-148. -/
def cliConfigOf (table : List ArgDef) (ms : Matches) : Out CliConfig := do
  let colour ← cliOpt ms "colour" (getString table ms "colour")
  let maskingCharacter ← cliOpt ms "masking-character" (getChars table ms "masking-character")
  let sortParsedTags ← cliOpt ms "sort-parsed-tags" (getBool table ms "sort-parsed-tags")
  let noSortParsedTags ← cliOpt ms "no-sort-parsed-tags" (getBool table ms "no-sort-parsed-tags")
  .ok ⟨colour, maskingCharacter, sortParsedTags, noSortParsedTags⟩

/-- The options `main` looks at, src/main.rs:125-210. (The code asks for them one after the other until one is
given; here all are asked for, so that a wrong name would be a panic in every case.) -/
def cliOpsOf (table : List ArgDef) (ms : Matches) : Out CliOps := do
  let tvr ← getString table ms "tvr"
  let ccdIad ← getString table ms "ccd-iad"
  let ccdCvr ← getString table ms "ccd-cvr"
  let tsi ← getString table ms "tsi"
  let cvmResults ← getString table ms "cvm-results"
  let cvmList ← getString table ms "cvm-list"
  let identify ← getString table ms "identify"
  let autoTlv ← getString table ms "auto-tlv"
  let berTlv ← getString table ms "ber-tlv"
  let ingenicoTlv ← getString table ms "ingenico-tlv"
  let serviceCode ← getString table ms "service-code"
  .ok ⟨tvr, ccdIad, ccdCvr, tsi, cvmResults, cvmList, identify, autoTlv, berTlv, ingenicoTlv, serviceCode⟩

/-- What the whole program does. -/
inductive Execution where
  /-- `clap` reports a wrong command line (on standard error, exit status 2) -/
  | rejected
  /-- `clap` prints the help text -/
  | help
  /-- `clap` prints the version -/
  | version
  /-- the program runs (or panics), with this colour choice for its output -/
  | ran (r : Out (TermColorChoice × Run))

/-- `main`, src/main.rs:103-219, from the command line on. -/
def execute (m : Machine) (file : FigData) (env : Dict) (profile : Option String) (isTty : Bool)
    (uses : List Use) : Execution :=
  match getMatches cliTable uses with
  | .rejected => .rejected
  | .help => .help
  | .version => .version
  | .matches ms => .ran (do
    let c ← cliConfigOf cliTable ms
    let ops ← cliOpsOf cliTable ms
    program m file env profile c isTty ops)

end Pemv
