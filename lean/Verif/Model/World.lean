import Verif.Model.Argv

/-!
# The program in its surroundings: arguments, environment variables, files

`Config::figment`, src/config/mod.rs:69-87, decides which file, which profile and which variables are looked at. What
`figment` 0.10.7 does for that is a contract: names of variables are compared up to ASCII case, a relative path is looked
for in the working directory and then in the directories above it, a file that does not exist is empty. The syntax of
TOML and of values in variables is not modelled: `Library` says what they are read as. Names of variables that are not
Unicode, have white space around them or contain a full stop are not modelled.
-/

namespace Pemv

/-- The syntax of configuration files and of values. -/
structure Library where
  /-- a file with a profile per section; `none` if that is not what it is. (`figment` finds a section whatever the case of
  its name: `file` answers the same for names that differ in case only.) -/
  toml : Text → Option FigData
  /-- the value of a variable, as read for a key -/
  value : CfgKey → Text → CfgVal

/-- What the program is started with. A directory is the list of its components, the innermost first. -/
structure World where
  args : List Text
  vars : List (Text × Text)
  workingDir : List Text
  /-- the content of the file with this path relative to this directory -/
  file : List Text → Text → Option Text
  /-- the content of the file with this absolute path -/
  absoluteFile : Text → Option Text
  isTty : Bool

/-- ASCII lower case (crate `uncased`). -/
def asciiLower (c : Char) : Char := if 'A' ≤ c ∧ c ≤ 'Z' then Char.ofNat (c.toNat + 32) else c

/-- A text up to ASCII case (crate `uncased`). -/
def uncased (s : Text) : Text := s.map asciiLower

/-- `Env::var` (contract), as used at src/config/mod.rs:72-75 and 83-86. -/
def envVar (vars : List (Text × Text)) (name : String) : Option Text :=
  (vars.find? (fun v => decide (uncased v.1 = uncased name.toList))).map (fun v => trimText v.2)

/-- Removing a prefix, up to case. -/
def stripPrefix (pre s : Text) : Option Text :=
  if uncased (s.take pre.length) = uncased pre then some (s.drop pre.length) else none

/-- The names of the keys, src/config/mod.rs:51-55. -/
def CfgKey.name : CfgKey → String
  | .cliColour => "cli_colour"
  | .maskingCharacters => "masking_characters"
  | .sortParsedTags => "sort_parsed_tags"

/-- `ENV_PREFIX`, src/config/mod.rs:22. -/
def envPrefix : String := "PEMV_"

/-- `ENV_FILE_NAME_OVERRIDE`, src/config/mod.rs:24. -/
def envFileName : String := "CONFIG"

/-- `ENV_PROFILE`, src/config/mod.rs:25. -/
def envProfile : String := "PROFILE"

/-- `FILE_NAME`, src/config/mod.rs:20. -/
def fileName : String := "pemv.toml"

/-- `Env::prefixed(ENV_PREFIX).ignore(..)`, src/config/mod.rs:79-80: the keys and their values. -/
def envKeys (vars : List (Text × Text)) : List (Text × Text) :=
  vars.filterMap (fun v =>
    match stripPrefix envPrefix.toList v.1 with
    | none => none
    | some k =>
      if [envFileName, envProfile].any (fun i => decide (uncased k = uncased i.toList)) then none
      else some (uncased k, v.2))

/-- The dictionary of the variables: a later variable replaces an earlier one. -/
def envDict (lib : Library) (vars : List (Text × Text)) : Dict := fun k =>
  ((envKeys vars).filter (fun v => decide (v.1 = k.name.toList))).getLast?.map (fun v => lib.value k v.2)

/-- Looking for a relative path in a directory and then in those above it (`Toml::file`, contract). -/
def searchUp (file : List Text → Text → Option Text) (path : Text) : List Text → Option Text
  | [] => file [] path
  | c :: up => (file (c :: up) path).or (searchUp file path up)

/-- The configuration file that is read, if any, src/config/mod.rs:72-76. -/
def configFile (w : World) : Option Text :=
  let path := (envVar w.vars (envPrefix ++ envFileName)).getD fileName.toList
  if path.head? = some '/' then w.absoluteFile path else searchUp w.file path w.workingDir

/-- The profile that is selected, src/config/mod.rs:83-86. -/
def profileOf (w : World) : Option String := (envVar w.vars (envPrefix ++ envProfile)).map String.ofList

/-- `main`, src/main.rs:103-219, started in some surroundings. A file that is not understood makes every extraction fail,
and `unwrap` panics (src/main.rs:109-119); the command line comes before that. -/
def runProcess (lib : Library) (m : Machine) (w : World) : Execution :=
  match (configFile w).map lib.toml with
  | none => executeArgv m (fun _ _ => none) (envDict lib w.vars) (profileOf w) w.isTty w.args
  | some (some file) => executeArgv m file (envDict lib w.vars) (profileOf w) w.isTty w.args
  | some none =>
    match executeArgv m (fun _ _ => none) (envDict lib w.vars) (profileOf w) w.isTty w.args with
    | .ran _ => .ran .panic
    | e => e

/-- The exit status of the process. `get_matches` (src/main.rs:105) ends it with 2 if the command line is wrong and if
there are no options at all (`arg_required_else_help`, src/cli.rs:24), with 0 after the help text and the version that
were asked for; `main` (src/main.rs:103-219) returns nothing, which is 0, and a panic is 101. -/
def exitStatus (lib : Library) (m : Machine) (w : World) : Nat :=
  match runProcess lib m w with
  | .rejected => 2
  | .help => if (lexArgs cliTable none w.args).1 = [] then 2 else 0
  | .version => 0
  | .ran (.ok (_, r)) => if r.disp.panicked then 101 else 0
  | .ran _ => 101

end Pemv
