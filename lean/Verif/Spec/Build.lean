import Verif.Model.Build

/-!
# Specification of the build script: a plan and carrying it out
-/

namespace Pemv.Spec

/-- The things a build can be asked for. -/
inductive Task where
  /-- Tell that a variable is not set. -/
  | tell (var : String)
  /-- The man page in a directory. -/
  | man (dir : Text)
  /-- A shell's completion script in a directory. -/
  | script (shell : Shell) (dir : Text)
  deriving DecidableEq, Repr

/-- The name of a shell. -/
def shellName : Shell → String
  | .bash => "Bash"
  | .elvish => "Elvish"
  | .fish => "Fish"
  | .powerShell => "PowerShell"
  | .zsh => "Zsh"

/-- The value of a variable: the environment's own, or else that of the first entry for it in the `.env` file. -/
def settingOf (env dotenv : List (String × Text)) (name : String) : Option Text :=
  ((env ++ dotenv).find? (fun e => e.1 == name)).map Prod.snd

/-- What a release build is asked for, in order. -/
def plan (env dotenv : List (String × Text)) : List Task :=
  (match settingOf env dotenv "MAN_PAGE_OUT_DIR" with
    | none => [.tell "MAN_PAGE_OUT_DIR"]
    | some dir => [.man dir]) ++
  (match settingOf env dotenv "COMPLETION_SCRIPTS_OUT_DIR" with
    | none => [.tell "COMPLETION_SCRIPTS_OUT_DIR"]
    | some dir => [.script .bash dir, .script .elvish dir, .script .fish dir, .script .powerShell dir,
        .script .zsh dir])

/-- One task: what it leaves behind, or nothing if it fails. All of them describe the options of the program. -/
def Task.result (io : BuildIo) : Task → Option BuildEv
  | .tell v => some (.notSpecified v)
  | .man dir =>
    if io.render cliTable ∧ io.write dir "pemv.1".toList then some (.manPage cliTable dir "pemv.1".toList) else none
  | .script s dir =>
    (io.generate s cliTable "pemv".toList dir).map (fun path => .completion s (shellName s) cliTable path)

/-- The results of the tasks before the first one that fails. -/
def achieved (io : BuildIo) (ts : List Task) : List BuildEv :=
  ((ts.map (Task.result io)).takeWhile Option.isSome).filterMap id

end Pemv.Spec
