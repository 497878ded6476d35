import Verif.Model.Cli

/-!
# The build script, build.rs

What the generators and the file system do is not part of the code; they appear as an oracle that says, for every
attempt, whether it works.
-/

namespace Pemv

/-- The shells, build.rs:6. -/
inductive Shell where
  | bash | elvish | fish | powerShell | zsh
  deriving DecidableEq, Repr

/-- What the generators and the file system answer. -/
structure BuildIo where
  /-- `Man::render` works on a definition. -/
  render : List ArgDef → Bool
  /-- `fs::write` to a file of a directory works. -/
  write : (dir name : Text) → Bool
  /-- `clap_complete::generate_to` for a shell, a definition, a program name and a directory: the path, if it works. -/
  generate : Shell → List ArgDef → (bin dir : Text) → Option Text

/-- What the build script does that can be seen. -/
inductive BuildEv where
  /-- The warning that a directory is missing, naming the variable. -/
  | notSpecified (var : String)
  /-- The man page of a definition was written to a file of a directory, and the note about it. -/
  | manPage (definition : List ArgDef) (dir name : Text)
  /-- A completion script of a definition was generated for a shell, and the note about it, with the name it uses. -/
  | completion (shell : Shell) (name : String) (definition : List ArgDef) (path : Text)
  deriving DecidableEq, Repr

/-- What was done, and whether `Ok(())` was returned. -/
abbrev BuildRun := List BuildEv × Bool

/-- Rust's `?` between two steps. -/
def BuildRun.andThen (a b : BuildRun) : BuildRun := if a.2 then (a.1 ++ b.1, b.2) else a

/-- `MAN_PAGE_OUT_DIR_VAR`, build.rs:13. -/
def manPageOutDirVar : String := "MAN_PAGE_OUT_DIR"

/-- `COMPLETION_SCRIPTS_OUT_DIR_VAR`, build.rs:14. -/
def completionScriptsOutDirVar : String := "COMPLETION_SCRIPTS_OUT_DIR"

/-- `APPLICATION_BIN_NAME`, src/cli.rs:8: the package name of Cargo.toml. -/
def applicationBinName : Text := "pemv".toList

/-- `dotenv().ok()` followed by `var_os`, build.rs:22, 40, 71: the entries of a `.env` file do not replace variables that
are set, and of several entries the first counts. -/
def buildVar (env dotenv : List (String × Text)) (name : String) : Option Text :=
  match env.lookup name with
  | some v => some v
  | none => dotenv.lookup name

/-- `generate_man_page`, build.rs:38-67. -/
def generateManPage (io : BuildIo) (var : String → Option Text) (definition : List ArgDef) : BuildRun :=
  match var manPageOutDirVar with
  | none => ([.notSpecified manPageOutDirVar], true)
  | some outDir =>
    if io.render definition then
      if io.write outDir (applicationBinName ++ ".1".toList) then
        ([.manPage definition outDir (applicationBinName ++ ".1".toList)], true)
      else ([], false)
    else ([], false)

/-- `generate_shell_completion`, build.rs:97-115. -/
def generateShellCompletion (io : BuildIo) (shellName : String) (shell : Shell) (definition : List ArgDef)
    (outDir : Text) : BuildRun :=
  match io.generate shell definition applicationBinName outDir with
  | some path => ([.completion shell shellName definition path], true)
  | none => ([], false)

/-- `generate_shell_completions`, build.rs:69-95. -/
def generateShellCompletions (io : BuildIo) (var : String → Option Text) (definition : List ArgDef) : BuildRun :=
  match var completionScriptsOutDirVar with
  | none => ([.notSpecified completionScriptsOutDirVar], true)
  | some outDir =>
    (generateShellCompletion io "Bash" .bash definition outDir).andThen <|
    (generateShellCompletion io "Elvish" .elvish definition outDir).andThen <|
    (generateShellCompletion io "Fish" .fish definition outDir).andThen <|
    (generateShellCompletion io "PowerShell" .powerShell definition outDir).andThen <|
    generateShellCompletion io "Zsh" .zsh definition outDir

/-- `main`, build.rs:20-36; `release` is `!cfg!(debug_assertions)`. The definition is the one of the program
(`include!`, build.rs:18). -/
def buildMain (release : Bool) (io : BuildIo) (env dotenv : List (String × Text)) : BuildRun :=
  if release then
    (generateManPage io (buildVar env dotenv) cliTable).andThen
      (generateShellCompletions io (buildVar env dotenv) cliTable)
  else ([], true)

end Pemv
