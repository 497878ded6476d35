import Verif.Model.Basic

/-!
# Which files git ignores, .gitignore

What git does with the lines of the file is a contract (gitignore(5)), for the kinds of lines there are: no line begins
with `!`, none has `?`, brackets, backslashes or spaces at its end, `**` only stands at the beginning and there is no
other slash within a line. Names are compared as on Linux, where small and capital letters differ.
-/

namespace Pemv

/-- The path of a file in the repository: the directories it is in, then its name. -/
abbrev GitPath := List Text

/-- .gitignore:1-28. -/
def gitignore : List String := [
  "# Generated by Cargo",
  "# will have compiled files and executables",
  "/target/",
  "",
  "# These are backup files generated by rustfmt",
  "**/*.rs.bk",
  "",
  "# JetBrains IDEs' config & project settings directory",
  "**/.idea/",
  "",
  "# Library files put in the project directory because Windows' PATH searching is terrible",
  "**/*.lib",
  "",
  "# Auto-generated bindings files that're re-made on every build",
  "**/*bindings.rs",
  "",
  "# Tarpaulin-generated files",
  "tarpaulin-report.html",
  "**/*.profraw",
  "",
  "# Environment variable files (for development, often containing private information)",
  "**/.env",
  "",
  "# Install integration files generated locally (man pages, shell completion scripts, etc.)",
  "/install_integrations/",
  "",
  "# Local working files",
  "TODO.md"]

/-- A line that counts. -/
structure IgnoreRule where
  /-- it only counts in the directory of the file -/
  anchored : Bool
  /-- it only counts for directories -/
  dirOnly : Bool
  /-- what a name must look like -/
  glob : Text
  deriving DecidableEq, Repr

/-- A line without a slash at the end. -/
def ignoreStart (dirOnly : Bool) : Text → IgnoreRule
  | '*' :: '*' :: '/' :: rest => ⟨false, dirOnly, rest⟩
  | '/' :: rest => ⟨true, dirOnly, rest⟩
  | rest => ⟨false, dirOnly, rest⟩

/-- Empty lines and comments do not count; a slash at the end is for directories. -/
def ignoreRule (line : Text) : Option IgnoreRule :=
  if line = [] ∨ line.head? = some '#' then none
  else if line.getLast? = some '/' then some (ignoreStart true line.dropLast)
  else some (ignoreStart false line)

/-- A name with asterisks that stand for anything. -/
def globMatch : Text → Text → Bool
  | [], s => s.isEmpty
  | a :: p, s =>
    if a = '*' then (List.range (s.length + 1)).any (fun k => globMatch p (s.drop k))
    else match s with
      | [] => false
      | c :: s => a == c && globMatch p s

/-- Does a rule fit the last of these names, that of a directory or of a file? -/
def IgnoreRule.fits (r : IgnoreRule) (above : GitPath) (name : Text) (isDir : Bool) : Bool :=
  (!r.anchored || above.isEmpty) && (!r.dirOnly || isDir) && globMatch r.glob name

/-- A file is ignored if a rule fits it or one of the directories it is in. -/
def ignoredFrom (rules : List IgnoreRule) (above : GitPath) : GitPath → Bool
  | [] => false
  | name :: rest => rules.any (fun r => r.fits above name (!rest.isEmpty)) || ignoredFrom rules (above ++ [name]) rest

/-- The files that are ignored. -/
def ignored (p : GitPath) : Bool := ignoredFrom (gitignore.filterMap (fun l => ignoreRule l.toList)) [] p

/-- The contents of files. -/
abbrev FileTree := GitPath → Option Text

/-- `git status --porcelain`, release.sh:10: does it tell of this file? (Of untracked directories git only gives the
name, which makes no difference to whether it tells of anything.) -/
def statusTells (head work : FileTree) (p : GitPath) : Bool :=
  head p != work p && ((head p).isSome || !ignored p)

/-- `git add -A`, release.sh:30: what is in the next commit. -/
def addAll (head work : FileTree) : FileTree := fun p => if (head p).isSome || !ignored p then work p else none

/-- The names a path consists of (repeated slashes count once). -/
def pathNames (s : Text) : GitPath :=
  let r := s.foldr (fun c acc => if c = '/' then [] :: acc else
    match acc with
    | [] => [[c]]
    | n :: ns => (c :: n) :: ns) [[]]
  r.filter (fun n => !n.isEmpty)

end Pemv
