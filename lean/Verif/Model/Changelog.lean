import Verif.Model.Release

/-!
# The list of changes, cliff.toml

The configuration of git-cliff, which release.sh runs to write CHANGELOG.md. The settings are taken from the file; what
git-cliff does with them is a contract, and modelled as documented: messages are read as conventional commits
(`type(scope)!: description`), those that cannot be are left out (`filter_unconventional`); the first parser in the list
that matches decides whether a commit is skipped or under which group it is; without one, or if the parser has no group,
the group is the type; groups are in the order of their names, commits within a group the oldest first. The regular
expressions are given as sequences of alternatives. Of what can follow the first line, only notes about breaking changes
are told from the text; types with an exclamation mark within are not modelled, nor are empty lines of the output.
-/

namespace Pemv

/-- A commit of the history: its hash and its message. -/
structure HistoryCommit where
  id : Text
  message : Text
  deriving DecidableEq, Repr

/-- The first line of a text, and the lines below it. -/
def messageLines : Text → Text × List Text
  | [] => ([], [])
  | '\n' :: s => ([], (messageLines s).1 :: (messageLines s).2)
  | c :: s => (c :: (messageLines s).1, (messageLines s).2)

/-- What a conventional commit says: its type, whether there is an exclamation mark, and the description. -/
structure Conventional where
  type : Text
  bang : Bool
  description : Text
  deriving DecidableEq, Repr

/-- Can a character be part of a type? -/
def isTypeChar (c : Char) : Bool := !['(', ')', ':', '!', ' ', '\t', '\n'].contains c

/-- Can a character be part of a scope? -/
def isScopeChar (c : Char) : Bool := !['(', ')', '\n'].contains c

/-- What follows the scope, if there is one that is well-formed or none. -/
def afterScope : Text → Option Text
  | '(' :: r =>
    if r.takeWhile isScopeChar = [] then none
    else match r.dropWhile isScopeChar with
      | ')' :: r => some r
      | _ => none
  | r => some r

/-- The first line read as one of a conventional commit (`conventional_commits`, cliff.toml:34). -/
def parseSubject (s : Text) : Option Conventional :=
  if s.takeWhile isTypeChar = [] then none
  else match afterScope (s.dropWhile isTypeChar) with
    | some ('!' :: ':' :: r) =>
      if r.dropWhile (· == ' ') = [] then none
      else some ⟨s.takeWhile isTypeChar, true, r.dropWhile (· == ' ')⟩
    | some (':' :: r) =>
      if r.dropWhile (· == ' ') = [] then none
      else some ⟨s.takeWhile isTypeChar, false, r.dropWhile (· == ' ')⟩
    | _ => none

/-- Does a line note a breaking change? -/
def isBreakingNote (l : Text) : Bool :=
  "BREAKING CHANGE: ".toList.isPrefixOf l || "BREAKING-CHANGE: ".toList.isPrefixOf l

/-- The lines of the body: those below the first, up to a note. -/
def bodyLines (message : Text) : List Text :=
  (messageLines message).2.takeWhile fun l => !isBreakingNote l

/-- Is there a note about a breaking change? -/
def hasBreakingNote (message : Text) : Bool := (messageLines message).2.any isBreakingNote

/-- A regular expression: for the message, one that is anchored at its beginning, as a sequence of alternatives; for the
body, `.*` and a word. -/
inductive CommitPattern where
  | message (alternatives : List (List Text))
  | body (word : Text)
  deriving DecidableEq, Repr

/-- An entry of `commit_parsers`. -/
structure CommitParser where
  pattern : CommitPattern
  group : Option Text
  skip : Bool
  deriving DecidableEq, Repr

/-- `commit_parsers`, cliff.toml:42-56. -/
def commitParsers : List CommitParser := [
  ⟨.message [["feat".toList]], some "Features".toList, false⟩,
  ⟨.message [["fix".toList]], some "Bug Fixes".toList, false⟩,
  ⟨.message [["deprecate".toList]], some "Deprecated Features".toList, false⟩,
  ⟨.message [["remove".toList]], some "Removed Features".toList, false⟩,
  ⟨.message [["doc".toList]], some "Documentation".toList, false⟩,
  ⟨.message [["perf".toList]], some "Performance".toList, false⟩,
  ⟨.message [["refactor".toList]], some "Refactor".toList, false⟩,
  ⟨.message [["test".toList]], some "Testing".toList, false⟩,
  ⟨.message [["ci".toList]], some "Continuous Integration".toList, false⟩,
  ⟨.message [["misc".toList, "chore".toList], ["(release): Prepare for ".toList]], none, true⟩,
  ⟨.message [["misc".toList, "chore".toList]], some "Miscellaneous Tasks".toList, false⟩,
  ⟨.message [["revert".toList]], none, true⟩,
  ⟨.body "security".toList, some "Security".toList, false⟩]

/-- Does a text begin as the alternatives say? -/
def begins : List (List Text) → Text → Bool
  | [], _ => true
  | as :: rest, s => as.any fun a => a.isPrefixOf s && begins rest (s.drop a.length)

/-- Is a word in a line? -/
def hasWord (w : Text) : Text → Bool
  | [] => w.isEmpty
  | c :: s => w.isPrefixOf (c :: s) || hasWord w s

/-- Does a parser match a message? -/
def CommitParser.matches (p : CommitParser) (message : Text) : Bool :=
  match p.pattern with
  | .message as => begins as message
  | .body w => (bodyLines message).any (hasWord w)

/-- The group of a commit, if it is listed; cliff.toml:34-60. -/
def groupOf (message : Text) : Option Text :=
  match parseSubject (messageLines message).1 with
  | none => none
  | some conv =>
    match commitParsers.find? (·.matches message) with
    | none => some conv.type
    | some p =>
      -- `protect_breaking_commits`, cliff.toml:58
      if p.skip && !(conv.bang || hasBreakingNote message) then none
      else some (p.group.getD conv.type)

/-- A commit is added to its group. -/
def addCommit (g : Text) (c : HistoryCommit) : List (Text × List HistoryCommit) → List (Text × List HistoryCommit)
  | [] => [(g, [c])]
  | (h, cs) :: rest =>
    if g < h then (g, [c]) :: (h, cs) :: rest
    else if g = h then (h, cs ++ [c]) :: rest
    else (h, cs) :: addCommit g c rest

/-- `commits | group_by(attribute="group")`, cliff.toml:18; the commits the oldest first, cliff.toml:70. -/
def groupCommits (history : List HistoryCommit) : List (Text × List HistoryCommit) :=
  history.foldl (fun gs c => match groupOf c.message with
    | some g => addCommit g c gs
    | none => gs) []

/-- `upper_first` (for letters of ASCII). -/
def upperFirst : Text → Text
  | c :: s => c.toUpper :: s
  | [] => []

/-- `trim_start_matches(pat="v")`, cliff.toml:14. -/
def withoutVs (tag : Text) : Text := tag.dropWhile (· == 'v')

/-- The line of a commit, cliff.toml:21. -/
def commitLine (c : HistoryCommit) : Text :=
  match parseSubject (messageLines c.message).1 with
  | none => []
  | some conv =>
    "- ".toList ++ (if conv.bang || hasBreakingNote c.message then "[**breaking**] ".toList else []) ++
      upperFirst conv.description ++ " ([".toList ++ c.id.take 7 ++ "](https://github.com/zedseven/pemv/commit/".toList ++
      c.id.take 7 ++ "))".toList

/-- The part of the list about a release, by lines; cliff.toml:13-23. -/
def releaseLines (tag date : Text) (history : List HistoryCommit) : List Text :=
  ("## [".toList ++ withoutVs tag ++ "] - ".toList ++ date) ::
    (groupCommits history).flatMap fun (g, cs) => ("### ".toList ++ upperFirst g) :: cs.map commitLine

/-- A commit of the history and the tag on it, with its date. -/
structure Tagged where
  commit : HistoryCommit
  tag : Option (Text × Text)
  deriving DecidableEq, Repr

/-- The releases of a history (the oldest commit first), and the commits since the last one. A tag ends a release. -/
def splitReleases : List HistoryCommit → List Tagged → List (Text × Text × List HistoryCommit) × List HistoryCommit
  | acc, [] => ([], acc)
  | acc, ⟨c, none⟩ :: h => splitReleases (acc ++ [c]) h
  | acc, ⟨c, some (tag, date)⟩ :: h =>
    ((tag, date, acc ++ [c]) :: (splitReleases [] h).1, (splitReleases [] h).2)

/-- `header`, cliff.toml:6-9. -/
def changelogHeader : List Text :=
  ["# Changelog".toList, "All notable changes to this project will be documented in this file.".toList]

/-- `footer`, cliff.toml:28-30. -/
def changelogFooter : List Text := ["<!-- generated by git-cliff -->".toList]

/-- What `git cliff --tag` writes, by lines: the newest release first, and before it what is new; release.sh:27. -/
def changelogLines (tag date : Text) (h : List Tagged) : List Text :=
  changelogHeader ++ ((splitReleases [] h).1 ++ [(tag, date, (splitReleases [] h).2)]).reverse.flatMap
    (fun r => releaseLines r.1 r.2.1 r.2.2) ++ changelogFooter

/-- What `git cliff --tag --unreleased --strip all` writes, by lines: only what is new; release.sh:34. -/
def tagNotes (tag date : Text) (h : List Tagged) : List Text := releaseLines tag date (splitReleases [] h).2

end Pemv
