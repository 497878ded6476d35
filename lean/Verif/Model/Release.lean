import Verif.Model.Basic

/-!
# The release script, release.sh

A script for `bash`: commands one after the other, `|| exit` after those whose failure ends it. What the commands say
is not part of the code; they appear as an oracle that holds the status (0 is success) and the output of each. What they
do to the repository is a contract: `sed -i` rewrites Cargo.toml, `git commit` makes a commit of what is in the working
directory, `git tag` a tag of the newest commit; a command that fails changes nothing. Of the working directory, only
the two files the script writes are kept (Cargo.lock is not).
-/

namespace Pemv

/-- A commit: the files and the message. -/
structure Commit where
  manifest : List Text
  changelog : Text
  message : Text
  deriving DecidableEq, Repr

/-- A tag: its name, the commit it stands for, and its message. -/
structure GitTag where
  name : Text
  target : Option Commit
  message : List Text
  deriving DecidableEq, Repr

/-- Cargo.toml (by lines) and CHANGELOG.md in the working directory; commits and tags, the newest first. -/
structure Repo where
  manifest : List Text
  changelog : Text
  commits : List Commit
  tags : List GitTag
  deriving DecidableEq, Repr

/-- What the commands answer. -/
structure Tools where
  /-- the output of `git status --porcelain` -/
  porcelain : Text
  sed : Nat
  fmt : Nat
  clippy : Nat
  cliff : Nat
  /-- what `git cliff` writes -/
  cliffOutput : Text
  add : Nat
  commit : Nat
  /-- what the second `git cliff` writes -/
  notes : Text
  tag : Nat
  verify : Nat
  deriving DecidableEq, Repr

/-- How the script ends: the status, the repository, and what it says itself. -/
structure ReleaseRun where
  status : Nat
  repo : Repo
  said : List String
  deriving DecidableEq, Repr

/-- `msg`, release.sh:19. -/
def managedMsg : Text := "# Managed by release.sh".toList

/-- `${TAG#v}`, release.sh:20. -/
def withoutV : Text → Text
  | 'v' :: t => t
  | t => t

/-- Does a text match a pattern in which a dot stands for any character? -/
def dotMatch : Text → Text → Bool
  | [], [] => true
  | p :: ps, c :: cs => (p == '.' || p == c) && dotMatch ps cs
  | _, _ => false

/-- `^version = .* $msg$`, release.sh:20. -/
def sedMatches (line : Text) : Bool :=
  let head := "version = ".toList
  let tail := ' ' :: managedMsg
  head.isPrefixOf line && decide (head.length + tail.length ≤ line.length) &&
    dotMatch tail (line.drop (line.length - tail.length))

/-- The `s` command on a line, release.sh:20. (For tags without the characters that are special on the right-hand side:
slash, backslash, ampersand and the line break.) -/
def sedLine (tag line : Text) : Text :=
  if sedMatches line then "version = \"".toList ++ withoutV tag ++ "\" ".toList ++ managedMsg else line

/-- The script, release.sh:5-43. -/
def release (t : Tools) (arg : Option Text) (r : Repo) : ReleaseRun :=
  if arg.getD [] = [] then
    -- lines 5-8; `exit` alone gives the status of the last command, `echo`
    ⟨0, r, ["Please provide the tag as an argument, in the format `vX.Y.Z`."]⟩
  else if t.porcelain ≠ [] then
    -- lines 10-13
    ⟨0, r, ["You have uncommitted changes. Please clean up first."]⟩
  else
    let tag := arg.getD []
    -- lines 19-20
    if t.sed ≠ 0 then ⟨t.sed, r, []⟩
    else
      let r := { r with manifest := r.manifest.map (sedLine tag) }
      -- lines 23-24
      if t.fmt ≠ 0 then ⟨t.fmt, r, []⟩
      else if t.clippy ≠ 0 then ⟨t.clippy, r, []⟩
      else
        -- line 27; the file is written whether the command fails or not
        let r := { r with changelog := t.cliffOutput }
        if t.cliff ≠ 0 then ⟨t.cliff, r, []⟩
        else
          -- line 30: the status is not looked at
          let r := if t.add = 0 ∧ t.commit = 0 then
              { r with commits :=
                ⟨r.manifest, r.changelog, "misc(release): Prepare for ".toList ++ tag ++ ['.']⟩ :: r.commits }
            else r
          -- lines 34-37
          if t.tag ≠ 0 then ⟨t.tag, r, []⟩
          else
            let r := { r with tags :=
              ⟨tag, r.commits.head?, ["Release ".toList ++ tag, t.notes ++ ['\n']]⟩ :: r.tags }
            -- line 40
            if t.verify ≠ 0 then ⟨t.verify, r, []⟩
            -- line 43
            else ⟨0, r, ["New version created successfully."]⟩

/-- Cargo.toml:1-28. -/
def cargoToml : List String := [
  "[package]",
  "name = \"pemv\"",
  "version = \"0.4.2\" # Managed by release.sh",
  "authors = [\"Zacchary Dempsey-Plante <zacc@ztdp.ca>\"]",
  "edition = \"2021\"",
  "license = \"MIT OR Apache-2.0\"",
  "repository = \"https://github.com/zedseven/pemv\"",
  "homepage = \"https://github.com/zedseven/pemv\"",
  "description = \"A utility for parsing EMV-related data.\"",
  "",
  "[profile.release]",
  "codegen-units = 1",
  "lto = true",
  "",
  "[dependencies]",
  "atty = \"0.2\"",
  "clap = { version = \"4.0\", features = [\"wrap_help\"] }",
  "derivative = \"2.2\"",
  "figment = { version = \"0.10\", features = [\"toml\", \"env\"] }",
  "serde = \"1.0\"",
  "serde_derive = \"1.0\"",
  "termcolor = \"1.1\"",
  "",
  "[build-dependencies]",
  "clap = \"4.0\"",
  "clap_complete = \"4.0\"",
  "clap_mangen = \"0.2\"",
  "dotenv = \"0.15\""]

/-- The lines of the section `[package]` of a manifest. -/
def packageLines (manifest : List Text) : List Text :=
  ((manifest.dropWhile (· != "[package]".toList)).drop 1).takeWhile (fun line => line.head? != some '[')

/-- What cargo reads for a key of the package. Simplification: one line, as it is in this manifest, and no escapes. -/
def packageField (opening : String) (manifest : List Text) : Option Text :=
  (packageLines manifest).findSome? fun line =>
    if opening.toList.isPrefixOf line then some ((line.drop opening.toList.length).takeWhile (· != '"')) else none

/-- `APPLICATION_PROPER_NAME`, src/cli.rs:7. -/
def applicationProperName : Text := "ParseEMV".toList

/-- What a program built from a manifest prints if it is asked for its version, src/cli.rs:19-20 (clap adds the name and
a line break). -/
def versionText (manifest : List Text) : Option Text :=
  (packageField "version = \"" manifest).map fun version => applicationProperName ++ ' ' :: version ++ ['\n']

/-- The first lines of its help text, src/cli.rs:9-11, 19-23. Cargo would join several authors by colons; here there is
one. -/
def helpHead (manifest : List Text) : Option Text :=
  (versionText manifest).bind fun first => (packageField "authors = [\"" manifest).bind fun author =>
    (packageField "description = \"" manifest).map fun about => first ++ author ++ '\n' :: about ++ ['\n']

end Pemv
