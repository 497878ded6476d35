import Verif.Model.Release

/-!
# Specification of a release
-/

namespace Pemv.Spec

/-- A line with the version that the script looks after (the dot stands for any character, as in its pattern). -/
def IsManaged (line : Text) : Prop :=
  ∃ old c, line = "version = ".toList ++ old ++ " # Managed by release".toList ++ [c] ++ "sh".toList

/-- The line it is given. -/
def versionLine (version : Text) : Text :=
  "version = \"".toList ++ version ++ "\" # Managed by release.sh".toList

/-- A manifest with a new version: the managed lines, and no others, are replaced. -/
def NewVersion (version : Text) (before after : List Text) : Prop :=
  after.length = before.length ∧ ∀ (i : Nat) (old new : Text), before[i]? = some old → after[i]? = some new →
    (IsManaged old → new = versionLine version) ∧ (¬ IsManaged old → new = old)

/-- The version a tag stands for: `v` in front is not part of it. -/
def IsVersionOf (tag version : Text) : Prop :=
  tag = 'v' :: version ∨ (tag = version ∧ tag.head? ≠ some 'v')

/-- A release: one new commit with the new version, the new list of changes and the message about it, and one new tag
for it. -/
structure Released (t : Tools) (tag version : Text) (r r' : Repo) : Prop where
  manifest : NewVersion version r.manifest r'.manifest
  changelog : r'.changelog = t.cliffOutput
  commits : r'.commits = ⟨r'.manifest, t.cliffOutput, "misc(release): Prepare for ".toList ++ tag ++ ".".toList⟩ :: r.commits
  tags : ∃ message, r'.tags = ⟨tag, r'.commits.head?, message⟩ :: r.tags

/-- The script says that all went well. -/
def SaysSuccess (x : ReleaseRun) : Prop := "New version created successfully." ∈ x.said

/-- No command that is asked for its status fails. -/
def ChecksPass (t : Tools) : Prop :=
  t.sed = 0 ∧ t.fmt = 0 ∧ t.clippy = 0 ∧ t.cliff = 0 ∧ t.tag = 0 ∧ t.verify = 0

/-- The commit is made. -/
def CommitPasses (t : Tools) : Prop := t.add = 0 ∧ t.commit = 0

/-- The script refuses to begin: no tag is given, or there are changes. -/
def Refused (t : Tools) (arg : Option Text) : Prop := arg = none ∨ arg = some [] ∨ t.porcelain ≠ []

end Pemv.Spec
