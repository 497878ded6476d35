import Verif.Model.Changelog
import Verif.Spec.Ci

/-!
# Specification of the list of changes
-/

namespace Pemv.Spec

/-- A text begins with another. -/
def BeginsWith (p s : Text) : Prop := ∃ rest, s = p ++ rest

/-- `type(scope)!: description`, the scope in brackets and the exclamation mark optional, is the first line. -/
def IsConventional (message type : Text) (bang : Bool) (description : Text) : Prop :=
  ∃ scope spaces below, linesOf message =
      (type ++ scope ++ (if bang then "!".toList else []) ++ ":".toList ++ spaces ++ description) :: below ∧
    type ≠ [] ∧ (∀ c ∈ type, c ∉ "():! \t".toList) ∧
    (scope = [] ∨ ∃ name, scope = "(".toList ++ name ++ ")".toList ∧ name ≠ [] ∧ ∀ c ∈ name, c ∉ "()".toList) ∧
    (∀ c ∈ spaces, c = ' ') ∧ description ≠ [] ∧ description.head? ≠ some ' '

/-- A line that notes a breaking change. -/
def NotesBreaking (l : Text) : Prop :=
  BeginsWith "BREAKING CHANGE: ".toList l ∨ BeginsWith "BREAKING-CHANGE: ".toList l

/-- A message that says so of a breaking change, with an exclamation mark or below. -/
def IsBreaking (message : Text) (bang : Bool) : Prop :=
  bang = true ∨ ∃ l ∈ (linesOf message).tail, NotesBreaking l

/-- What is not meant to be listed: commits about the release itself, and those that undo others. -/
def IsSkipped (message : Text) : Prop :=
  BeginsWith "misc(release): Prepare for ".toList message ∨ BeginsWith "chore(release): Prepare for ".toList message ∨
    BeginsWith "revert".toList message

/-- The headings, by what messages begin with. -/
def changeHeadings : List (String × String) := [
  ("feat", "Features"), ("fix", "Bug Fixes"), ("deprecate", "Deprecated Features"), ("remove", "Removed Features"),
  ("doc", "Documentation"), ("perf", "Performance"), ("refactor", "Refactor"), ("test", "Testing"),
  ("ci", "Continuous Integration"), ("misc", "Miscellaneous Tasks"), ("chore", "Miscellaneous Tasks")]

/-- The message begins with one of these. -/
def HasHeading (message group : Text) : Prop :=
  ∃ p h, (p, h) ∈ changeHeadings ∧ BeginsWith p.toList message ∧ group = h.toList

/-- Below the first line, and above a note about a breaking change, security is mentioned. -/
def MentionsSecurity (message : Text) : Prop :=
  ∃ above l below, (linesOf message).tail = above ++ l :: below ∧ (∀ x ∈ above ++ [l], ¬ NotesBreaking x) ∧
    ∃ a b, l = a ++ "security".toList ++ b

/-- The group under which a commit is listed. -/
def ListedUnder (message group : Text) : Prop :=
  ∃ type bang description, IsConventional message type bang description ∧
    ((IsSkipped message ∧ IsBreaking message bang ∧ group = type) ∨
     (¬ IsSkipped message ∧ HasHeading message group) ∨
     (¬ IsSkipped message ∧ (∀ g, ¬ HasHeading message g) ∧ MentionsSecurity message ∧ group = "Security".toList) ∨
     (¬ IsSkipped message ∧ (∀ g, ¬ HasHeading message g) ∧ ¬ MentionsSecurity message ∧ group = type))

/-- The releases of a history, each with tag, date and commits, and the commits that are new: a release is some commits
without a tag and one with. -/
inductive Releases : List Tagged → List (Text × Text × List HistoryCommit) → List HistoryCommit → Prop where
  | new (cs : List HistoryCommit) : Releases (cs.map fun c => ⟨c, none⟩) [] cs
  | release {h : List Tagged} {rs : List (Text × Text × List HistoryCommit)} {rest : List HistoryCommit}
      (cs : List HistoryCommit) (c : HistoryCommit) (tag date : Text) (later : Releases h rs rest) :
      Releases ((cs.map fun c => ⟨c, none⟩) ++ ⟨c, some (tag, date)⟩ :: h) ((tag, date, cs ++ [c]) :: rs) rest

end Pemv.Spec
