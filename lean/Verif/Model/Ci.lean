import Verif.Model.Basic

/-!
# The check for misplaced `use` statements, .github/workflows/integrity.yml:120-154

A job that runs `! rg --multiline --multiline-dotall --case-sensitive --type rust '^use .+^// Uses$' ./`. The pattern is
taken from the file and compiled here; of the regular expressions of ripgrep only what occurs in it is there: `^` and `$`
(at the beginning and end of lines, as ripgrep always has it), `.+` (where the dot also stands for a line break, because
of `--multiline-dotall`) and characters that stand for themselves. A match is looked for with backtracking; ripgrep does
this differently, but it is a match or none in the same cases. The exit status is the documented one of ripgrep: 2 if
there was an error, otherwise 0 if there was a match and 1 if there was none. Files are texts with a name; those that are
ignored by Git or hidden, which ripgrep leaves out, are not among them, and neither are files with zero bytes.
-/

namespace Pemv

/-- What the pattern is made of. -/
inductive Piece where
  | lineBegin | lineEnd | char (c : Char) | anything
  deriving DecidableEq, Repr

/-- The pattern, .github/workflows/integrity.yml:153. -/
def usePattern : Text := "^use .+^// Uses$".toList

/-- The pieces of a pattern. -/
def compile : Text → List Piece
  | [] => []
  | '^' :: s => .lineBegin :: compile s
  | '$' :: s => .lineEnd :: compile s
  | '.' :: '+' :: s => .anything :: compile s
  | c :: s => .char c :: compile s

/-- At least one character, then something that matches from there. -/
def afterSome (f : Option Char → Text → Bool) : Text → Bool
  | [] => false
  | x :: s => f (some x) s || afterSome f s

/-- Do the pieces match what follows, after this character (none at the beginning)? -/
def matchHere : List Piece → Option Char → Text → Bool
  | [], _, _ => true
  | .lineBegin :: ps, prev, s => (prev == none || prev == some '\n') && matchHere ps prev s
  | .lineEnd :: ps, prev, s => (s.head? == none || s.head? == some '\n') && matchHere ps prev s
  | .char _ :: _, _, [] => false
  | .char c :: ps, _, x :: s => x == c && matchHere ps (some x) s
  | .anything :: ps, _, s => afterSome (matchHere ps) s

/-- Is there a match anywhere? -/
def search (ps : List Piece) : Option Char → Text → Bool
  | prev, [] => matchHere ps prev []
  | prev, x :: s => matchHere ps prev (x :: s) || search ps (some x) s

/-- A file; one that cannot be read has no content. -/
structure SourceFile where
  name : Text
  content : Option Text
  deriving DecidableEq, Repr

/-- The files of `--type rust`. -/
def isRust (f : SourceFile) : Bool := ".rs".toList.isSuffixOf f.name

/-- The exit status of ripgrep. -/
def ripgrep (pattern : Text) (files : List SourceFile) : Nat :=
  let searched := files.filter isRust
  if searched.any (fun f => f.content.isNone) then 2
  else if searched.any (fun f => search (compile pattern) none (f.content.getD [])) then 0
  else 1

/-- Does the job pass? `!` makes a success of every status but 0, .github/workflows/integrity.yml:148. -/
def useCheckPasses (files : List SourceFile) : Bool := ripgrep usePattern files != 0

end Pemv
