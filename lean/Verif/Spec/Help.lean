import Verif.Model.Help
import Verif.Spec.Cli
import Verif.Spec.Document
import Verif.Spec.Text

/-!
# Specification of what the help text tells
-/

namespace Pemv.Spec

/-- The ends of a text, the text itself first. -/
def endsOf : Text → List Text
  | [] => [[]]
  | c :: t => (c :: t) :: endsOf t

/-- The numbers in hex that a text mentions: the digits after each `0x`. -/
def numbersIn (t : Text) : List Text :=
  (endsOf t).filterMap (fun e => match e with
    | '0' :: 'x' :: rest => some (rest.takeWhile (fun c => decide (IsHex c)))
    | _ => none)

/-- Does a text occur in another? -/
def occursIn (s t : Text) : Bool := (endsOf t).any (fun e => s.isPrefixOf e)

/-- The parts of a text between backquotes: every second one of the parts that backquotes separate. -/
def quotedIn (inside : Bool) (part : Text) : Text → List Text
  | [] => []
  | c :: t =>
    if c = '`' then (if inside then [part.reverse] else []) ++ quotedIn (!inside) [] t
    else quotedIn inside (c :: part) t

/-- The words of a text, in small letters. A word is made of letters. -/
def wordsIn (word : Text) : Text → List Text
  | [] => if word = [] then [] else [word.reverse]
  | c :: t =>
    if c.isAlpha then wordsIn (c.toLower :: word) t
    else (if word = [] then [] else [word.reverse]) ++ wordsIn [] t

/-- The names of an option (as the code calls it) that begin with two hyphens. -/
def longNames (o : Opt) : List String :=
  optionNames.filterMap (fun p => match p with
    | (.long n, o') => if o' = o then some n else none
    | _ => none)

/-- The option a help text belongs to. -/
def optOfHelp (h : ArgHelp) : Option Opt := optionNames.lookup (.long h.id)

/-- The headings of the help text and what comes under them. -/
def headings : List (String × List Opt) := [
  ("EMV Utilities", [.operation .identify, .operation .autoTlv, .operation .berTlv, .operation .ingenicoTlv]),
  ("Individual EMV Tags", [.operation .tvr, .operation .ccdIad, .operation .ccdCvr, .operation .tsi,
    .operation .cvmResults, .operation .cvmList]),
  ("Non-EMV", [.operation .serviceCode])]

end Pemv.Spec
