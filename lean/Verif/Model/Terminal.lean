import Verif.Model.Cli

/-!
# Standard output, src/main.rs:121 and `termcolor`

`StandardStream::stdout` is a library; what is modelled is the contract on targets other than Windows: the
stream either ignores colours or turns every colour change into ANSI escape sequences.
-/

namespace Pemv

/-- The environment variables `termcolor` looks at: `TERM`, and whether `NO_COLOR` is set. -/
structure TermEnv where
  term : Option Text
  noColor : Bool
  deriving DecidableEq, Repr

/-- Does the stream made by `StandardStream::stdout(choice)` (src/main.rs:121) use colours? (Contract: `Auto`
refrains if `TERM` is not set or is `dumb`, or if `NO_COLOR` is set.) -/
def TermColorChoice.coloured (c : TermColorChoice) (env : TermEnv) : Bool :=
  match c with
  | .always | .alwaysAnsi => true
  | .never => false
  | .auto =>
    match env.term with
    | none => false
    | some t => !decide (t = "dumb".toList) && !env.noColor

/-- An escape sequence that selects a graphic rendition. -/
def sgr (code : String) : Text := Char.ofNat 27 :: '[' :: (code.toList ++ ['m'])

/-- The code of a foreground colour. -/
def Colour.code : Colour → String
  | .cyan => "36"
  | .yellow => "33"
  | .red => "31"

/-- `set_color` of the ANSI writer (contract): a `ColorSpec` resets by default, then sets its attributes. -/
def ansiSetColor (c : ColorSpec) : Text :=
  sgr "0" ++ (if c.bold then sgr "1" else []) ++ (match c.fg with
    | some k => sgr k.code
    | none => [])

/-- What one action writes. -/
def Ev.written (coloured : Bool) : Ev → Text
  | .text t => t
  | .setColor c => if coloured then ansiSetColor c else []
  | .reset => if coloured then sgr "0" else []

/-- What a sequence of actions writes to standard output. -/
def written (coloured : Bool) (evs : List Ev) : Text := evs.flatMap (Ev.written coloured)

/-- What a run writes to standard output. -/
def stdoutOf (env : TermEnv) (x : TermColorChoice × Run) : Text := written (x.1.coloured env) x.2.disp.evs

end Pemv
