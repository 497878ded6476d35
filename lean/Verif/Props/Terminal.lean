import Verif.Proofs.Terminal
import Verif.Proofs.Display
import Verif.Props.Config

/-!
# C82: what arrives at the terminal

`shownOn` and `leftIn` (Spec/Terminal.lean) are a terminal that reads escape sequences by itself; `stdoutOf` is
the stream of characters the program writes.
-/

namespace Pemv

open Spec

/-! ### C82 -/

/-- **C82.** A successful run makes a terminal show exactly the specified characters in the specified styles if
the output is coloured, and leaves it in the plain style; if the output is not coloured, exactly the same
characters are written and nothing else. -/
theorem c82_success (env : TermEnv) (colour : TermColorChoice) (r : Run) (m : Machine) (ops : CliOps)
    (masks : List Char) (sort : Bool) (hr : r = run m ops masks sort) (cells : Cells) (h : Succeeds r cells) :
    (colour.coloured env = true → shownOn (stdoutOf env (colour, r)) = cells ∧
      leftIn (stdoutOf env (colour, r)) = plainStyle) ∧
    (colour.coloured env = false → stdoutOf env (colour, r) = cells.map (·.1)) := by
  subst hr
  have q := run_quiet m ops masks sort
  constructor
  · intro hc
    rw [shownOn, leftIn, stdoutOf, hc, screen_written _ _ q]
    exact ⟨h.shows.cells, h.shows.restored⟩
  · intro hc
    rw [stdoutOf, hc, written_plain, ← paint_text plainStyle, h.shows.cells]

example := c82_success ⟨none, true⟩ .always (run .debug64 { tvr := some "1000000000".toList } [] true) .debug64 _ [] true rfl
  (paint plainStyle (run .debug64 { tvr := some "1000000000".toList } [] true).disp.evs)
  ⟨⟨by decide +kernel, rfl, by decide +kernel⟩, by decide +kernel, by decide +kernel, by decide +kernel⟩

/-- **C82.** Colours never change what is written: whatever the input, and even if the run panics, the characters
a terminal shows are those that are written without colours. -/
theorem c82_same_text (env : TermEnv) (colour : TermColorChoice) (m : Machine) (ops : CliOps) (masks : List Char)
    (sort : Bool) :
    (shownOn (stdoutOf env (colour, run m ops masks sort))).map (·.1) =
      stdoutOf env (.never, run m ops masks sort) := by
  have q := run_quiet m ops masks sort
  rw [shownOn, stdoutOf, stdoutOf]
  show _ = written false _
  rw [written_plain]
  cases hc : colour.coloured env with
  | true => rw [screen_written _ _ q]; exact paint_text plainStyle _
  | false =>
    rw [written_plain]
    have := screen_text plainStyle _ [] q
    rw [List.append_nil] at this
    rw [this]
    show List.map _ (_ ++ []) = _
    rw [List.append_nil, List.map_map]
    exact List.map_id _

/-- **C82.** Output without colours contains no escape character, whatever the input. -/
theorem c82_no_escapes (env : TermEnv) (colour : TermColorChoice) (m : Machine) (ops : CliOps) (masks : List Char)
    (sort : Bool) (hc : colour.coloured env = false) :
    ∀ c ∈ stdoutOf env (colour, run m ops masks sort), c.toNat ≠ 27 := by
  rw [stdoutOf, hc, written_plain]
  exact run_quiet m ops masks sort

example := c82_no_escapes ⟨some "dumb".toList, false⟩ .auto .debug64 { tvr := some "1000000000".toList } [] true (by decide +kernel)

/-- **C82.** When colours are used: the value in force decides; `auto` needs a terminal whose `TERM` is set and
is not `dumb`, and `NO_COLOR` unset. -/
theorem c82_when_coloured (file : FigData) (env : Dict) (profile : Option String) (c : CliConfig) (isTty : Bool)
    (h : ColourChecked c) (s : Settings) (hs : settings (configFigment file env profile) c isTty = .ok s)
    (tenv : TermEnv) :
    s.colour.coloured tenv = true ↔
      inForce file env profile c .cliColour = some (.colour .always) ∨
      inForce file env profile c .cliColour = some (.colour .alwaysAnsi) ∨
      (inForce file env profile c .cliColour = some (.colour .auto) ∧ isTty = true ∧ tenv.noColor = false ∧
        ∃ t, tenv.term = some t ∧ t ≠ "dumb".toList) := by
  obtain ⟨colour, h1, -, -, h2⟩ := (c60_in_force file env profile c isTty h s).1 hs
  rw [h1, h2]
  cases colour with
  | always => simp [ColourChoice.changeBasedOnTty, ColourChoice.toTerm, TermColorChoice.coloured]
  | alwaysAnsi => simp [ColourChoice.changeBasedOnTty, ColourChoice.toTerm, TermColorChoice.coloured]
  | never => simp [ColourChoice.changeBasedOnTty, ColourChoice.toTerm, TermColorChoice.coloured]
  | auto =>
    cases isTty with
    | false => simp [ColourChoice.changeBasedOnTty, ColourChoice.toTerm, TermColorChoice.coloured]
    | true =>
      obtain ⟨term, nc⟩ := tenv
      cases term with
      | none => simp [ColourChoice.changeBasedOnTty, ColourChoice.toTerm, TermColorChoice.coloured]
      | some t =>
        cases nc <;>
        simp [ColourChoice.changeBasedOnTty, ColourChoice.toTerm, TermColorChoice.coloured]

example := c82_when_coloured (fun _ _ => none) (fun k => if k = .cliColour then some (.colour .always) else none) none
  ⟨⟨some "auto".toList, true⟩, ⟨some ['*'], true⟩, ⟨some true, true⟩, ⟨some false, true⟩⟩ false
  (by rintro s ⟨rfl⟩; exact ⟨("auto", .auto), by decide, rfl⟩) ⟨.always, ['*'], true⟩ (by decide +kernel) ⟨none, true⟩

/-- **C82.** In a pipe, with no colours asked for, the output of the whole program has no escape character,
whatever the environment. -/
theorem c82_pipe (m : Machine) (file : FigData) (env : Dict) (profile : Option String) (c : CliConfig)
    (ops : CliOps) (h : ColourChecked c) (x : TermColorChoice × Run)
    (hx : program m file env profile c false ops = .ok x) (tenv : TermEnv)
    (hc : inForce file env profile c .cliColour ≠ some (.colour .always) ∧
      inForce file env profile c .cliColour ≠ some (.colour .alwaysAnsi)) :
    ∀ ch ∈ stdoutOf tenv x, ch.toNat ≠ 27 := by
  rw [program] at hx
  cases hs : settings (configFigment file env profile) c false with
  | ok s =>
    rw [hs] at hx
    cases hx
    refine c82_no_escapes tenv s.colour m ops s.masks s.sort ?_
    cases hcol : s.colour.coloured tenv with
    | false => rfl
    | true =>
      rcases (c82_when_coloured file env profile c false h s hs tenv).1 hcol with h1 | h1 | ⟨-, h1, -⟩
      · exact absurd h1 hc.1
      · exact absurd h1 hc.2
      · cases h1
  | err e => rw [hs] at hx; cases hx
  | panic => rw [hs] at hx; cases hx
  | diverge => rw [hs] at hx; cases hx


/-- The stream of a run with colours. -/
example : stdoutOf ⟨none, true⟩ (.always, run .debug64 { tvr := some "1000000000".toList } [] true) =
    ["\x1b[0m\x1b[1m00010000 00000000 00000000", " 00000000 00000000\n\x1b[0m   └ ",
     "\x1b[0m\x1b[31mCard appears on", " terminal exception file\n\x1b[0m"].flatMap String.toList :=
  same_text (by decide +kernel)

/-- The same run without colours. -/
example : stdoutOf ⟨none, false⟩ (.auto, run .debug64 { tvr := some "1000000000".toList } [] true) =
    ["00010000 00000000 00000000", " 00000000 00000000\n   └ ",
     "Card appears on", " terminal exception file\n"].flatMap String.toList :=
  same_text (by decide +kernel)

/-- `auto` on a terminal. -/
example : TermColorChoice.coloured .auto ⟨some "xterm".toList, false⟩ = true ∧
    TermColorChoice.coloured .auto ⟨some "dumb".toList, false⟩ = false ∧
    TermColorChoice.coloured .auto ⟨some "xterm".toList, true⟩ = false := by decide +kernel

end Pemv
