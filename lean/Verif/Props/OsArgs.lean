import Verif.Proofs.OsArgs
import Verif.Spec.OsArgs
import Verif.Props.Argv

/-!
# C106: arguments that are not text
-/

namespace Pemv

open Spec

/-- **C106.** If all arguments are text, the program does what is said about text elsewhere. -/
theorem c106_text (m : Machine) (file : FigData) (env : Dict) (profile : Option String) (isTty : Bool)
    (args : List Text) :
    executeOs m file env profile isTty (args.map .text) = executeArgv m file env profile isTty args :=
  executeOs_text m file env profile isTty args

/-- **C106.** If one of them is not text, nothing is read or shown: the command line is rejected, or the help text or the
version is printed. -/
theorem c106_never_runs (m : Machine) (file : FigData) (env : Dict) (profile : Option String) (isTty : Bool)
    (args : List OsArg) (h : ∃ a ∈ args, ¬ IsText a) :
    executeOs m file env profile isTty args = .rejected ∨ executeOs m file env profile isTty args = .help ∨
      executeOs m file env profile isTty args = .version := by
  have split : ∀ args : List OsArg, (∃ a ∈ args, ¬ IsText a) →
      ∃ (ts : List Text) (lead : Text) (rest : List OsArg), args = ts.map .text ++ .broken lead :: rest := by
    intro args
    induction args with
    | nil => rintro ⟨a, ha, -⟩; cases ha
    | cons x xs ih =>
      intro h
      cases x with
      | broken lead => exact ⟨[], lead, xs, rfl⟩
      | text t =>
        obtain ⟨a, ha, hn⟩ := h
        rcases List.mem_cons.1 ha with rfl | ha
        · exact absurd trivial hn
        · obtain ⟨ts, lead, rest, e⟩ := ih ⟨a, ha, hn⟩
          exact ⟨t :: ts, lead, rest, by rw [e]; rfl⟩
  obtain ⟨ts, lead, rest, rfl⟩ := split args h
  exact executeOs_never m file env profile isTty lead rest ts

example := c106_never_runs .debug64 (fun _ _ => none) (fun _ => none) none true
  [.text "--tvr=00".toList, .broken "00".toList] ⟨.broken "00".toList, by simp, fun h => nomatch h⟩

/-- **C106.** What comes after an argument that is not text plays no role. -/
theorem c106_rest (m : Machine) (file : FigData) (env : Dict) (profile : Option String) (isTty : Bool)
    (ts : List Text) (lead : Text) (rest rest' : List OsArg) :
    executeOs m file env profile isTty (ts.map .text ++ .broken lead :: rest) =
      executeOs m file env profile isTty (ts.map .text ++ .broken lead :: rest') := by
  rw [executeOs_broken, executeOs_broken]

/-- **C106.** After correct options, however written, an argument that is not text is an error, unless it begins with the
letter of an option that prints the help text or the version. -/
theorem c106_after (m : Machine) (file : FigData) (env : Dict) (profile : Option String) (isTty : Bool)
    (us : List Use) (ts : List Text) (gs : List Given) (hw : AllWritten us ts) (hu : us.mapM understand = some gs)
    (hh : .help ∉ gs) (hv : .version ∉ gs) (hn : NoRepeats gs) (lead : Text) (rest : List OsArg) :
    executeOs m file env profile isTty (ts.map .text ++ .broken lead :: rest) = atBroken lead := by
  rw [executeOs_broken]
  have hd := c88_after_dashes m file env profile isTty us ts gs hw hu hh hv ['x'] []
  rw [dashes] at hd
  match lead with
  | [] => exact hd
  | [a] => exact (by simpa [leadingFlag, atBroken] using hd)
  | a :: c :: r =>
    by_cases ha : a = '-'
    · subst ha
      have hf := fun hc => c88_help m file env profile isTty us ts gs hw hu hh hv hn (.short c) ['-', c]
        (.short c [] hc) [['-', '-'], ['x']]
      have hf := hf (by simp)
      rw [leadingFlag, atBroken]
      by_cases h1 : c = 'h' ∨ c = '?'
      · rw [if_pos h1, if_pos (by rcases h1 with h | h <;> simp [h])]
        refine hf.1 ?_
        rcases h1 with rfl | rfl <;> decide +kernel
      · rw [if_neg h1]
        by_cases h2 : c = 'V'
        · rw [if_pos h2, if_pos (Or.inr (Or.inr h2))]
          refine hf.2 ?_
          subst h2
          decide +kernel
        · rw [if_neg h2, if_neg (by
            rintro (h | h | h)
            · exact h1 (Or.inl h)
            · exact h1 (Or.inr h)
            · exact h2 h)]
          exact hd
    · rw [leadingFlag, atBroken]
      · exact hd
      · intro c r e; exact ha (by injection e)
      · intro c r e; exact ha (by injection e)

example (m : Machine) (lead : Text) : executeOs m (fun _ _ => none) (fun _ => none) none true
    ([.text ("--".toList ++ "tvr".toList), .text "8000000000".toList] ++ [.broken lead, .text "x".toList]) = atBroken lead :=
  c106_after m _ _ none true [⟨.long "tvr", ["8000000000".toList]⟩] ["--".toList ++ "tvr".toList, "8000000000".toList]
    [.operation .tvr "8000000000".toList]
    (.cons (.long "tvr" _ (fun v hv => by rw [List.mem_singleton.1 hv]; exact Or.inr (by decide +kernel))) .nil)
    (by decide +kernel) (by simp) (by simp)
    ⟨by decide +kernel, by decide +kernel, by decide +kernel, by decide +kernel⟩
    lead [.text "x".toList]

/-- **C106.** Options for help and version that are reached before it are obeyed. -/
theorem c106_help (m : Machine) (file : FigData) (env : Dict) (profile : Option String) (isTty : Bool)
    (us : List Use) (ts : List Text) (gs : List Given) (hw : AllWritten us ts) (hu : us.mapM understand = some gs)
    (hh : .help ∉ gs) (hv : .version ∉ gs) (hn : NoRepeats gs) (n : OptName) (name : Text)
    (hname : WrittenAs ⟨n, []⟩ [name]) (ts' : List Text) (lead : Text) (rest : List OsArg) :
    ((n, .help) ∈ optionNames →
      executeOs m file env profile isTty ((ts ++ name :: ts').map .text ++ .broken lead :: rest) = .help) ∧
    ((n, .version) ∈ optionNames →
      executeOs m file env profile isTty ((ts ++ name :: ts').map .text ++ .broken lead :: rest) = .version) := by
  rw [executeOs_broken, List.append_assoc, List.cons_append]
  exact c88_help m file env profile isTty us ts gs hw hu hh hv hn n name hname _

/-- `pemv --tvr` with a value that is not text, with `-h` in an argument that is not text after a correct option, and with
`--help` before. -/
example (m : Machine) (isTty : Bool) :
    executeOs m (fun _ _ => none) (fun _ => none) none isTty [.text "--tvr".toList, .broken "00".toList] = .rejected ∧
    executeOs m (fun _ _ => none) (fun _ => none) none isTty
      [.text "--tvr=00".toList, .broken "-h".toList, .text "x".toList] = .help ∧
    executeOs m (fun _ _ => none) (fun _ => none) none isTty [.text "--help".toList, .broken []] = .help := by
  refine ⟨?_, ?_, ?_⟩
  · rw [executeOs, show lexOs cliTable none [.text "--tvr".toList, .broken "00".toList] =
      ([⟨.long "tvr", []⟩], true) by decide +kernel]
    rfl
  · rw [executeOs, show lexOs cliTable none [.text "--tvr=00".toList, .broken "-h".toList, .text "x".toList] =
      ([⟨.long "tvr", ["00".toList]⟩, ⟨.short 'h', []⟩], true) by decide +kernel]
    rfl
  · rw [executeOs, show lexOs cliTable none [.text "--help".toList, .broken []] =
      ([⟨.long "help", []⟩], true) by decide +kernel]
    rfl

end Pemv
