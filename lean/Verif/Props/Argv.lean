import Verif.Proofs.Argv
import Verif.Props.Cli

/-!
# C87 and C88: options without a value, and how options are written
-/

namespace Pemv

open Spec

/-! ### C87 -/

/-- **C87.** For the two options about sorting, leaving out the value means what is declared: the same as giving
`true`, in every command line. (Missing: the option for colour, see `c87_refuted`.) -/
theorem c87_missing_value_partial (m : Machine) (file : FigData) (env : Dict) (profile : Option String) (isTty : Bool)
    (a : ArgDef) (ha : a ∈ cliTable) (hc : a.hasName (.long "colour") = false) (d : String)
    (hd : a.defaultMissing = some d) (n : OptName) (hn : a.hasName n = true) (pre post : List Use) :
    execute m file env profile isTty (pre ++ ⟨n, []⟩ :: post) =
      execute m file env profile isTty (pre ++ ⟨n, [d.toList]⟩ :: post) := by
  obtain ⟨hres, hval⟩ := (missing_value a ha hc d hd) n hn
  have key : ∀ seen, resolveUses cliTable seen (pre ++ ⟨n, []⟩ :: post) =
      resolveUses cliTable seen (pre ++ ⟨n, [d.toList]⟩ :: post) := by
    induction pre with
    | nil =>
      intro seen
      rw [List.nil_append, List.nil_append, resolveUses, resolveUses, hres]
      simp only [hval]
    | cons u pre ih =>
      intro seen
      rw [List.cons_append, List.cons_append, resolveUses, resolveUses]
      simp only [ih]
  have h1 : ∀ u : Use, pre ++ u :: post ≠ [] := by simp
  rw [execute, execute, getMatches, getMatches, if_neg (h1 _), if_neg (h1 _), key]

/-- Both options, and their names. -/
example : (cliTable.filter (fun a => !a.hasName (.long "colour") && a.defaultMissing.isSome)).map
    (fun a => (a.long, a.aliases, a.defaultMissing)) =
    [("sort-parsed-tags", ["sort"], some "true"), ("no-sort-parsed-tags", ["no-sort"], some "true")] := by
  decide +kernel

/-- **C87 does not hold** for the option for colour: `always` is declared as what it means without a value, but it is
rejected without a value wherever it stands, and it is accepted with that value. -/
theorem c87_refuted (m : Machine) (profile : Option String) (isTty : Bool) :
    ∃ a ∈ cliTable, ∃ d, a.defaultMissing = some d ∧ ∃ n, a.hasName n = true ∧ ∃ post,
      execute m (fun _ _ => none) (fun _ => none) profile isTty (⟨n, []⟩ :: post) = .rejected ∧
      ∃ r, execute m (fun _ _ => none) (fun _ => none) profile isTty (⟨n, [d.toList]⟩ :: post) = .ran (.ok r) := by
  have hmem : argOf .colour ∈ cliTable := by
    rw [cliTable_eq]
    exact List.mem_map_of_mem (mem_allOpts _)
  have hu : [(⟨.long "colour", ["always".toList]⟩ : Use), ⟨.long "tvr", [['0']]⟩].mapM understand =
      some [.colour "always".toList, .operation .tvr ['0']] := by decide +kernel
  refine ⟨argOf .colour, hmem, "always", by decide +kernel, .long "colour", by decide +kernel,
    [⟨.long "tvr", [['0']]⟩], ?_, ?_⟩
  · exact (c70_ends m _ _ profile isTty [] [] rfl (by simp) (by simp)
      ⟨List.nodup_nil, Nat.zero_le 1, Nat.zero_le 1, Nat.zero_le 1⟩ ⟨.long "colour", []⟩
      [⟨.long "tvr", [['0']]⟩]).1 (by decide +kernel)
  · obtain ⟨ops, -, h, -⟩ := c70_runs m (fun _ _ => none) (fun _ => none) profile isTty _ _ (by simp) hu (by simp) (by simp)
      ⟨Nat.le_refl 1, Nat.le_refl 1, Nat.zero_le 1, fun h => by rcases h with h | h | h <;> exact absurd rfl h⟩
    have hcol : valueInForce (fun _ _ => none) (fun _ => none) profile [.colour "always".toList, .operation .tvr ['0']]
        .cliColour = some (.colour .always) := by
      have e : String.ofList "always".toList = "always" := String.ofList_toList
      simp only [valueInForce, settingsGiven, coloursOf, List.filterMap_cons, Given.colour?, List.filterMap_nil,
        List.head?_cons, Option.bind_some, e]
      decide +kernel
    exact ⟨_, h .always ['*'] true hcol rfl rfl⟩

/-- **C87.** The option for colour is rejected without a value in every command line that is read up to there. -/
theorem c87_colour_needs_value (m : Machine) (file : FigData) (env : Dict) (profile : Option String) (isTty : Bool)
    (pre : List Use) (gs : List Given) (h : pre.mapM understand = some gs) (hh : .help ∉ gs) (hv : .version ∉ gs)
    (hn : NoRepeats gs) (n : OptName) (hc : (n, .colour) ∈ optionNames) (post : List Use) :
    execute m file env profile isTty (pre ++ ⟨n, []⟩ :: post) = .rejected := by
  refine (c70_ends m file env profile isTty pre gs h hh hv hn ⟨n, []⟩ post).1 ?_
  have hl : optionNames.lookup n = some .colour :=
    (by decide +kernel : ∀ p ∈ optionNames, optionNames.lookup p.1 = some p.2) _ hc
  rw [understand, hl]
  rfl

/-- In the middle of a command line. -/
example (m : Machine) (file : FigData) (env : Dict) (isTty : Bool) :
    execute m file env none isTty ([⟨.long "tvr", ["00".toList]⟩] ++ ⟨.long "color", []⟩ :: [⟨.long "help", []⟩]) =
      .rejected :=
  c87_colour_needs_value m file env none isTty _ [.operation .tvr "00".toList] (by decide +kernel) (by decide)
    (by decide) ⟨by decide, by decide, by decide, by decide⟩ _ (by decide) _

/-! ### C88 -/

/-- **C88.** However options are written, what counts is which options with which values there are, in which order:
`--name value`, `--name=value`, `-c value`, `-cvalue` and `-c=value` are the same. A final `--` adds nothing. -/
theorem c88_styles (m : Machine) (file : FigData) (env : Dict) (profile : Option String) (isTty : Bool)
    (us : List Use) (ts : List Text) (hw : AllWritten us ts) (hu : ∀ u ∈ us, ∃ g, understand u = some g) :
    executeArgv m file env profile isTty ts = execute m file env profile isTty us ∧
    executeArgv m file env profile isTty (ts ++ ["--".toList]) = execute m file env profile isTty us := by
  have h1 := lex_allWritten us ts hw hu [] (Or.inl (fun t ht => by cases ht))
  have h2 := lex_allWritten us ts hw hu ["--".toList] (Or.inl (fun t ht => by
    cases ht
    rw [dashes]
    rintro (h | h)
    · cases h
    · exact h rfl))
  have e : lexArgs cliTable none ["--".toList] = ([], false) := by rw [dashes]; rfl
  rw [List.append_nil] at h1
  rw [e] at h2
  have e' : lexArgs cliTable none [] = ([], false) := rfl
  rw [e'] at h1
  simp only [List.append_nil] at h1 h2
  rw [executeArgv, executeArgv, h1, h2]
  exact ⟨rfl, rfl⟩

/-- A name, and a value that begins with a hyphen. -/
example (m : Machine) (file : FigData) (env : Dict) (profile : Option String) (isTty : Bool) :
    executeArgv m file env profile isTty (["--".toList ++ "tvr".toList ++ '=' :: ['-', '8']] ++ []) =
      execute m file env profile isTty [⟨.long "tvr", [['-', '8']]⟩] :=
  (c88_styles m file env profile isTty _ _ (.cons (.longEquals "tvr" ['-', '8']) .nil)
    (fun u hu => by
      rcases List.mem_singleton.1 hu with rfl
      exact ⟨.operation .tvr ['-', '8'], by decide +kernel⟩)).1

/-- **C88.** Attached to the name, every value arrives unchanged, whatever it looks like. -/
theorem c88_attached (m : Machine) (file : FigData) (env : Dict) (profile : Option String) (isTty : Bool)
    (n : String) (op : Operation) (hn : (.long n, .operation op) ∈ optionNames) (v : Text) (hv : v ≠ []) :
    executeArgv m file env profile isTty ["--".toList ++ n.toList ++ '=' :: v] =
      execute m file env profile isTty [⟨.long n, [v]⟩] := by
  have hl : optionNames.lookup (.long n) = some (.operation op) :=
    (by decide +kernel : ∀ p ∈ optionNames, optionNames.lookup p.1 = some p.2) _ hn
  refine (c88_styles m file env profile isTty [⟨.long n, [v]⟩] _ (.cons (.longEquals n v) .nil) ?_).1
  intro u hu
  rcases List.mem_singleton.1 hu with rfl
  refine ⟨.operation op v, ?_⟩
  rw [understand, hl]
  simp only [Option.bind_some, understandOpt, if_neg hv]

example (m : Machine) (file : FigData) (env : Dict) (profile : Option String) (isTty : Bool) :
    executeArgv m file env profile isTty ["--".toList ++ "9F34".toList ++ '=' :: ['-']] =
      execute m file env profile isTty [⟨.long "9F34", [['-']]⟩] :=
  c88_attached m file env profile isTty "9F34" .cvmResults (by decide) ['-'] (by decide)

/-- **C88.** Nothing else is carried out: if the program runs, then its arguments are options written in one of these
ways, possibly with a final `--`, and it does what they say. -/
theorem c88_only (m : Machine) (file : FigData) (env : Dict) (profile : Option String) (isTty : Bool)
    (args : List Text) (r : Out (TermColorChoice × Run)) (h : executeArgv m file env profile isTty args = .ran r) :
    ∃ us ts, AllWritten us ts ∧ (args = ts ∨ args = ts ++ ["--".toList]) ∧
      execute m file env profile isTty us = .ran r := by
  rw [executeArgv] at h
  split at h
  · rename_i us e
    obtain ⟨gs, hne, hgs, hh, hv, -⟩ := execute_ran m file env profile isTty us r h
    have hall := understood_all us gs hgs
    obtain ⟨ts, h1, h2⟩ := lex_read args none us e (fun u hu => by
      obtain ⟨g, hg, hmem⟩ := hall u hu
      exact ⟨g, hg, ends_iff g (fun e => hh (e ▸ hmem)) (fun e => hv (e ▸ hmem))⟩)
    exact ⟨us, ts, h1, h2, h⟩
  · split at h <;> cases h

/-- Two arguments that are obeyed. -/
example (m : Machine) (file : FigData) (env : Dict) (profile : Option String) (isTty : Bool) :
    ∃ us ts, AllWritten us ts ∧ (["-t=00".toList] = ts ∨ ["-t=00".toList] = ts ++ ["--".toList]) ∧
      ∃ r, execute m file env profile isTty us = .ran r := by
  have e : "-t=00".toList = '-' :: 't' :: '=' :: ['0', '0'] := by decide +kernel
  have hs := (c88_styles m file env profile isTty _ _ (.cons (.shortEquals 't' ['0', '0']) .nil)
    (fun u hu => by
      rcases List.mem_singleton.1 hu with rfl
      exact ⟨.operation .tvr ['0', '0'], by decide +kernel⟩)).1
  have hr : ∃ r, execute m file env profile isTty [⟨.short 't', [['0', '0']]⟩] = .ran r := ⟨_, rfl⟩
  obtain ⟨r, hr⟩ := hr
  rw [hr] at hs
  rw [e]
  obtain ⟨us, ts, h1, h2, h3⟩ := c88_only m file env profile isTty _ r hs
  exact ⟨us, ts, h1, h2, r, h3⟩

/-- **C88.** An argument that is neither an option nor a value of one is an error, whatever follows. The option before
it is complete: an operation or a colour choice, which take one value. -/
theorem c88_stray (m : Machine) (file : FigData) (env : Dict) (profile : Option String) (isTty : Bool)
    (us : List Use) (ts : List Text) (gs : List Given) (hw : AllWritten us ts) (hu : us.mapM understand = some gs)
    (hh : .help ∉ gs) (hv : .version ∉ gs)
    (hlast : ∀ g ∈ gs.getLast?, (∃ op v, g = .operation op v) ∨ ∃ v, g = .colour v)
    (t : Text) (ht : StandsAlone t) (rest : List Text) :
    executeArgv m file env profile isTty (ts ++ t :: rest) = .rejected := by
  have hl := lex_allWritten us ts hw (fun u hu' => (understood_all us gs hu u hu').imp fun _ h => h.1) (t :: rest)
    (Or.inr (closed_of_last us gs hu hlast))
  have e : lexArgs cliTable none (t :: rest) = ([], true) := by
    rw [lexArgs, tokenOf_plain t ht]
  rw [e, List.append_nil] at hl
  rw [executeArgv, hl]
  exact stray_rejected us gs hu hh hv

/-- **C88.** After `--` there can be no options, only further arguments, and there are none to be given. -/
theorem c88_after_dashes (m : Machine) (file : FigData) (env : Dict) (profile : Option String) (isTty : Bool)
    (us : List Use) (ts : List Text) (gs : List Given) (hw : AllWritten us ts) (hu : us.mapM understand = some gs)
    (hh : .help ∉ gs) (hv : .version ∉ gs) (t : Text) (rest : List Text) :
    executeArgv m file env profile isTty (ts ++ "--".toList :: t :: rest) = .rejected := by
  have hl := lex_allWritten us ts hw (fun u hu' => (understood_all us gs hu u hu').imp fun _ h => h.1)
    ("--".toList :: t :: rest) (Or.inl (fun t ht => by
      cases ht
      rw [dashes]
      rintro (h | h)
      · cases h
      · exact h rfl))
  have e : lexArgs cliTable none ("--".toList :: t :: rest) = ([], true) := by rw [dashes]; rfl
  rw [e, List.append_nil] at hl
  rw [executeArgv, hl]
  exact stray_rejected us gs hu hh hv

/-- **C88.** A value that begins with a hyphen and goes on cannot follow its option as an argument of its own: that is
an error, whatever the value and whatever follows. -/
theorem c88_hyphen (m : Machine) (file : FigData) (env : Dict) (profile : Option String) (isTty : Bool)
    (us : List Use) (ts : List Text) (gs : List Given) (hw : AllWritten us ts) (hu : us.mapM understand = some gs)
    (hh : .help ∉ gs) (hv : .version ∉ gs) (hn : NoRepeats gs) (n : OptName) (name : Text)
    (hname : WrittenAs ⟨n, []⟩ [name]) (op : Operation) (hop : (n, .operation op) ∈ optionNames) (t : Text)
    (ht : ¬ StandsAlone t) (rest : List Text) :
    executeArgv m file env profile isTty (ts ++ name :: t :: rest) = .rejected := by
  have hlk : optionNames.lookup n = some (.operation op) :=
    (by decide +kernel : ∀ p ∈ optionNames, optionNames.lookup p.1 = some p.2) _ hop
  have hnot : understand ⟨n, []⟩ = none := by rw [understand, hlk]; rfl
  obtain ⟨us', junk, he⟩ := lex_name n name hname (.operation op) hlk (t :: rest) (fun x hx => by cases hx; exact ht)
  have hl := lex_allWritten us ts hw (fun u hu' => (understood_all us gs hu u hu').imp fun _ h => h.1)
    (name :: t :: rest) (Or.inl (written_begins _ _ (t :: rest) hname))
  rw [he] at hl
  exact argv_rejected m file env profile isTty _ us gs hu hh hv hn ⟨n, []⟩ us' junk hl hnot

/-- **C88.** The options for help and version are obeyed when they are reached, whatever follows. -/
theorem c88_help (m : Machine) (file : FigData) (env : Dict) (profile : Option String) (isTty : Bool)
    (us : List Use) (ts : List Text) (gs : List Given) (hw : AllWritten us ts) (hu : us.mapM understand = some gs)
    (hh : .help ∉ gs) (hv : .version ∉ gs) (hn : NoRepeats gs) (n : OptName) (name : Text)
    (hname : WrittenAs ⟨n, []⟩ [name]) (rest : List Text) :
    ((n, .help) ∈ optionNames → executeArgv m file env profile isTty (ts ++ name :: rest) = .help) ∧
    ((n, .version) ∈ optionNames → executeArgv m file env profile isTty (ts ++ name :: rest) = .version) := by
  have hl := lex_allWritten us ts hw (fun u hu' => (understood_all us gs hu u hu').imp fun _ h => h.1)
    (name :: rest) (Or.inl (written_begins _ _ rest hname))
  refine ⟨fun ho => ?_, fun ho => ?_⟩
  · have hlk : optionNames.lookup n = some .help :=
      (by decide +kernel : ∀ p ∈ optionNames, optionNames.lookup p.1 = some p.2) _ ho
    have hun : understand ⟨n, []⟩ = some .help := by rw [understand, hlk]; rfl
    rw [← List.singleton_append (x := name), lex_written _ _ rest _ hun hname (Or.inr (Or.inl (maxArgs_eq _)))] at hl
    exact (argv_ends m file env profile isTty _ us gs hu hh hv hn ⟨n, []⟩ _ _ hl).1 hun
  · have hlk : optionNames.lookup n = some .version :=
      (by decide +kernel : ∀ p ∈ optionNames, optionNames.lookup p.1 = some p.2) _ ho
    have hun : understand ⟨n, []⟩ = some .version := by rw [understand, hlk]; rfl
    rw [← List.singleton_append (x := name), lex_written _ _ rest _ hun hname (Or.inr (Or.inl (maxArgs_eq _)))] at hl
    exact (argv_ends m file env profile isTty _ us gs hu hh hv hn ⟨n, []⟩ _ _ hl).2 hun

/-- **C88.** A name that is not one of the options is an error, whatever is attached to it and whatever follows. -/
theorem c88_unknown (m : Machine) (file : FigData) (env : Dict) (profile : Option String) (isTty : Bool)
    (us : List Use) (ts : List Text) (gs : List Given) (hw : AllWritten us ts) (hu : us.mapM understand = some gs)
    (hh : .help ∉ gs) (hv : .version ∉ gs) (hn : NoRepeats gs) (u : Use) (t : Text) (hname : WrittenAs u [t])
    (hlong : ∀ n, u.name = .long n → n ≠ "" ∧ '=' ∉ n.toList) (hshort : u.name ≠ .short '-')
    (hno : ∀ o, (u.name, o) ∉ optionNames) (rest : List Text) :
    executeArgv m file env profile isTty (ts ++ t :: rest) = .rejected := by
  have hl := lex_allWritten us ts hw (fun u hu' => (understood_all us gs hu u hu').imp fun _ h => h.1)
    (t :: rest) (Or.inl (written_begins _ _ rest hname))
  have hlk : optionNames.lookup u.name = none := by
    cases e : optionNames.lookup u.name with
    | none => rfl
    | some o => exact absurd (mem_of_lookup e) (hno o)
  obtain ⟨vs, us', junk, he⟩ := lex_unknown u t hname (by
    cases hun : u.name with
    | long n =>
      refine ⟨fun e => (hlong n hun).1 ?_, (hlong n hun).2⟩
      rw [← String.ofList_toList (s := n), e]
    | short c => exact fun e => hshort (by rw [hun, e])) hlk rest
  rw [he] at hl
  refine argv_rejected m file env profile isTty _ us gs hu hh hv hn ⟨u.name, vs⟩ us' junk hl ?_
  rw [understand, hlk]
  rfl

/-- **C88.** No arguments, or only `--`: the help text is printed. -/
theorem c88_empty (m : Machine) (file : FigData) (env : Dict) (profile : Option String) (isTty : Bool) :
    executeArgv m file env profile isTty [] = .help ∧ executeArgv m file env profile isTty ["--".toList] = .help := by
  rw [dashes]
  exact ⟨rfl, rfl⟩

/-- The same options in two ways, one of them with a value that begins with a hyphen. -/
example : AllWritten [⟨.long "no-sort", []⟩, ⟨.short 'm', [['#']]⟩, ⟨.long "ber", ["-9F02 00".toList]⟩]
      ["--no-sort".toList, "-m#".toList, "--ber=-9F02 00".toList] ∧
    AllWritten [⟨.long "no-sort", []⟩, ⟨.short 'm', [['#']]⟩, ⟨.long "ber", ["-9F02 00".toList]⟩]
      ["--no-sort".toList, "-m".toList, "#".toList, "--ber=-9F02 00".toList] := by
  have e1 : "--no-sort".toList = "--".toList ++ "no-sort".toList := by decide +kernel
  have e2 : "--ber=-9F02 00".toList = "--".toList ++ "ber".toList ++ '=' :: "-9F02 00".toList := by decide +kernel
  have e3 : "-m#".toList = '-' :: 'm' :: ['#'] := by decide +kernel
  have e4 : "-m".toList = ['-', 'm'] := by decide +kernel
  have e5 : "#".toList = ['#'] := by decide +kernel
  rw [e1, e2, e3, e4, e5]
  refine ⟨.cons (.long "no-sort" [] (by simp)) (.cons (.shortAttached 'm' ['#'] (by simp) (by simp))
    (.cons (.longEquals "ber" _) .nil)), .cons (.long "no-sort" [] (by simp)) (.cons (.short 'm' [['#']] ?_)
    (.cons (.longEquals "ber" _) .nil))⟩
  intro v hv
  rcases List.mem_singleton.1 hv with rfl
  exact Or.inr (by simp)

example : ∀ u ∈ [(⟨.long "no-sort", []⟩ : Use), ⟨.short 'm', [['#']]⟩, ⟨.long "ber", ["-9F02 00".toList]⟩],
    ∃ g, understand u = some g := by
  intro u hu
  have := (by decide +kernel : ∀ u ∈ [(⟨.long "no-sort", []⟩ : Use), ⟨.short 'm', [['#']]⟩,
    ⟨.long "ber", ["-9F02 00".toList]⟩], (understand u).isSome = true) u hu
  exact Option.isSome_iff_exists.1 this

/-- A value that stands alone, and one that does not. -/
example : StandsAlone "9F02".toList ∧ StandsAlone "-".toList ∧ ¬ StandsAlone "-9F02".toList := by
  have e1 : "9F02".toList = ['9', 'F', '0', '2'] := by decide +kernel
  have e2 : "-9F02".toList = ['-', '9', 'F', '0', '2'] := by decide +kernel
  have e3 : "-".toList = ['-'] := by decide +kernel
  rw [e1, e2, e3]
  refine ⟨Or.inr (by simp), Or.inl rfl, ?_⟩
  rintro (h | h)
  · cases h
  · exact h rfl

/-- After `--no-sort --tvr=80`: a stray argument, one after `--`, a value with a hyphen, the option for help, and an option that
does not exist. -/
example (m : Machine) (file : FigData) (env : Dict) (profile : Option String) (isTty : Bool) :
    let run := fun rest => executeArgv m file env profile isTty
      (["--".toList ++ "no-sort".toList, "--".toList ++ "tvr".toList ++ '=' :: ['8', '0']] ++ rest)
    run [['9', 'F']] = .rejected ∧ run ["--".toList, "--".toList ++ "help".toList] = .rejected ∧
    run ["--".toList ++ "ber".toList, ['-', '9', 'F']] = .rejected ∧ run ["--".toList ++ "help".toList, ['x']] = .help ∧
    run ["--".toList ++ "nosuch".toList ++ '=' :: ['1'], "--".toList ++ "help".toList] = .rejected := by
  intro run
  let us : List Use := [⟨.long "no-sort", []⟩, ⟨.long "tvr", [['8', '0']]⟩]
  have hw : AllWritten us ["--".toList ++ "no-sort".toList, "--".toList ++ "tvr".toList ++ '=' :: ['8', '0']] :=
    .cons (.long "no-sort" [] (by simp)) (.cons (.longEquals "tvr" _) .nil)
  have hu : us.mapM understand = some [.noSort true, .operation .tvr ['8', '0']] := by decide +kernel
  have hn : NoRepeats [.noSort true, .operation .tvr ['8', '0']] :=
    ⟨by decide +kernel, by decide +kernel, by decide +kernel, by decide +kernel⟩
  have hname : WrittenAs ⟨.long "help", []⟩ ["--".toList ++ "help".toList] := .long "help" [] (by simp)
  refine ⟨?_, ?_, ?_, ?_, ?_⟩
  · exact c88_stray m file env profile isTty us _ _ hw hu (by simp) (by simp)
      (fun g hg => by cases hg; exact Or.inl ⟨_, _, rfl⟩) _ (Or.inr (by simp)) []
  · exact c88_after_dashes m file env profile isTty us _ _ hw hu (by simp) (by simp) _ []
  · refine c88_hyphen m file env profile isTty us _ _ hw hu (by simp) (by simp) hn (.long "ber") _ (.long "ber" [] (by simp)) .berTlv
      (by decide +kernel) _ ?_ []
    rintro (h | h)
    · cases h
    · exact h rfl
  · exact (c88_help m file env profile isTty us _ _ hw hu (by simp) (by simp) hn (.long "help") _ hname _).1 (by decide +kernel)
  · refine c88_unknown m file env profile isTty us _ _ hw hu (by simp) (by simp) hn ⟨.long "nosuch", [['1']]⟩ _ (.longEquals "nosuch" _)
      ?_ (by simp) ?_ _
    · intro n hn
      cases hn
      exact ⟨by decide +kernel, by decide +kernel⟩
    · intro o
      have := (by decide +kernel : ∀ p ∈ optionNames, p.1 ≠ .long "nosuch")
      exact fun h => this _ h rfl

end Pemv
