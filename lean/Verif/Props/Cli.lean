import Verif.Proofs.CliTags
import Verif.Props.Config

/-!
# C69–C72: the command line
-/

namespace Pemv

open Spec

/-! ### C69 -/

/-- **C69.** Every name stands for at most one option. -/
theorem c69_unique (a b : ArgDef) (ha : a ∈ cliTable) (hb : b ∈ cliTable) (n : OptName) (hna : a.hasName n = true)
    (hnb : b.hasName n = true) : a = b := by
  rw [hasName_iff] at hna hnb
  exact (by decide +kernel : ∀ a ∈ cliTable, ∀ b ∈ cliTable, ∀ n ∈ a.names, n ∈ b.names → a = b) a ha b hb n hna hnb

/-- Two names of one option. -/
example (a : ArgDef) (ha : a ∈ cliTable) (h : a.hasName (.long "tac") = true) : a.hasName (.short 't') = true := by
  have hb : ∃ b ∈ cliTable, b.hasName (.long "tac") = true ∧ b.hasName (.short 't') = true := by decide +kernel
  obtain ⟨b, hb, h1, h2⟩ := hb
  rw [c69_unique a b ha hb _ h h1]
  exact h2

/-- **C69.** The names in use are those of `Spec.optionNames`, and no others. -/
theorem c69_names (n : OptName) : (∃ a ∈ cliTable, a.hasName n = true) ↔ ∃ o, (n, o) ∈ optionNames := by
  constructor
  · rintro ⟨a, ha, hn⟩
    rw [hasName_iff] at hn
    have := (by decide +kernel : ∀ a ∈ cliTable, ∀ n ∈ a.names, n ∈ optionNames.map Prod.fst) a ha n hn
    obtain ⟨⟨n', o⟩, hp, rfl⟩ := List.mem_map.1 this
    exact ⟨o, hp⟩
  · rintro ⟨o, hp⟩
    have := (by decide +kernel : ∀ p ∈ optionNames, ∃ a ∈ cliTable, p.1 ∈ a.names) (n, o) hp
    obtain ⟨a, ha, hn⟩ := this
    exact ⟨a, ha, (hasName_iff a n).2 hn⟩

/-! ### C70 -/

/-- **C70.** A command line that is understood and makes sense is carried out: the settings are the values in force,
where the command line comes first, and the operation is the one asked for. If a value in force has the wrong type,
which only a configuration file or the environment can cause, the program panics. -/
theorem c70_runs (m : Machine) (file : FigData) (env : Dict) (profile : Option String) (isTty : Bool)
    (uses : List Use) (gs : List Given) (hne : uses ≠ []) (h : uses.mapM understand = some gs)
    (hh : .help ∉ gs) (hv : .version ∉ gs) (hc : Consistent gs) :
    ∃ ops, selected ops = (operationsOf gs).head? ∧
      (∀ colour masks sort, valueInForce file env profile gs .cliColour = some (.colour colour) →
        valueInForce file env profile gs .maskingCharacters = some (.chars masks) →
        valueInForce file env profile gs .sortParsedTags = some (.bool sort) →
        execute m file env profile isTty uses =
          .ran (.ok ((colour.changeBasedOnTty isTty).toTerm, run m ops masks sort))) ∧
      ((∃ k, ∀ v, valueInForce file env profile gs k = some v → ¬ RightType k v) →
        execute m file env profile isTty uses = .ran .panic) := by
  obtain ⟨c, hcfg, hcol, hgiven⟩ := cliConfigOf_eq uses gs h hc.sorting
  have hexec := execute_eq m file env profile isTty uses gs hne h
    (fun g hg => ends_iff g (fun e => hh (e ▸ hg)) (fun e => hv (e ▸ hg))) hc c hcfg
  have hin : ∀ k, inForce file env profile c k = valueInForce file env profile gs k := by
    intro k; rw [inForce, valueInForce, hgiven]
  refine ⟨opsOf (operationsOf gs), selected_opsOf _ hc.operation, ?_, ?_⟩
  · intro colour masks sort h1 h2 h3
    rw [hexec, program, settings_spec file env profile c isTty hcol, hin, hin, hin, h1, h2, h3]
    rfl
  · rintro ⟨k, hk⟩
    rw [hexec, program, settings_spec file env profile c isTty hcol, hin, hin, hin]
    cases h1 : valueInForce file env profile gs .cliColour with
    | none => rfl
    | some v1 =>
      cases v1 with
      | colour col =>
        cases h2 : valueInForce file env profile gs .maskingCharacters with
        | none => rfl
        | some v2 =>
          cases v2 with
          | chars ms =>
            cases h3 : valueInForce file env profile gs .sortParsedTags with
            | none => rfl
            | some v3 =>
              cases v3 with
              | bool b =>
                exfalso
                cases k with
                | cliColour => exact hk _ h1 trivial
                | maskingCharacters => exact hk _ h2 trivial
                | sortParsedTags => exact hk _ h3 trivial
              | _ => rfl
          | _ => rfl
      | _ => rfl

example := c70_runs .debug64 (fun _ _ => none) (fun _ => none) none true
  [⟨.long "ber", ["5A00".toList]⟩, ⟨.short 'm', ["#".toList]⟩] [.operation .berTlv "5A00".toList, .masking ['#']]
  (by simp) (by decide +kernel) (by simp) (by simp)
  ⟨by decide +kernel, by decide +kernel, by decide +kernel, fun _ => by decide +kernel⟩

/-- **C70.** A command line that is understood but makes no sense is rejected. -/
theorem c70_inconsistent (m : Machine) (file : FigData) (env : Dict) (profile : Option String) (isTty : Bool)
    (uses : List Use) (gs : List Given) (hne : uses ≠ []) (h : uses.mapM understand = some gs)
    (hh : .help ∉ gs) (hv : .version ∉ gs) (hc : ¬ Consistent gs) :
    execute m file env profile isTty uses = .rejected := by
  have hs : ∀ g ∈ gs, endsReading g = false := fun g hg => ends_iff g (fun e => hh (e ▸ hg)) (fun e => hv (e ▸ hg))
  rw [consistent_iff gs hs] at hc
  rw [execute, getMatches, if_neg hne, resolveUses_ok uses gs h hs]
  by_cases h1 : notRepeated [] gs = true
  · rw [if_pos h1]
    have h2 : combinationAllowed (gs.map entry) = false := by
      rw [← Bool.not_eq_true]; exact fun e => hc ⟨h1, e⟩
    simp only [h2]
    rfl
  · rw [if_neg h1]

/-- Sorting asked for where there is nothing to sort. -/
example (m : Machine) (file : FigData) (env : Dict) (profile : Option String) (isTty : Bool) :
    execute m file env profile isTty [⟨.long "sort", []⟩, ⟨.long "tvr", [['0']]⟩] = .rejected := by
  refine c70_inconsistent m file env profile isTty _ [.sort true, .operation .tvr ['0']] (by simp) (by decide +kernel)
    (by decide) (by decide) fun h => ?_
  obtain ⟨p, hp, ht⟩ := h.block (Or.inr (Or.inl (by decide)))
  simp only [operationsOf, Given.operation?, List.filterMap_cons, List.filterMap_nil, List.mem_singleton] at hp
  subst hp
  exact absurd ht (by decide)

/-- **C70.** Arguments are read from left to right. Reading ends at the first use of an option that is not
understood, and the command line is rejected; it also ends at the options for help and version, which are then
obeyed. What comes before must not repeat an option, what comes after has no influence. -/
theorem c70_ends (m : Machine) (file : FigData) (env : Dict) (profile : Option String) (isTty : Bool)
    (pre : List Use) (gs : List Given) (h : pre.mapM understand = some gs) (hh : .help ∉ gs) (hv : .version ∉ gs)
    (hn : NoRepeats gs) (u : Use) (post : List Use) :
    (understand u = none → execute m file env profile isTty (pre ++ u :: post) = .rejected) ∧
    (understand u = some .help → execute m file env profile isTty (pre ++ u :: post) = .help) ∧
    (understand u = some .version → execute m file env profile isTty (pre ++ u :: post) = .version) := by
  have hs : ∀ g ∈ gs, endsReading g = false := fun g hg => ends_iff g (fun e => hh (e ▸ hg)) (fun e => hv (e ▸ hg))
  rw [noRepeats_iff gs hs] at hn
  have key : ∀ r, (∀ seen, resolveUses cliTable seen (u :: post) = .error r) →
      execute m file env profile isTty (pre ++ u :: post) = match r with
        | .rejected => .rejected
        | .help => .help
        | .version => .version
        | .matches ms => execute m file env profile isTty (pre ++ u :: post) := by
    intro r hr
    have := resolveUses_prefix pre gs h hs [] hn u post r hr
    rw [execute, getMatches, if_neg (by simp), this]
    cases r <;> rfl
  refine ⟨fun hu => ?_, fun hu => ?_, fun hu => ?_⟩
  · refine key .rejected (fun seen => ?_)
    rw [resolveUses]
    rcases use_not_understood u hu with h0 | ⟨a, h0, h1⟩
    · rw [h0]
    · rw [h0]; simp only [h1]
  · refine key .help (fun seen => ?_)
    obtain ⟨h0, h1⟩ := use_understood u _ hu
    rw [resolveUses, h0]
    simp only [h1, action_eq]
    rfl
  · refine key .version (fun seen => ?_)
    obtain ⟨h0, h1⟩ := use_understood u _ hu
    rw [resolveUses, h0]
    simp only [h1, action_eq]
    rfl

/-- Help before and after a mistake. -/
example (m : Machine) (file : FigData) (env : Dict) (profile : Option String) (isTty : Bool) :
    execute m file env profile isTty ([⟨.long "tvr", [['0']]⟩] ++ ⟨.short 'h', []⟩ :: [⟨.long "nonsense", []⟩]) = .help ∧
    execute m file env profile isTty ([⟨.long "tvr", [['0']]⟩] ++ ⟨.long "nonsense", []⟩ :: [⟨.short 'h', []⟩]) =
      .rejected :=
  have key := fun u post => c70_ends m file env profile isTty [⟨.long "tvr", [['0']]⟩] [.operation .tvr ['0']]
    (by decide +kernel) (by decide) (by decide) ⟨by decide, by decide, by decide, by decide⟩ u post
  ⟨(key _ _).2.1 (by decide +kernel), (key _ _).1 (by decide +kernel)⟩

/-- **C70.** Without arguments the help text is printed. -/
theorem c70_no_arguments (m : Machine) (file : FigData) (env : Dict) (profile : Option String) (isTty : Bool) :
    execute m file env profile isTty [] = .help := rfl

/-- **C70.** If the configuration file and the environment hold values of the right types, no command line makes the
program panic before the operation starts: every option that is looked up is declared, with the type it is
looked up with, and `expect` and `unwrap` on options never fail. -/
theorem c70_no_panic (m : Machine) (file : FigData) (env : Dict) (profile : Option String) (isTty : Bool)
    (hw : WellTyped file env) (uses : List Use) (r : Out (TermColorChoice × Run))
    (hr : execute m file env profile isTty uses = .ran r) : ∃ x, r = .ok x := by
  obtain ⟨gs, hne, h, hh, hv, hc⟩ := execute_ran m file env profile isTty uses r hr
  obtain ⟨ops, -, hrun, -⟩ := c70_runs m file env profile isTty uses gs hne h hh hv hc
  have hty := valueInForce_rightType file env profile gs hw
  obtain ⟨v1, h1, t1⟩ := hty .cliColour
  obtain ⟨v2, h2, t2⟩ := hty .maskingCharacters
  obtain ⟨v3, h3, t3⟩ := hty .sortParsedTags
  cases v1 with
  | colour col =>
    cases v2 with
    | chars ms =>
      cases v3 with
      | bool b =>
        rw [hrun col ms b h1 h2 h3] at hr
        cases hr
        exact ⟨_, rfl⟩
      | _ => cases t3
    | _ => cases t2
  | _ => cases t1

/-- Several options, in any order, by any of their names. -/
example : [⟨.long "no-sort", []⟩, ⟨.short 'm', [['#'], ['X']]⟩, ⟨.short 'b', ["9F02 00".toList]⟩,
      ⟨.long "masking", [['-']]⟩, ⟨.long "color", ["never".toList]⟩].mapM understand =
    some [.noSort true, .masking ['#', 'X'], .operation .berTlv "9F02 00".toList, .masking ['-'],
      .colour "never".toList] := by decide +kernel

example : Consistent [.noSort true, .masking ['#', 'X'], .operation .berTlv "9F02 00".toList, .masking ['-'],
    .colour "never".toList] := by
  refine ⟨by decide, by decide, by decide, fun _ => ⟨(.berTlv, "9F02 00".toList), ?_, by decide⟩⟩
  simp [operationsOf, Given.operation?]

/-- Two operations, and sorting without a block. -/
example : ¬ Consistent [.operation .tvr ['0'], .operation .tsi ['0']] ∧
    ¬ Consistent [.sort true, .operation .tvr ['0']] := by
  refine ⟨fun h => ?_, fun h => ?_⟩
  · exact absurd h.operation (by decide)
  · obtain ⟨p, hp, ht⟩ := h.block (Or.inr (Or.inl (by decide)))
    simp only [operationsOf, Given.operation?, List.filterMap_cons, List.filterMap_nil, List.mem_singleton] at hp
    subst hp
    exact absurd ht (by decide)

/-! ### C71 -/

/-- **C71.** A name that is a number in hex is a tag, and the option shows what is shown for a data object with that
tag; a value that is not understood is reported as an error. -/
theorem c71_by_tag (m : Machine) (file : FigData) (env : Dict) (profile : Option String) (isTty : Bool)
    (hw : WellTyped file env) (name : String) (op : Operation) (hn : (.long name, .operation op) ∈ optionNames)
    (hx : ∀ c ∈ name.toList, IsHex c) (s : Text) (hs : s ≠ []) :
    ∃ colour r, execute m file env profile isTty [⟨.long name, [s]⟩] = .ran (.ok (colour, r)) ∧
      (∀ d ls, DataOf op s d → Acceptable (hexBytes name.toList) d →
        valueLines true (hexBytes name.toList) d = some ls → Succeeds r (showLines 0 ls)) ∧
      ((¬ ∃ d ls, DataOf op s d ∧ Acceptable (hexBytes name.toList) d ∧
        valueLines true (hexBytes name.toList) d = some ls) → ∃ e, Fails r (message e)) := by
  obtain ⟨⟨n, o, tag⟩, hp, rfl, rfl, htag⟩ := tagNames_complete name op hn hx
  obtain ⟨ops, hsel, masks, sort, colour, hexec⟩ :=
    execute_single m file env profile isTty hw (.long n) o s hs (tagNames_lookup _ hp)
  refine ⟨colour, run m ops masks sort, hexec, ?_⟩
  simp only at htag
  rw [htag]
  exact tag_report m ops masks sort _ hp s hsel

/-- Such names, and a value. -/
example : (OptName.long "9f34", Opt.operation .cvmResults) ∈ optionNames ∧ (∀ c ∈ "9f34".toList, IsHex c) ∧
    hexBytes "9f34".toList = [0x9F, 0x34] := by decide +kernel

example : DataOf .serviceCode "201".toList [0x02, 0x01] := by
  rw [DataOf, if_pos rfl]
  refine ⟨201, ⟨"201".toList, [2, 0, 1], Or.inl ?_, ?_, by decide, by decide, by decide⟩, by decide, by decide⟩
  · have e : "201".toList = ['2', '0', '1'] := by decide +kernel
    rw [e]
    refine ⟨[], [], rfl, by simp, by simp, ?_, ?_⟩ <;> (intro c hc; cases hc; unfold IsWs; decide)
  · show _ = _
    decide +kernel

/-! ### C72 -/

/-- **C72.** The defaults declared for the options are the built-in values: where nothing is configured, giving them
explicitly changes nothing. -/
theorem c72_defaults (m : Machine) (profile : Option String) (isTty : Bool) (n : OptName) (op : Operation) (s : Text)
    (hs : s ≠ []) (hn : (n, .operation op) ∈ optionNames) (hop : op ∈ tlvOperations) (sorting : Use)
    (hsort : sorting ∈ [⟨.long "sort-parsed-tags", ["true".toList]⟩, ⟨.long "no-sort-parsed-tags", ["false".toList]⟩]) :
    execute m (fun _ _ => none) (fun _ => none) profile isTty
      [⟨n, [s]⟩, ⟨.long "colour", ["auto".toList]⟩, ⟨.long "masking-character", ["*".toList]⟩, sorting] =
    execute m (fun _ _ => none) (fun _ => none) profile isTty [⟨n, [s]⟩] := by
  have hl : optionNames.lookup n = some (.operation op) :=
    (by decide +kernel : ∀ p ∈ optionNames, optionNames.lookup p.1 = some p.2) _ hn
  have hu : understand ⟨n, [s]⟩ = some (.operation op s) := by
    rw [understand, hl]
    simp only [Option.bind_some, understandOpt, if_neg hs]
  have h1 : [(⟨n, [s]⟩ : Use)].mapM understand = some [.operation op s] := by
    rw [List.mapM_cons, hu]; rfl
  obtain ⟨g, hg, hgs⟩ : ∃ g, understand sorting = some g ∧ (g = .sort true ∨ g = .noSort false) := by
    simp only [List.mem_cons, List.not_mem_nil, or_false] at hsort
    rcases hsort with rfl | rfl
    · exact ⟨.sort true, by decide +kernel, Or.inl rfl⟩
    · exact ⟨.noSort false, by decide +kernel, Or.inr rfl⟩
  have h2 : [(⟨n, [s]⟩ : Use), ⟨.long "colour", ["auto".toList]⟩, ⟨.long "masking-character", ["*".toList]⟩,
      sorting].mapM understand = some [.operation op s, .colour "auto".toList, .masking ['*'], g] := by
    have e1 : understand ⟨.long "colour", ["auto".toList]⟩ = some (.colour "auto".toList) := by decide +kernel
    have e2 : understand ⟨.long "masking-character", ["*".toList]⟩ = some (.masking ['*']) := by decide +kernel
    rw [List.mapM_cons, List.mapM_cons, List.mapM_cons, List.mapM_cons, hu, e1, e2, hg]
    rfl
  have hc1 : Consistent [.operation op s] :=
    ⟨(Nat.le_refl 1 : 1 ≤ 1), (Nat.zero_le 1 : 0 ≤ 1), (Nat.zero_le 1 : 0 ≤ 1), fun h => by
      rcases h with h | h | h <;> exact absurd rfl h⟩
  have hc2 : Consistent [.operation op s, .colour "auto".toList, .masking ['*'], g] := by
    rcases hgs with rfl | rfl
    · exact ⟨(Nat.le_refl 1 : 1 ≤ 1), (Nat.le_refl 1 : 1 ≤ 1), (Nat.le_refl 1 : 1 ≤ 1),
        fun _ => ⟨(op, s), List.mem_cons_self, hop⟩⟩
    · exact ⟨(Nat.le_refl 1 : 1 ≤ 1), (Nat.le_refl 1 : 1 ≤ 1), (Nat.le_refl 1 : 1 ≤ 1),
        fun _ => ⟨(op, s), List.mem_cons_self, hop⟩⟩
  obtain ⟨o1, s1, r1, -⟩ := c70_runs m (fun _ _ => none) (fun _ => none) profile isTty _ _ (by simp) h1
    (by simp) (by simp) hc1
  obtain ⟨o2, s2, r2, -⟩ := c70_runs m (fun _ _ => none) (fun _ => none) profile isTty _ _ (by simp) h2
    (by rcases hgs with rfl | rfl <;> simp) (by rcases hgs with rfl | rfl <;> simp) hc2
  have hsel : selected o2 = selected o1 := by rw [s1, s2]; rfl
  have a1 := r1 .auto ['*'] true rfl rfl rfl
  have a2 := r2 .auto ['*'] true rfl (by rcases hgs with rfl | rfl <;> rfl) (by rcases hgs with rfl | rfl <;> rfl)
  rw [a1, a2, c58_first_option m o2 o1 ['*'] true hsel]

/-- **C72.** These are the values the help text shows as defaults. -/
theorem c72_declared :
    (resolve cliTable (.long "colour")).map ArgDef.default = some ["auto"] ∧
    (resolve cliTable (.long "masking-character")).map ArgDef.default = some ["*"] ∧
    (resolve cliTable (.long "sort-parsed-tags")).map ArgDef.default = some ["true"] ∧
    (resolve cliTable (.long "no-sort-parsed-tags")).map ArgDef.default = some ["false"] := by
  decide +kernel

/-- Defaults given with a request. -/
example : execute .debug64 (fun _ _ => none) (fun _ => none) none true
      [⟨.short 'b', ["500141".toList]⟩, ⟨.long "colour", ["auto".toList]⟩, ⟨.long "masking-character", ["*".toList]⟩,
        ⟨.long "no-sort-parsed-tags", ["false".toList]⟩] =
    execute .debug64 (fun _ _ => none) (fun _ => none) none true [⟨.short 'b', ["500141".toList]⟩] :=
  c72_defaults .debug64 none true (.short 'b') .berTlv _ (by decide) (by decide) (by decide) _ (by simp)

end Pemv
