import Verif.Spec.World
import Verif.Proofs.Argv
import Verif.Proofs.Decimal

/-!
# Facts about where the settings come from
-/

namespace Pemv

open Spec

/-! ### Names of variables -/

theorem asciiLower_iff (c d : Char) (hd : asciiLower d = d) :
    asciiLower c = d ↔ c = d ∨ (97 ≤ d.toNat ∧ d.toNat ≤ 122 ∧ c.toNat + 32 = d.toNat) := by
  have ofNat32 : ∀ c : Char, 65 ≤ c.toNat → c.toNat ≤ 90 → (Char.ofNat (c.toNat + 32)).toNat = c.toNat + 32 := by
    intro c h1 h2
    have hv : Nat.isValidChar (c.toNat + 32) := Or.inl (by omega)
    rw [Char.ofNat, dif_pos hv]
    rfl
  have up : ∀ c : Char, ('A' ≤ c ∧ c ≤ 'Z') ↔ (65 ≤ c.toNat ∧ c.toNat ≤ 90) := by
    intro c
    exact ⟨fun h => ⟨h.1, h.2⟩, fun h => ⟨h.1, h.2⟩⟩
  have hdn : ¬ (65 ≤ d.toNat ∧ d.toNat ≤ 90) := by
    intro h
    rw [asciiLower, if_pos ((up d).2 h)] at hd
    have := congrArg Char.toNat hd
    rw [ofNat32 d h.1 h.2] at this
    omega
  rw [asciiLower]
  by_cases h : 'A' ≤ c ∧ c ≤ 'Z'
  · rw [if_pos h]
    have h' := (up c).1 h
    constructor
    · intro e
      right
      have := congrArg Char.toNat e
      rw [ofNat32 c h'.1 h'.2] at this
      omega
    · rintro (rfl | ⟨h1, h2, h3⟩)
      · exact absurd h' hdn
      · apply Char.toNat_inj.1
        rw [ofNat32 c h'.1 h'.2, h3]
  · rw [if_neg h]
    have h' : ¬ (65 ≤ c.toNat ∧ c.toNat ≤ 90) := fun e => h ((up c).2 e)
    constructor
    · exact Or.inl
    · rintro (rfl | ⟨h1, h2, h3⟩)
      · rfl
      · omega

theorem sameLetters_iff (n name : Text) (h : uncased name = name) : SameLetters n name ↔ uncased n = name := by
  induction n generalizing name with
  | nil =>
    cases name with
    | nil => exact ⟨fun _ => rfl, fun _ => trivial⟩
    | cons d t => exact ⟨fun h => h.elim, fun h => by cases h⟩
  | cons c s ih =>
    cases name with
    | nil => exact ⟨fun h => h.elim, fun h => by cases h⟩
    | cons d t =>
      rw [uncased, List.map_cons, List.cons.injEq] at h
      have e : uncased (c :: s) = asciiLower c :: uncased s := rfl
      rw [SameLetters, ih t h.2, e, List.cons.injEq, asciiLower_iff c d h.1]

theorem names_lower : ∀ name ∈ variableNames, uncased name.toList = name.toList := by decide +kernel

theorem hasVariable_iff (vars : List (Text × Text)) (name : String) (hn : name ∈ variableNames) (v : Text) :
    HasVariable vars name v ↔ ∃ n, (n, v) ∈ vars ∧ uncased n = name.toList := by
  constructor
  · rintro ⟨n, h1, h2⟩; exact ⟨n, h1, (sameLetters_iff n _ (names_lower name hn)).1 h2⟩
  · rintro ⟨n, h1, h2⟩; exact ⟨n, h1, (sameLetters_iff n _ (names_lower name hn)).2 h2⟩

/-! ### Variables with a text -/

theorem envVar_iff (vars : List (Text × Text)) (N name : String) (hn : name ∈ variableNames)
    (hN : uncased N.toList = name.toList) (hu : Unambiguous vars) (t : Text) :
    envVar vars N = some t ↔ ∃ v, HasVariable vars name v ∧ IsTrim v t := by
  rw [envVar, hN]
  constructor
  · intro h
    rw [Option.map_eq_some_iff] at h
    obtain ⟨⟨n, v⟩, h1, rfl⟩ := h
    refine ⟨v, (hasVariable_iff vars name hn v).2 ⟨n, List.mem_of_find?_eq_some h1, ?_⟩, trimText_isTrim v⟩
    have := List.find?_some h1
    simpa using this
  · rintro ⟨v, h1, h2⟩
    obtain ⟨n, h3, h4⟩ := (hasVariable_iff vars name hn v).1 h1
    cases hf : vars.find? (fun v => decide (uncased v.1 = name.toList)) with
    | none =>
      have := List.find?_eq_none.1 hf _ h3
      simp [h4] at this
    | some p =>
      obtain ⟨n', v'⟩ := p
      have e := List.find?_some hf
      have hv' : HasVariable vars name v' :=
        (hasVariable_iff vars name hn v').2 ⟨n', List.mem_of_find?_eq_some hf, by simpa using e⟩
      rw [hu name hn v' v hv' h1]
      rw [Option.map_some, isTrim_unique (trimText_isTrim v) h2]

theorem envVar_none (vars : List (Text × Text)) (N name : String) (hn : name ∈ variableNames)
    (hN : uncased N.toList = name.toList) : envVar vars N = none ↔ NoVariable vars name := by
  rw [envVar, hN, Option.map_eq_none_iff, List.find?_eq_none]
  constructor
  · intro h v hv
    obtain ⟨n, h1, h2⟩ := (hasVariable_iff vars name hn v).1 hv
    have := h _ h1
    simp [h2] at this
  · intro h p hp he
    exact h p.2 ((hasVariable_iff vars name hn p.2).2 ⟨p.1, hp, by simpa using he⟩)

theorem textIs_iff (vars : List (Text × Text)) (N name : String) (hn : name ∈ variableNames)
    (hN : uncased N.toList = name.toList) (hu : Unambiguous vars) (other t : Text) :
    TextIs vars name other t ↔ (envVar vars N).getD other = t := by
  rw [TextIs, ← envVar_none vars N name hn hN, ← envVar_iff vars N name hn hN hu]
  cases envVar vars N with
  | none =>
    constructor
    · rintro (h | h)
      · exact h.2.symm
      · cases h
    · intro h; exact Or.inl ⟨rfl, h.symm⟩
  | some t' =>
    constructor
    · rintro (h | h)
      · cases h.1
      · cases h; rfl
    · intro h; cases h; exact Or.inr rfl

/-! ### Variables with a setting -/

theorem uncased_append (a b : Text) : uncased (a ++ b) = uncased a ++ uncased b := List.map_append

theorem stripPrefix_iff (pre n s : Text) (r : Text) (hs : uncased s = r) :
    stripPrefix pre n = some s → uncased n = uncased pre ++ r := by
  intro h
  rw [stripPrefix] at h
  split at h
  · rename_i e
    cases h
    rw [← hs, ← e, ← uncased_append, List.take_append_drop]
  · cases h

theorem stripPrefix_some (pre n r : Text) (h : uncased n = uncased pre ++ r) :
    ∃ s, stripPrefix pre n = some s ∧ uncased s = r := by
  have hlen : (uncased pre).length = pre.length := by rw [uncased, List.length_map]
  refine ⟨n.drop pre.length, ?_, ?_⟩
  · rw [stripPrefix, if_pos]
    rw [uncased, List.map_take]
    have : n.map asciiLower = uncased pre ++ r := h
    rw [this, ← hlen, List.take_left]
  · rw [uncased, List.map_drop]
    have : n.map asciiLower = uncased pre ++ r := h
    rw [this, ← hlen, List.drop_left]

theorem variableName_mem (k : CfgKey) : variableName k ∈ variableNames := by cases k <;> decide

theorem variableName_eq (k : CfgKey) : (variableName k).toList = uncased envPrefix.toList ++ k.name.toList := by
  cases k <;> decide +kernel

theorem name_not_ignored (k : CfgKey) :
    [envFileName, envProfile].any (fun i => decide (k.name.toList = uncased i.toList)) = false := by
  cases k <;> decide +kernel

theorem mem_envKeys (vars : List (Text × Text)) (k : CfgKey) (v : Text) :
    (k.name.toList, v) ∈ envKeys vars ↔ HasVariable vars (variableName k) v := by
  rw [hasVariable_iff vars _ (variableName_mem k), envKeys, List.mem_filterMap, variableName_eq]
  constructor
  · rintro ⟨⟨n, v'⟩, h1, h2⟩
    simp only at h2
    cases h3 : stripPrefix envPrefix.toList n with
    | none => rw [h3] at h2; cases h2
    | some s =>
      rw [h3] at h2
      simp only at h2
      split at h2
      · cases h2
      · rw [Option.some.injEq, Prod.mk.injEq] at h2
        obtain ⟨h4, rfl⟩ := h2
        exact ⟨n, h1, stripPrefix_iff _ _ _ _ h4 h3⟩
  · rintro ⟨n, h1, h2⟩
    obtain ⟨s, h3, h4⟩ := stripPrefix_some _ _ _ h2
    refine ⟨(n, v), h1, ?_⟩
    simp only [h3, h4]
    rw [name_not_ignored k]
    rfl

theorem envDict_eq (lib : Library) (vars : List (Text × Text)) (hu : Unambiguous vars) (k : CfgKey) (value : Option CfgVal) :
    VariableIs lib vars k value ↔ envDict lib vars k = value := by
  rw [envDict]
  cases hl : ((envKeys vars).filter (fun v => decide (v.1 = k.name.toList))).getLast? with
  | none =>
    rw [List.getLast?_eq_none_iff, List.filter_eq_nil_iff] at hl
    have hno : NoVariable vars (variableName k) := by
      intro v hv
      have := hl _ ((mem_envKeys vars k v).2 hv)
      simp at this
    constructor
    · rintro (h | ⟨v, h, -⟩)
      · exact h.2.symm
      · exact absurd h (hno v)
    · intro h; exact Or.inl ⟨hno, h.symm⟩
  | some p =>
    obtain ⟨n, v⟩ := p
    have hm := List.mem_of_getLast? hl
    rw [List.mem_filter, decide_eq_true_eq] at hm
    obtain ⟨h1, h2⟩ := hm
    simp only at h2
    subst h2
    have hv := (mem_envKeys vars k v).1 h1
    constructor
    · rintro (h | ⟨v', h, rfl⟩)
      · exact absurd hv (h.1 v)
      · rw [hu _ (variableName_mem k) v v' hv h]; rfl
    · rintro rfl
      exact Or.inr ⟨v, hv, rfl⟩

/-! ### The file -/

theorem searchUp_spec (file : List Text → Text → Option Text) (path : Text) (dir : List Text) :
    (searchUp file path dir = none ∧ ∀ near d, dir = near ++ d → file d path = none) ∨
    ∃ near d c, dir = near ++ d ∧ searchUp file path dir = some c ∧ file d path = some c ∧
      ∀ near' d', dir = near' ++ d' → near'.length < near.length → file d' path = none := by
  induction dir with
  | nil =>
    rw [searchUp]
    cases h : file [] path with
    | none =>
      refine Or.inl ⟨rfl, fun near d e => ?_⟩
      obtain ⟨-, rfl⟩ := List.nil_eq_append_iff.1 e
      exact h
    | some c => exact Or.inr ⟨[], [], c, rfl, rfl, h, fun _ _ _ hl => by cases hl⟩
  | cons a dir ih =>
    rw [searchUp]
    cases h : file (a :: dir) path with
    | some c => exact Or.inr ⟨[], a :: dir, c, rfl, rfl, h, fun _ _ _ hl => by cases hl⟩
    | none =>
      rw [Option.none_or]
      rcases ih with ⟨h1, h2⟩ | ⟨near, d, c, h1, h2, h3, h4⟩
      · refine Or.inl ⟨h1, fun near d e => ?_⟩
        cases near with
        | nil => rw [List.nil_append] at e; rw [← e]; exact h
        | cons b near =>
          rw [List.cons_append, List.cons.injEq] at e
          exact h2 near d e.2
      · refine Or.inr ⟨a :: near, d, c, by rw [h1]; rfl, h2, h3, fun near' d' e hl => ?_⟩
        cases near' with
        | nil => rw [List.nil_append] at e; rw [← e]; exact h
        | cons b near' =>
          rw [List.cons_append, List.cons.injEq] at e
          exact h4 near' d' e.2 (by simpa using hl)

theorem suffix_unique {α : Type} {l near near' d d' : List α} (h : l = near ++ d) (h' : l = near' ++ d')
    (hl : near.length = near'.length) : d = d' := by
  rw [h] at h'
  exact (List.append_inj h' hl).2

theorem configFile_iff (w : World) (hu : Unambiguous w.vars) (content : Option Text) :
    FileIs w content ↔ configFile w = content := by
  have ht := fun path => textIs_iff w.vars (envPrefix ++ envFileName) "pemv_config" (by decide) (by decide +kernel) hu
    "pemv.toml".toList path
  have key : FileIs w content ↔
      if ((envVar w.vars (envPrefix ++ envFileName)).getD "pemv.toml".toList).head? = some '/' then
        content = w.absoluteFile ((envVar w.vars (envPrefix ++ envFileName)).getD "pemv.toml".toList)
      else (content = none ∧ ∀ near dir, w.workingDir = near ++ dir →
          w.file dir ((envVar w.vars (envPrefix ++ envFileName)).getD "pemv.toml".toList) = none) ∨
        ∃ near dir c, w.workingDir = near ++ dir ∧ content = some c ∧
          w.file dir ((envVar w.vars (envPrefix ++ envFileName)).getD "pemv.toml".toList) = some c ∧
          ∀ near' dir', w.workingDir = near' ++ dir' → near'.length < near.length →
            w.file dir' ((envVar w.vars (envPrefix ++ envFileName)).getD "pemv.toml".toList) = none := by
    constructor
    · rintro ⟨path, h1, h2⟩
      rw [(ht path).1 h1]
      exact h2
    · intro h
      exact ⟨_, (ht _).2 rfl, h⟩
  rw [key, configFile]
  have hname : fileName = "pemv.toml" := rfl
  simp only [hname]
  generalize (envVar w.vars (envPrefix ++ envFileName)).getD "pemv.toml".toList = path
  by_cases hp : path.head? = some '/'
  · rw [if_pos hp, if_pos hp]
    exact eq_comm
  · rw [if_neg hp, if_neg hp]
    rcases searchUp_spec w.file path w.workingDir with ⟨h1, h2⟩ | ⟨near, d, c, h1, h2, h3, h4⟩
    · rw [h1]
      constructor
      · rintro (h | ⟨near, dir, c, e, -, h, -⟩)
        · exact h.1.symm
        · rw [h2 near dir e] at h; cases h
      · intro h; exact Or.inl ⟨h.symm, h2⟩
    · rw [h2]
      constructor
      · rintro (h | ⟨near', dir, c', e, rfl, h, h'⟩)
        · rw [h.2 near d h1] at h3; cases h3
        · rcases Nat.lt_trichotomy near.length near'.length with hl | hl | hl
          · rw [h' near d h1 hl] at h3; cases h3
          · rw [suffix_unique h1 e hl, h] at h3; exact h3.symm
          · rw [h4 near' dir e hl] at h; cases h
      · rintro rfl
        exact Or.inr ⟨near, d, c, h1, rfl, h3, h4⟩

/-! ### The profile -/

theorem profile_iff (w : World) (hu : Unambiguous w.vars) (profile : String) :
    ProfileIs w profile ↔ (profileOf w).getD "default" = profile := by
  rw [ProfileIs, textIs_iff w.vars (envPrefix ++ envProfile) "pemv_profile" (by decide) (by decide +kernel) hu, profileOf]
  cases envVar w.vars (envPrefix ++ envProfile) with
  | none =>
    simp only [Option.getD_none, Option.map_none]
    exact String.toList_inj
  | some t =>
    simp only [Option.getD_some, Option.map_some]
    constructor
    · rintro rfl; exact String.ofList_toList
    · rintro rfl; exact (string_ofList_toList t).symm

/-- Only the profile in force counts. -/
theorem execute_profile (m : Machine) (file : FigData) (env : Dict) (p p' : Option String) (isTty : Bool)
    (us : List Use) (h : p.getD "default" = p'.getD "default") :
    execute m file env p isTty us = execute m file env p' isTty us := by
  have : ∀ c ops, program m file env p c isTty ops = program m file env p' c isTty ops := by
    intro c ops
    rw [program, program, configFigment, configFigment, h]
  simp only [execute, this]

theorem executeArgv_profile (m : Machine) (file : FigData) (env : Dict) (p p' : Option String) (isTty : Bool)
    (args : List Text) (h : p.getD "default" = p'.getD "default") :
    executeArgv m file env p isTty args = executeArgv m file env p' isTty args := by
  simp only [executeArgv, execute_profile m file env p p' isTty _ h]

/-- Only what the file says about the profile counts. -/
theorem settings_sections (file : FigData) (env : Dict) (p p' : Option String) (c : CliConfig) (isTty : Bool)
    (h : file (p.getD "default") = file (p'.getD "default")) :
    settings (configFigment file env p) c isTty = settings (configFigment file env p') c isTty := by
  have h0 : ∀ k, (configFigment file env p).extract k = (configFigment file env p').extract k := by
    intro k; rw [extract_config, extract_config, h]
  revert h0
  generalize configFigment file env p = f
  generalize configFigment file env p' = f'
  intro h0
  have hm : ∀ (f f' : Figment) (k : CfgKey) (v : CfgVal), (∀ j, f.extract j = f'.extract j) →
      ∀ j, (f.merge (pairProvider k v)).extract j = (f'.merge (pairProvider k v)).extract j := by
    intro f f' k v hf j
    rw [pairProvider, extract_merge, extract_merge, hf]
  have h2 : ∀ f f' : Figment, (∀ j, f.extract j = f'.extract j) →
      ∀ j, (applySort (applyMasking f c) c).extract j = (applySort (applyMasking f' c) c).extract j := by
    intro f f' hf
    have h1 : ∀ j, (applyMasking f c).extract j = (applyMasking f' c).extract j := by
      rw [applyMasking, applyMasking]
      cases c.maskingCharacter.value with
      | none => exact hf
      | some cs =>
        simp only
        split
        · exact hm _ _ _ _ hf
        · exact hf
    rw [applySort, applySort]
    cases cliSortPreference c with
    | none => exact h1
    | some b => exact hm _ _ _ _ h1
  have h3 : (applyCliArguments f c = .panic ∧ applyCliArguments f' c = .panic) ∨
      ∃ g g', applyCliArguments f c = .ok g ∧ applyCliArguments f' c = .ok g' ∧ ∀ j, g.extract j = g'.extract j := by
    rw [applyCliArguments, applyCliArguments, applyColour, applyColour]
    cases c.colour.value with
    | none => exact Or.inr ⟨_, _, rfl, rfl, h2 f f' h0⟩
    | some t =>
      simp only
      split
      · cases e : ColourChoice.tryFrom t with
        | ok v => exact Or.inr ⟨_, _, rfl, rfl, h2 _ _ (hm _ _ _ _ h0)⟩
        | err e => exact Or.inl ⟨rfl, rfl⟩
        | panic => exact Or.inl ⟨rfl, rfl⟩
        | diverge =>
          rw [ColourChoice.tryFrom] at e
          repeat' split at e
          all_goals cases e
      · exact Or.inr ⟨_, _, rfl, rfl, h2 f f' h0⟩
  rw [settings, settings]
  rcases h3 with ⟨e, e'⟩ | ⟨g, g', e, e', hg⟩
  · rw [e, e']
  · rw [e, e']
    simp only [Out.ok_bind, hg]

theorem executeArgv_sections (m : Machine) (file : FigData) (env : Dict) (p p' : Option String) (isTty : Bool)
    (args : List Text) (h : file (p.getD "default") = file (p'.getD "default")) :
    executeArgv m file env p isTty args = executeArgv m file env p' isTty args := by
  have h1 : ∀ c ops, program m file env p c isTty ops = program m file env p' c isTty ops := by
    intro c ops
    rw [program, program, settings_sections file env p p' c isTty h]
  have h2 : ∀ us, execute m file env p isTty us = execute m file env p' isTty us := by
    intro us
    simp only [execute, h1]
  simp only [executeArgv, h2]

end Pemv
