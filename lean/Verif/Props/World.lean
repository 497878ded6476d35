import Verif.Proofs.World
import Verif.Props.Argv

/-!
# C89: where the settings come from
-/

namespace Pemv

open Spec

/-- **C89.** In all surroundings there are a file to be read (or none), a profile, and values (or none) in the
environment; they are determined by the variables and the files. -/
theorem c89_determined (lib : Library) (w : World) (hu : Unambiguous w.vars) :
    (∃ content, FileIs w content ∧ ∀ content', FileIs w content' → content' = content) ∧
    (∃ profile, ProfileIs w profile ∧ ∀ profile', ProfileIs w profile' → profile' = profile) ∧
    ∀ k, ∃ value, VariableIs lib w.vars k value ∧ ∀ value', VariableIs lib w.vars k value' → value' = value :=
  ⟨⟨_, (configFile_iff w hu _).2 rfl, fun _ h => ((configFile_iff w hu _).1 h).symm⟩,
    ⟨_, (profile_iff w hu _).2 rfl, fun _ h => ((profile_iff w hu _).1 h).symm⟩,
    fun k => ⟨_, (envDict_eq lib w.vars hu k _).2 rfl, fun _ h => ((envDict_eq lib w.vars hu k _).1 h).symm⟩⟩

/-- **C89.** The program uses that file (nothing, if there is none), that profile and those values. -/
theorem c89_surroundings (lib : Library) (m : Machine) (w : World) (hu : Unambiguous w.vars) (content : Option Text)
    (hf : FileIs w content) (profile : String) (hp : ProfileIs w profile) (env : Dict)
    (he : ∀ k, VariableIs lib w.vars k (env k)) :
    (content = none → runProcess lib m w = executeArgv m (fun _ _ => none) env (some profile) w.isTty w.args) ∧
    ∀ text, content = some text →
      (∀ file, lib.toml text = some file →
        runProcess lib m w = executeArgv m file env (some profile) w.isTty w.args) ∧
      (lib.toml text = none → runProcess lib m w =
        match executeArgv m (fun _ _ => none) env (some profile) w.isTty w.args with
        | .ran _ => .ran .panic
        | e => e) := by
  have h1 := (configFile_iff w hu content).1 hf
  have h2 : (profileOf w).getD "default" = (some profile).getD "default" := (profile_iff w hu profile).1 hp
  have h3 : envDict lib w.vars = env := funext (fun k => (envDict_eq lib w.vars hu k _).1 (he k))
  rw [runProcess, h1, h3]
  refine ⟨?_, ?_⟩
  · rintro rfl
    exact executeArgv_profile m _ env _ _ w.isTty w.args h2
  · rintro text rfl
    refine ⟨fun file hfile => ?_, fun hbad => ?_⟩
    · simp only [Option.map_some, hfile]
      exact executeArgv_profile m file env _ _ w.isTty w.args h2
    · simp only [Option.map_some, hbad]
      rw [executeArgv_profile m _ env _ _ w.isTty w.args h2]
      cases executeArgv m (fun _ _ => none) env (some profile) w.isTty w.args <;> rfl

/-- **C89.** Of the environment only five variables count, whatever the case of their names, their order and what other
variables there are. -/
theorem c89_five_variables (lib : Library) (m : Machine) (w w' : World) (hu : Unambiguous w.vars)
    (hv : ∀ name ∈ variableNames, ∀ v, HasVariable w.vars name v ↔ HasVariable w'.vars name v)
    (hargs : w'.args = w.args) (hdir : w'.workingDir = w.workingDir) (hfile : w'.file = w.file)
    (habs : w'.absoluteFile = w.absoluteFile) (htty : w'.isTty = w.isTty) :
    runProcess lib m w' = runProcess lib m w := by
  have hu' : Unambiguous w'.vars := fun name hn v v' h1 h2 =>
    hu name hn v v' ((hv name hn v).2 h1) ((hv name hn v').2 h2)
  have hno : ∀ name ∈ variableNames, NoVariable w.vars name ↔ NoVariable w'.vars name := fun name hn =>
    ⟨fun h v h' => h v ((hv name hn v).2 h'), fun h v h' => h v ((hv name hn v).1 h')⟩
  have htext : ∀ name ∈ variableNames, ∀ o t, TextIs w.vars name o t → TextIs w'.vars name o t := by
    intro name hn o t h
    rcases h with ⟨h1, h2⟩ | ⟨v, h1, h2⟩
    · exact Or.inl ⟨(hno name hn).1 h1, h2⟩
    · exact Or.inr ⟨v, (hv name hn v).1 h1, h2⟩
  have e1 : configFile w' = configFile w := by
    rw [← configFile_iff w' hu']
    obtain ⟨path, h1, h2⟩ := (configFile_iff w hu _).2 rfl
    refine ⟨path, htext _ (by decide) _ _ h1, ?_⟩
    rw [hdir, hfile, habs]
    exact h2
  have e2 : (profileOf w').getD "default" = (profileOf w).getD "default" := by
    rw [← profile_iff w' hu']
    exact htext _ (by decide) _ _ ((profile_iff w hu _).2 rfl)
  have e3 : envDict lib w'.vars = envDict lib w.vars := by
    funext k
    rw [← envDict_eq lib w'.vars hu']
    rcases (envDict_eq lib w.vars hu k _).2 rfl with ⟨h1, h2⟩ | ⟨v, h1, h2⟩
    · exact Or.inl ⟨(hno _ (variableName_mem k)).1 h1, h2⟩
    · exact Or.inr ⟨v, (hv _ (variableName_mem k) v).1 h1, h2⟩
  simp only [runProcess, e1, e3, hargs, htty]
  have e4 := fun file => executeArgv_profile m file (envDict lib w.vars) _ _ w.isTty w.args e2
  simp only [e4]

/-- **C89.** The case of the letters of the profile's name does not matter. -/
theorem c89_profile_case (lib : Library) (hl : CaseBlind lib) (m : Machine) (w w' : World) (hu : Unambiguous w.vars)
    (hu' : Unambiguous w'.vars) (profile profile' : String) (hp : ProfileIs w profile) (hp' : ProfileIs w' profile')
    (hn : SameName profile profile')
    (hv : ∀ name ∈ variableNames, name ≠ "pemv_profile" → ∀ v, HasVariable w.vars name v ↔ HasVariable w'.vars name v)
    (hargs : w'.args = w.args) (hdir : w'.workingDir = w.workingDir) (hfile : w'.file = w.file)
    (habs : w'.absoluteFile = w.absoluteFile) (htty : w'.isTty = w.isTty) :
    runProcess lib m w' = runProcess lib m w := by
  obtain ⟨content, hf, -⟩ := (c89_determined lib w hu).1
  have hno : ∀ name ∈ variableNames, name ≠ "pemv_profile" → (NoVariable w.vars name ↔ NoVariable w'.vars name) :=
    fun name h1 h2 => ⟨fun h v h' => h v ((hv name h1 h2 v).2 h'), fun h v h' => h v ((hv name h1 h2 v).1 h')⟩
  have hf' : FileIs w' content := by
    obtain ⟨path, h1, h2⟩ := hf
    refine ⟨path, ?_, by rw [hdir, hfile, habs]; exact h2⟩
    rcases h1 with ⟨h1, h3⟩ | ⟨v, h1, h3⟩
    · exact Or.inl ⟨(hno _ (by decide) (by decide)).1 h1, h3⟩
    · exact Or.inr ⟨v, (hv _ (by decide) (by decide) v).1 h1, h3⟩
  have he : ∀ k, VariableIs lib w.vars k (envDict lib w.vars k) := fun k => (envDict_eq lib w.vars hu k _).2 rfl
  have he' : ∀ k, VariableIs lib w'.vars k (envDict lib w.vars k) := by
    intro k
    have hk : variableName k ≠ "pemv_profile" := by cases k <;> decide
    rcases he k with ⟨h1, h2⟩ | ⟨v, h1, h2⟩
    · exact Or.inl ⟨(hno _ (variableName_mem k) hk).1 h1, h2⟩
    · exact Or.inr ⟨v, (hv _ (variableName_mem k) hk v).1 h1, h2⟩
  have s1 := c89_surroundings lib m w hu content hf profile hp _ he
  have s2 := c89_surroundings lib m w' hu' content hf' profile' hp' _ he'
  rw [hargs, htty] at s2
  have hnone := executeArgv_sections m (fun _ _ => none) (envDict lib w.vars) (some profile') (some profile) w.isTty w.args rfl
  cases content with
  | none => rw [s1.1 rfl, s2.1 rfl, hnone]
  | some text =>
    cases hb : lib.toml text with
    | none => rw [(s1.2 text rfl).2 hb, (s2.2 text rfl).2 hb, hnone]
    | some file =>
      rw [(s1.2 text rfl).1 file hb, (s2.2 text rfl).1 file hb]
      exact executeArgv_sections m file _ _ _ _ _ (hl text file profile profile' hb hn).symm

/-- **C89.** Altogether: the program does what the command line asks for, and the value in force of a setting is that of
the command line, else of its variable, else of the file - section `global`, then that of the profile, then
`default` -, else the built-in one. -/
theorem c89_in_force (lib : Library) (m : Machine) (w : World) (hu : Unambiguous w.vars) (content : Option Text)
    (hf : FileIs w content) (profile : String) (hp : ProfileIs w profile) (env : Dict)
    (he : ∀ k, VariableIs lib w.vars k (env k)) (file : FigData)
    (hfile : match content with | none => file = fun _ _ => none | some text => lib.toml text = some file)
    (us : List Use) (ts : List Text) (hw : AllWritten us ts) (hargs : w.args = ts ∨ w.args = ts ++ ["--".toList])
    (gs : List Given) (hne : us ≠ []) (h : us.mapM understand = some gs) (hh : .help ∉ gs) (hv : .version ∉ gs)
    (hc : Consistent gs) (value : Dict)
    (hvalue : ∀ k, value k =
      firstOf [settingsGiven gs k, env k, file "global" k, file profile k, file "default" k, builtIn k]) :
    ∃ ops, selected ops = (operationsOf gs).head? ∧
      (∀ colour masks sort, value .cliColour = some (.colour colour) → value .maskingCharacters = some (.chars masks) →
        value .sortParsedTags = some (.bool sort) →
        runProcess lib m w = .ran (.ok ((colour.changeBasedOnTty w.isTty).toTerm, run m ops masks sort))) ∧
      ((∃ k, ∀ v, value k = some v → ¬ RightType k v) → runProcess lib m w = .ran .panic) := by
  have hrun : runProcess lib m w = execute m file env (some profile) w.isTty us := by
    have h1 : runProcess lib m w = executeArgv m file env (some profile) w.isTty w.args := by
      have := c89_surroundings lib m w hu content hf profile hp env he
      cases content with
      | none => simp only at hfile; rw [this.1 rfl, hfile]
      | some text => exact (this.2 text rfl).1 file hfile
    have h2 := c88_styles m file env (some profile) w.isTty us ts hw
      (fun u hu' => (understood_all us gs h u hu').imp fun _ h => h.1)
    rcases hargs with e | e
    · rw [h1, e, h2.1]
    · rw [h1, e, h2.2]
  obtain ⟨ops, hsel, h1, h2⟩ := c70_runs m file env (some profile) w.isTty us gs hne h hh hv hc
  have hval : ∀ k, valueInForce file env (some profile) gs k = value k := fun k => (hvalue k).symm
  refine ⟨ops, hsel, ?_, ?_⟩
  · intro colour masks sort a b c
    rw [hrun]
    exact h1 colour masks sort ((hval _).trans a) ((hval _).trans b) ((hval _).trans c)
  · rintro ⟨k, hk⟩
    rw [hrun]
    exact h2 ⟨k, fun v hv' => hk v ((hval k).symm.trans hv')⟩

/-- Variables in mixed case, one of them of no concern. -/
example : HasVariable [("Pemv_Sort_Parsed_Tags".toList, "false".toList), ("PATH".toList, "/bin".toList)]
    "pemv_sort_parsed_tags" "false".toList := by
  rw [hasVariable_iff _ _ (by decide)]
  exact ⟨_, List.mem_cons_self, by decide +kernel⟩

/-- A profile in two spellings. -/
example : SameName "Test" "tEST" := by
  have e : uncased "test".toList = "test".toList := by decide +kernel
  exact ⟨"test".toList, (sameLetters_iff _ _ e).2 (by decide +kernel), (sameLetters_iff _ _ e).2 (by decide +kernel)⟩

/-- A file two directories above. -/
example : searchUp (fun dir path => if dir = [['a']] ∧ path = ['f'] then some ['x'] else none) ['f'] [['c'], ['b'], ['a']] =
    some ['x'] := by decide +kernel

/-- Different spellings with different values are excluded. -/
example : Unambiguous [("PEMV_PROFILE".toList, "x".toList), ("PATH".toList, "/bin".toList)] := by
  intro name hn v v' h h'
  rw [hasVariable_iff _ _ hn] at h h'
  obtain ⟨n, h1, h2⟩ := h
  obtain ⟨n', h1', h2'⟩ := h'
  have no : ∀ name ∈ variableNames, uncased "PATH".toList ≠ name.toList := by decide +kernel
  simp only [List.mem_cons, Prod.mk.injEq, List.not_mem_nil, or_false] at h1 h1'
  rcases h1 with ⟨rfl, rfl⟩ | ⟨rfl, rfl⟩
  · rcases h1' with ⟨rfl, rfl⟩ | ⟨rfl, rfl⟩
    · rfl
    · exact absurd h2' (no name hn)
  · exact absurd h2 (no name hn)

/-- A variable, a file and the built-in value: each of the settings comes from another place. -/
example : ∃ (lib : Library) (w : World), w.args = ["--ber".toList, "500141".toList] ∧ ∃ ops, selected ops = some (.berTlv, "500141".toList) ∧
    runProcess lib .debug64 w = .ran (.ok (.always, run .debug64 ops ['*'] false)) := by
  let file : FigData := fun section_ k =>
    if section_ = "test" then (match k with | .cliColour => some (.colour .always) | .sortParsedTags => some (.bool true) | _ => none) else none
  let lib : Library := ⟨fun _ => some file, fun _ v => .bool (v = "true".toList)⟩
  let w : World := ⟨["--ber".toList, "500141".toList],
    [("PEMV_SORT_PARSED_TAGS".toList, "false".toList), ("PEMV_PROFILE".toList, " test".toList)], [['a'], ['b']],
    fun _ _ => some [], fun _ => none, true⟩
  have hu : Unambiguous w.vars := by
    intro name hn v v' h h'
    rw [hasVariable_iff _ _ hn] at h h'
    obtain ⟨n, h1, h2⟩ := h
    obtain ⟨n', h1', h2'⟩ := h'
    have a : uncased "PEMV_SORT_PARSED_TAGS".toList = "pemv_sort_parsed_tags".toList := by decide +kernel
    have b : uncased "PEMV_PROFILE".toList = "pemv_profile".toList := by decide +kernel
    have c : "pemv_sort_parsed_tags".toList ≠ "pemv_profile".toList := by decide +kernel
    simp only [w, List.mem_cons, Prod.mk.injEq, List.not_mem_nil, or_false] at h1 h1'
    rcases h1 with ⟨rfl, rfl⟩ | ⟨rfl, rfl⟩ <;> rcases h1' with ⟨rfl, rfl⟩ | ⟨rfl, rfl⟩
    · rfl
    · exact absurd (a.symm.trans (h2.trans (h2'.symm.trans b))) c
    · exact absurd (a.symm.trans (h2'.trans (h2.symm.trans b))) c
    · rfl
  have hf : FileIs w (some []) := by
    rw [configFile_iff w hu]
    decide +kernel
  have hp : ProfileIs w "test" := by
    rw [profile_iff w hu]
    decide +kernel
  have he : ∀ k, VariableIs lib w.vars k ((fun k => match k with | .sortParsedTags => some (.bool false) | _ => none : Dict) k) := by
    intro k
    rw [envDict_eq lib w.vars hu]
    cases k <;> decide +kernel
  have hd : ∀ v ∈ ["500141".toList], StandsAlone v := fun v hv => by
    rcases List.mem_singleton.1 hv with rfl
    exact Or.inr (by decide +kernel)
  obtain ⟨ops, h1, h2, -⟩ := c89_in_force lib .debug64 w hu (some []) hf "test" hp _ he file rfl
    [⟨.long "ber", ["500141".toList]⟩] _ (.cons (.long "ber" _ hd) .nil) (Or.inl rfl)
    [.operation .berTlv "500141".toList] (by simp) (by decide +kernel) (by simp) (by simp)
    ⟨by decide +kernel, by decide +kernel, by decide +kernel, fun h => by rcases h with h | h | h <;> exact absurd rfl h⟩
    _ (fun _ => rfl)
  exact ⟨lib, w, rfl, ops, h1, h2 .always ['*'] false (by decide +kernel) (by decide +kernel) (by decide +kernel)⟩

/-- One variable is always unambiguous. -/
theorem unambiguous_one (n v : Text) : Unambiguous [(n, v)] := by
  rintro name - x y ⟨a, h, -⟩ ⟨b, h', -⟩
  cases List.mem_singleton.1 h
  cases List.mem_singleton.1 h'
  rfl

example (lib : Library) := c89_determined lib
  ⟨["--tvr".toList, "00".toList], [("PEMV_PROFILE".toList, "shop".toList)], [], fun _ _ => none, fun _ => none, true⟩
  (unambiguous_one _ _)

/-- A profile and no file. -/
example (lib : Library) : let w : World := ⟨["--tvr".toList, "00".toList], [("PEMV_PROFILE".toList, "shop".toList)], [],
      fun _ _ => none, fun _ => none, true⟩
    runProcess lib .debug64 w = executeArgv .debug64 (fun _ _ => none) (fun _ => none) (some "shop") true w.args := by
  intro w
  have hu : Unambiguous w.vars := unambiguous_one _ _
  refine (c89_surroundings lib .debug64 w hu none ?_ "shop" ?_ (fun _ => none) (fun k => ?_)).1 rfl
  · rw [configFile_iff w hu]; decide +kernel
  · rw [profile_iff w hu]; decide +kernel
  · rw [envDict_eq lib w.vars hu]; cases k <;> rfl

/-- Another variable, that is none of the program's, does not matter. -/
example (lib : Library) : runProcess lib .debug64
      ⟨["--tvr".toList, "00".toList], [("HOME".toList, "/".toList)], [], fun _ _ => none, fun _ => none, true⟩ =
    runProcess lib .debug64 ⟨["--tvr".toList, "00".toList], [], [], fun _ _ => none, fun _ => none, true⟩ := by
  refine c89_five_variables lib .debug64 _ _ (fun _ _ _ _ ⟨_, h, _⟩ => nomatch h) (fun name hn v => ?_) rfl rfl rfl rfl rfl
  rw [hasVariable_iff _ _ hn, hasVariable_iff _ _ hn]
  refine ⟨(fun ⟨_, h, _⟩ => nomatch h), fun ⟨n, h, e⟩ => ?_⟩
  cases List.mem_singleton.1 h
  have no : ∀ name ∈ variableNames, uncased "HOME".toList ≠ name.toList := by decide +kernel
  exact absurd e (no name hn)

/-- Profiles `Test` and `tEST`, if no file is understood. -/
example (value : CfgKey → Text → CfgVal) : runProcess ⟨fun _ => none, value⟩ .debug64
      ⟨["--tvr".toList, "00".toList], [("PEMV_PROFILE".toList, "tEST".toList)], [], fun _ _ => none, fun _ => none, true⟩ =
    runProcess ⟨fun _ => none, value⟩ .debug64
      ⟨["--tvr".toList, "00".toList], [("PEMV_PROFILE".toList, "Test".toList)], [], fun _ _ => none, fun _ => none, true⟩ := by
  refine c89_profile_case _ (fun _ _ _ _ h _ => by cases h) .debug64 _ _ (unambiguous_one _ _) (unambiguous_one _ _) "Test" "tEST"
    ?_ ?_ ?_ (fun name hn hne v => ?_) rfl rfl rfl rfl rfl
  · rw [profile_iff _ (unambiguous_one _ _)]; decide +kernel
  · rw [profile_iff _ (unambiguous_one _ _)]; decide +kernel
  · have e : uncased "test".toList = "test".toList := by decide +kernel
    exact ⟨"test".toList, (sameLetters_iff _ _ e).2 (by decide +kernel), (sameLetters_iff _ _ e).2 (by decide +kernel)⟩
  · rw [hasVariable_iff _ _ hn, hasVariable_iff _ _ hn]
    have no : ∀ name ∈ variableNames, name ≠ "pemv_profile" → uncased "PEMV_PROFILE".toList ≠ name.toList := by decide +kernel
    constructor <;>
    · rintro ⟨n, h, e⟩
      cases List.mem_singleton.1 h
      exact absurd e (no name hn hne)

end Pemv
