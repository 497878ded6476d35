import Verif.Model.Provider
import Verif.Props.Config

/-!
# C103: the configuration as a whole
-/

namespace Pemv

open Spec

/-- **C103.** A configuration used as a source is read back as it was, except for the profile, which is not part of the
data. -/
theorem c103_round_trip (c : Config) : Config.tryFrom c.provider = some { c with profile := "default" } := by
  have h : ∀ k, (Figment.ofProvider c.provider).extract k = c.serialized k := by
    intro k
    simp only [Figment.extract, Figment.ofProvider, Figment.mergeProvider, Config.provider, FigData.merge, defaultsProvider,
      Option.getD_some, Option.or_none]
    by_cases hp : c.profile = "default" <;> simp [hp]
  rw [Config.tryFrom, Figment.extractConfig, h, h, h]
  rfl

/-- **C103.** The built-in configuration is read back entirely, and has the built-in settings. -/
theorem c103_built_in : Config.tryFrom Config.builtIn.provider = some Config.builtIn ∧
    ∀ k, Config.builtIn.serialized k = builtIn k :=
  ⟨c103_round_trip _, fun k => by cases k <;> rfl⟩

/-- **C103.** What the program works with if no setting is given on the command line is the configuration as a whole: it
can be extracted if and only if the program does not panic, and then the settings are those. -/
theorem c103_same_settings (file : FigData) (env : Dict) (profile : Option String) (c : CliConfig) (isTty : Bool)
    (h : ∀ k, givenSettings c k = none) (hc : ColourChecked c) (s : Settings) :
    settings (configFigment file env profile) c isTty = .ok s ↔
      ∃ cfg, Config.tryFrom (configFigment file env profile).provider = some cfg ∧ cfg.profile = "default" ∧
        s = ⟨(cfg.cliColour.changeBasedOnTty isTty).toTerm, cfg.maskingCharacters, cfg.sortParsedTags⟩ := by
  have e : ∀ k, (Figment.ofProvider (configFigment file env profile).provider).extract k =
      inForce file env profile c k := by
    intro k
    have : Figment.ofProvider (configFigment file env profile).provider = configFigment file env profile := by
      have hd : FigData.merge (fun _ _ => none) (configFigment file env profile).data =
          (configFigment file env profile).data := by
        funext p k
        simp [FigData.merge]
      rw [Figment.ofProvider, Figment.mergeProvider, Figment.provider, hd]
      rfl
    rw [this, extract_config, inForce, firstOf_cons (givenSettings c k), h k]
    rfl
  rw [settings_spec file env profile c isTty hc, Config.tryFrom, Figment.extractConfig, e, e, e]
  split
  · rename_i h1 h2 h3
    rw [h1, h2, h3]
    constructor
    · intro hs
      cases hs
      exact ⟨_, rfl, rfl, rfl⟩
    · rintro ⟨cfg, h1, -, rfl⟩
      cases h1
      rfl
  · rename_i hn
    constructor
    · intro hs; cases hs
    · rintro ⟨cfg, h1, -⟩
      split at h1
      · rename_i e1 e2 e3
        exact absurd e3 (hn _ _ _ e1 e2)
      · cases h1

example := c103_same_settings (fun _ _ => none) (fun k => if k = .sortParsedTags then some (.bool false) else none) none
  ⟨⟨some "auto".toList, true⟩, ⟨some ['*'], true⟩, ⟨some true, true⟩, ⟨some false, true⟩⟩ true
  (fun k => by cases k <;> decide +kernel) (by rintro s ⟨rfl⟩; exact ⟨("auto", .auto), by decide, rfl⟩)

/-- **C103.** A configuration merged over other sources decides every setting, except those that the other sources
have in the section `global` or in the section of the profile of the configuration (other than `default`). -/
theorem c103_merged (f : Figment) (c : Config) (k : CfgKey) :
    (f.mergeProvider c.provider).extract k =
      firstOf [f.data "global" k, if c.profile = "default" then none else f.data c.profile k, c.serialized k] := by
  simp only [Figment.extract, Figment.mergeProvider, Config.provider, FigData.merge, defaultsProvider, Option.getD_some]
  by_cases hp : c.profile = "default" <;> cases k <;> simp [hp, firstOf_cons, firstOf, Config.serialized]

/-- **C103.** What is written for a setting is read back as it was, for every configuration. -/
theorem c103_written (c : Config) (k : CfgKey) :
    ∃ v, c.serialized k = some v ∧ k.deserialize v.serialize = some v := by
  have hc : ∀ cs : List Char, charsOf (cs.map .char) = some cs := by
    intro cs
    induction cs with
    | nil => rfl
    | cons x xs ih => rw [List.map_cons, charsOf, ih]; rfl
  cases k with
  | cliColour =>
    refine ⟨_, rfl, ?_⟩
    cases c.cliColour <;> rfl
  | maskingCharacters => exact ⟨_, rfl, by simp [CfgVal.serialize, CfgKey.deserialize, hc]⟩
  | sortParsedTags => exact ⟨_, rfl, rfl⟩

/-- **C103.** A colour is written as one of the names of the command line, in that spelling and no other: other letter
cases are understood by the conversion from text, but not in a configuration. -/
theorem c103_colour_names (r : Raw) (c : ColourChoice) :
    (ColourChoice.deserialize r = some c ↔ r = .text c.text.toList) ∧
    c.serialize = .text c.text.toList ∧
    (∀ t, r = .text t → ColourChoice.deserialize r = some c → ColourChoice.tryFrom t = .ok c) := by
  have h1 : ColourChoice.deserialize r = some c ↔ r = .text c.text.toList := by
    constructor
    · intro h
      cases r with
      | text t =>
        simp only [ColourChoice.deserialize] at h
        split at h
        · cases h; subst t; rfl
        · split at h
          · cases h; subst t; rfl
          · split at h
            · cases h; subst t; rfl
            · split at h
              · cases h; subst t; rfl
              · cases h
      | _ => cases h
    · rintro rfl
      cases c <;> decide +kernel
  refine ⟨h1, by cases c <;> rfl, ?_⟩
  rintro t rfl h
  cases h1.1 h
  cases c <;> decide +kernel

/-- **C103.** The masking characters have to be an array of characters or of texts of one character each; whether to
sort has to be a boolean, not a text that looks like one. -/
theorem c103_types (r : Raw) :
    (∀ v, CfgKey.maskingCharacters.deserialize r = some v ↔
      ∃ cs rs, v = .chars cs ∧ r = .array rs ∧ rs.length = cs.length ∧
        ∀ p ∈ rs.zip cs, p.1 = .char p.2 ∨ p.1 = .text [p.2]) ∧
    (∀ v, CfgKey.sortParsedTags.deserialize r = some v ↔ ∃ b, v = .bool b ∧ r = .bool b) := by
  have ho : ∀ r c, charOf r = some c ↔ r = .char c ∨ r = .text [c] := by
    intro r c
    cases r with
    | text t =>
      match t with
      | [] => simp [charOf]
      | [x] => simp [charOf]
      | x :: y :: l => simp [charOf]
    | _ => simp [charOf]
  have hs : ∀ rs cs, charsOf rs = some cs ↔ rs.length = cs.length ∧
      ∀ p ∈ rs.zip cs, p.1 = Raw.char p.2 ∨ p.1 = .text [p.2] := by
    intro rs
    induction rs with
    | nil => intro cs; cases cs <;> simp [charsOf]
    | cons r rs ih =>
      intro cs
      rw [charsOf]
      cases cs with
      | nil => split <;> simp
      | cons c cs =>
        have := ih cs
        simp only [List.zip_cons_cons, List.forall_mem_cons, List.length_cons, Nat.add_right_cancel_iff]
        rw [← ho r c, and_left_comm, ← this]
        cases charOf r <;> cases charsOf rs <;> simp
  constructor
  · intro v
    cases r with
    | array rs =>
      simp only [CfgKey.deserialize, Option.map_eq_some_iff]
      constructor
      · rintro ⟨cs, h, rfl⟩
        exact ⟨cs, rs, rfl, rfl, (hs rs cs).1 h⟩
      · rintro ⟨cs, rs', rfl, h, h'⟩
        cases h
        exact ⟨cs, (hs rs cs).2 h', rfl⟩
    | _ => simp [CfgKey.deserialize]
  · intro v
    cases r with
    | bool b =>
      simp only [CfgKey.deserialize, Option.some.injEq, Raw.bool.injEq]
      exact ⟨fun h => ⟨b, h.symm, rfl⟩, by rintro ⟨_, rfl, rfl⟩; rfl⟩
    | _ => simp [CfgKey.deserialize]

/-- Values that are and are not understood. -/
example : CfgKey.maskingCharacters.deserialize (.array [.char '*', .text ['#']]) = some (.chars ['*', '#']) ∧
    CfgKey.maskingCharacters.deserialize (.text ['*']) = none ∧
    CfgKey.sortParsedTags.deserialize (.text "true".toList) = none ∧
    CfgKey.cliColour.deserialize (.text "ansi".toList) = some (.colour .alwaysAnsi) ∧
    CfgKey.cliColour.deserialize (.text "ANSI".toList) = none ∧ ColourChoice.tryFrom "ANSI".toList = .ok .alwaysAnsi := by
  decide +kernel

example : Config.tryFrom (Config.provider ⟨"shop", .never, ['#', 'X'], false⟩) = some ⟨"default", .never, ['#', 'X'], false⟩ := by
  decide +kernel

/-- A setting is missing, or has the wrong type. -/
example : Config.tryFrom ⟨fun _ _ => none, none⟩ = none ∧
    Config.tryFrom (configFigment (fun _ _ => none) (fun k => if k = .sortParsedTags then some (.chars ['1']) else none)
      none).provider = none := by
  decide +kernel

/-- The hypotheses of `c103_same_settings` are met. -/
example : ∃ c : CliConfig, (∀ k, givenSettings c k = none) ∧ ColourChecked c :=
  ⟨⟨⟨some "auto".toList, true⟩, ⟨some ['*'], true⟩, ⟨some true, true⟩, ⟨some false, true⟩⟩, fun k => by cases k <;> decide +kernel,
    by rintro s ⟨rfl⟩; exact ⟨("auto", .auto), by decide, rfl⟩⟩

/-- A configuration over a source that has a setting in the section `global`. -/
example : ((Figment.mk (fun p k => if p = "global" ∧ k = .sortParsedTags then some (.bool true) else none) "default").mergeProvider
    (Config.provider ⟨"shop", .never, ['#'], false⟩)).extractConfig = some ⟨"default", .never, ['#'], true⟩ := by decide +kernel

end Pemv
