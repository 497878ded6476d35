import Verif.Model.Basic

/-!
# Configuration, src/config

`figment` (reading and merging of configuration sources) is a library; what is modelled is the
contract the program relies on: a figment holds, per profile, a partial map from keys to values;
`merge` lets the newer source win per key and profile; extraction looks at the `global` profile first,
then the selected one, then `default`. (`figment` treats `default` and `global` this way; arrays are
replaced, not concatenated, by `merge`.)
-/

namespace Pemv

/-- `ColourChoice`, src/config/colour_choice.rs:13-30. -/
inductive ColourChoice where
  | always | alwaysAnsi | auto | never
  deriving DecidableEq, Repr

/-- `termcolor::ColorChoice` (external type, four constructors). -/
inductive TermColorChoice where
  | always | alwaysAnsi | auto | never
  deriving DecidableEq, Repr

/-- `From<TermColorChoice> for ColourChoice`, src/config/colour_choice.rs:38-47. -/
def ColourChoice.ofTerm : TermColorChoice → ColourChoice
  | .always => .always
  | .alwaysAnsi => .alwaysAnsi
  | .auto => .auto
  | .never => .never

/-- `From<ColourChoice> for TermColorChoice`, src/config/colour_choice.rs:49-58. -/
def ColourChoice.toTerm : ColourChoice → TermColorChoice
  | .always => .always
  | .alwaysAnsi => .alwaysAnsi
  | .auto => .auto
  | .never => .never

/-- `char::to_lowercase` restricted to what matters at src/config/colour_choice.rs:64: ASCII letters
are folded, and U+212A (KELVIN SIGN), the only other scalar with an ASCII lower case as its whole
lower-case mapping, becomes `k`; other scalars are left alone (their lower-case mapping is never
entirely ASCII - U+0130 maps to `i` followed by U+0307 - so they can never make the text equal to one
of the four ASCII names either way). -/
def lowerChar (c : Char) : Char :=
  if 'A' ≤ c ∧ c ≤ 'Z' then Char.ofNat (c.toNat + 32)
  else if c.toNat = 0x212A then 'k'
  else c

/-- `str::to_lowercase`, src/config/colour_choice.rs:64. -/
def lowerText (s : Text) : Text := s.map lowerChar

/-- `TryFrom<&str> for ColourChoice`, src/config/colour_choice.rs:60-72. -/
def ColourChoice.tryFrom (value : Text) : Out ColourChoice :=
  if lowerText value = "always".toList then .ok .always
  else if lowerText value = "ansi".toList then .ok .alwaysAnsi
  else if lowerText value = "auto".toList then .ok .auto
  else if lowerText value = "never".toList then .ok .never
  else .err .unsupported

/-- `From<ColourChoice> for &str`, src/config/colour_choice.rs:74-83. -/
def ColourChoice.text : ColourChoice → String
  | .always => "always"
  | .alwaysAnsi => "ansi"
  | .auto => "auto"
  | .never => "never"

/-- `change_based_on_tty`, src/config/colour_choice.rs:89-101; `isTty` is what `atty` answers. -/
def ColourChoice.changeBasedOnTty (c : ColourChoice) (isTty : Bool) : ColourChoice :=
  match c with
  | .auto => if isTty then .auto else .never
  | c => c

/-- The value of one configuration key. -/
inductive CfgVal where
  | colour (c : ColourChoice)
  | chars (cs : List Char)
  | bool (b : Bool)
  deriving DecidableEq, Repr

/-- The three keys, src/config/mod.rs:51-55. -/
inductive CfgKey where
  | cliColour | maskingCharacters | sortParsedTags
  deriving DecidableEq, Repr

/-- A dictionary of one profile. -/
abbrev Dict := CfgKey → Option CfgVal

/-- A figment / provider: profile name to dictionary. -/
abbrev FigData := String → Dict

/-- `Figment::merge` (contract): the newer source wins. -/
def FigData.merge (old new : FigData) : FigData := fun p k => (new p k).or (old p k)

/-- A figment with its selected profile. -/
structure Figment where
  data : FigData
  profile : String

/-- `Figment::merge` keeps the selected profile. -/
def Figment.merge (f : Figment) (new : FigData) : Figment := { f with data := f.data.merge new }

/-- Extraction of a key (contract): `global` over the selected profile over `default`. -/
def Figment.extract (f : Figment) (k : CfgKey) : Option CfgVal :=
  (f.data "global" k).or ((f.data f.profile k).or (f.data "default" k))

/-- `Config::default()`, src/config/mod.rs:38-47. -/
def configDefault : Dict
  | .cliColour => some (.colour .auto)
  | .maskingCharacters => some (.chars ['*'])
  | .sortParsedTags => some (.bool true)

/-- `Serialized::defaults(..)`: the `default` profile (contract, src/config/mod.rs:70). -/
def defaultsProvider (d : Dict) : FigData := fun p => if p = "default" then d else fun _ => none

/-- A provider for the `global` profile: `Env::..global()` (src/config/mod.rs:79-81) and the pairs
merged at lines 113, 124, 144 (contract). -/
def globalProvider (d : Dict) : FigData := fun p => if p = "global" then d else fun _ => none

/-- `Config::figment`, src/config/mod.rs:69-87. `file` is the content of the (nested) TOML file,
`env` the `PEMV_*` variables except `PEMV_CONFIG` and `PEMV_PROFILE`, `profile` the value of
`PEMV_PROFILE` if set. -/
def configFigment (file : FigData) (env : Dict) (profile : Option String) : Figment :=
  { (Figment.mk (defaultsProvider configDefault) "default" |>.merge file |>.merge (globalProvider env))
    with profile := profile.getD "default" }

/-- A single pair `(key, value)` as provider. -/
def pairProvider (k : CfgKey) (v : CfgVal) : FigData :=
  globalProvider (fun k' => if k' = k then some v else none)

/-- One command-line option with a default: the value `clap` reports and whether it is only the default
(`value_source == DefaultValue`). -/
structure CliOpt (α : Type) where
  value : Option α
  isDefault : Bool
  deriving DecidableEq, Repr

/-- The configuration-related options, src/cli.rs:45-116. -/
structure CliConfig where
  colour : CliOpt Text
  maskingCharacter : CliOpt (List Char)
  sortParsedTags : CliOpt Bool
  noSortParsedTags : CliOpt Bool
  deriving DecidableEq, Repr

/-- `cli_provided_sort_preference`, src/config/mod.rs:132-142. -/
def cliSortPreference (c : CliConfig) : Option Bool :=
  let p := match c.sortParsedTags.value with
    | some b => if !c.sortParsedTags.isDefault then some b else none
    | none => none
  match c.noSortParsedTags.value with
  | some b => if !c.noSortParsedTags.isDefault then some (!b) else p
  | none => p

/-- The colour choice of the command line, src/config/mod.rs:110-119. The `expect` is a panic. -/
def applyColour (f : Figment) (c : CliConfig) : Out Figment :=
  match c.colour.value with
  | some s =>
    if !c.colour.isDefault then do
      let v ← (ColourChoice.tryFrom s).expect
      .ok (f.merge (pairProvider .cliColour (.colour v)))
    else .ok f
  | none => .ok f

/-- The masking characters of the command line, src/config/mod.rs:121-129. -/
def applyMasking (f : Figment) (c : CliConfig) : Figment :=
  match c.maskingCharacter.value with
  | some cs =>
    if !c.maskingCharacter.isDefault then f.merge (pairProvider .maskingCharacters (.chars cs)) else f
  | none => f

/-- The sort preference of the command line, src/config/mod.rs:143-145. -/
def applySort (f : Figment) (c : CliConfig) : Figment :=
  match cliSortPreference c with
  | some b => f.merge (pairProvider .sortParsedTags (.bool b))
  | none => f

/-- `apply_cli_arguments`, src/config/mod.rs:109-148. -/
def applyCliArguments (f : Figment) (c : CliConfig) : Out Figment := do
  let f ← applyColour f c
  .ok (applySort (applyMasking f c) c)

/-- The three settings `main` uses. -/
structure Settings where
  colour : TermColorChoice
  masks : List Char
  sort : Bool
  deriving DecidableEq, Repr

/-- src/main.rs:107-119: the settings; `unwrap` panics when a value is missing or has the wrong
type (a wrong type in a file or environment variable, which serde reports). -/
def settings (f : Figment) (c : CliConfig) (isTty : Bool) : Out Settings := do
  let f ← applyCliArguments f c
  match f.extract .cliColour with
  | some (.colour colour) =>
    match f.extract .maskingCharacters with
    | some (.chars masks) =>
      match f.extract .sortParsedTags with
      | some (.bool sort) => .ok ⟨(colour.changeBasedOnTty isTty).toTerm, masks, sort⟩
      | _ => .panic
    | _ => .panic
  | _ => .panic

end Pemv
