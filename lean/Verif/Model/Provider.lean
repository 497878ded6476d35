import Verif.Model.Config

/-!
# `Config` as a value: read from a provider, and as a provider itself, src/config/mod.rs

`main` asks for the three settings one by one (src/main.rs:109-119). `Config` can also be extracted as a whole, and can
be used as a source. What `figment` 0.10 and `serde` do for that is a contract: `Figment::from` starts with an empty
figment with the profile `default` and merges the provider; merging a provider that has a profile selects that; a
figment is a provider of all its data and its profile; what has been serialised is read back as it was.
-/

namespace Pemv

/-- `Config`, src/config/mod.rs:28-36. -/
structure Config where
  profile : String
  cliColour : ColourChoice
  maskingCharacters : List Char
  sortParsedTags : Bool
  deriving DecidableEq, Repr

/-- `Default for Config`, src/config/mod.rs:38-47. -/
def Config.builtIn : Config :=
  { profile := "default", cliColour := .auto, maskingCharacters := ['*'], sortParsedTags := true }

/-- `Serialize for Config`, derived, src/config/mod.rs:29: the profile is skipped (line 31). -/
def Config.serialized (c : Config) : Dict
  | .cliColour => some (.colour c.cliColour)
  | .maskingCharacters => some (.chars c.maskingCharacters)
  | .sortParsedTags => some (.bool c.sortParsedTags)

/-- `figment::value::Value`, as far as the settings are concerned. (Numbers, tables and nothing at all are left out: they
are wrong for every setting, except that serde also takes a number or a table with one entry for a colour.) -/
inductive Raw where
  | text (t : Text)
  | char (c : Char)
  | bool (b : Bool)
  | array (items : List Raw)

/-- `Serialize for ColourChoice`, derived, src/config/colour_choice.rs:12-30: the names given with `rename`. -/
def ColourChoice.serialize : ColourChoice → Raw
  | .always => .text "always".toList
  | .alwaysAnsi => .text "ansi".toList
  | .auto => .text "auto".toList
  | .never => .text "never".toList

/-- `Deserialize for ColourChoice`, derived, src/config/colour_choice.rs:12-30. -/
def ColourChoice.deserialize : Raw → Option ColourChoice
  | .text t =>
    if t = "always".toList then some .always
    else if t = "ansi".toList then some .alwaysAnsi
    else if t = "auto".toList then some .auto
    else if t = "never".toList then some .never
    else none
  | _ => none

/-- `Deserialize for char` (contract of serde): also a text of one character. -/
def charOf : Raw → Option Char
  | .char c => some c
  | .text [c] => some c
  | _ => none

/-- `Deserialize for Vec<char>` (contract of serde). -/
def charsOf : List Raw → Option (List Char)
  | [] => some []
  | r :: rs =>
    match charOf r, charsOf rs with
    | some c, some cs => some (c :: cs)
    | _, _ => none

/-- What the type of a setting (src/config/mod.rs:33-35) makes of a value; `none` is an error. -/
def CfgKey.deserialize : CfgKey → Raw → Option CfgVal
  | .cliColour, r => (ColourChoice.deserialize r).map .colour
  | .maskingCharacters, .array rs => (charsOf rs).map .chars
  | .sortParsedTags, .bool b => some (.bool b)
  | _, _ => none

/-- What is written for a setting (`Serialize` of its type). -/
def CfgVal.serialize : CfgVal → Raw
  | .colour c => c.serialize
  | .chars cs => .array (cs.map .char)
  | .bool b => .bool b

/-- `figment::Provider`: the data and the profile it selects, if any. -/
structure Provider where
  data : FigData
  profile : Option String

/-- `Provider for Config`, src/config/mod.rs:90-102. -/
def Config.provider (c : Config) : Provider :=
  { data := defaultsProvider c.serialized, profile := some c.profile }

/-- `Provider for Figment` (contract). -/
def Figment.provider (f : Figment) : Provider := { data := f.data, profile := some f.profile }

/-- `Figment::merge` of a provider (contract). -/
def Figment.mergeProvider (f : Figment) (p : Provider) : Figment :=
  { data := f.data.merge p.data, profile := p.profile.getD f.profile }

/-- `Figment::from` (contract). -/
def Figment.ofProvider (p : Provider) : Figment :=
  Figment.mergeProvider { data := fun _ _ => none, profile := "default" } p

/-- `extract::<Config>()` with `Deserialize for Config`, derived, src/config/mod.rs:29: every setting has to be there
and to have its type; the profile, which is skipped, is `Profile::default()`. -/
def Figment.extractConfig (f : Figment) : Option Config :=
  match f.extract .cliColour, f.extract .maskingCharacters, f.extract .sortParsedTags with
  | some (.colour c), some (.chars m), some (.bool s) => some ⟨"default", c, m, s⟩
  | _, _, _ => none

/-- `Config::try_from`, src/config/mod.rs:61-66; `none` is a `FigmentError`. -/
def Config.tryFrom (p : Provider) : Option Config := (Figment.ofProvider p).extractConfig

end Pemv
