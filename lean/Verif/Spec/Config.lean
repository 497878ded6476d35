import Verif.Model.Config

/-!
# Specification of the configuration
-/

namespace Pemv.Spec

/-- The same ASCII letters, in either case, and otherwise the same characters; the second text is in lower
case. -/
def SameLetters : Text → Text → Prop
  | [], [] => True
  | c :: s, d :: t => (c = d ∨ (97 ≤ d.toNat ∧ d.toNat ≤ 122 ∧ c.toNat + 32 = d.toNat)) ∧ SameLetters s t
  | _, _ => False

/-- The names of the colour choices. -/
def colourNames : List (String × ColourChoice) :=
  [("auto", .auto), ("always", .always), ("ansi", .alwaysAnsi), ("never", .never)]

/-- The first source that has a value. -/
def firstOf {α : Type} : List (Option α) → Option α
  | [] => none
  | some v :: _ => some v
  | none :: l => firstOf l

/-- The value of an option if the user gave one. -/
def givenBy {α : Type} (o : CliOpt α) : Option α := if o.isDefault then none else o.value

/-- The settings the user gave on the command line. -/
def givenSettings (c : CliConfig) : Dict
  | .cliColour => (givenBy c.colour).bind (fun s =>
      (colourNames.lookup (String.ofList s)).map CfgVal.colour)
  | .maskingCharacters => (givenBy c.maskingCharacter).map CfgVal.chars
  | .sortParsedTags => firstOf [(givenBy c.noSortParsedTags).map (fun b => .bool (!b)),
      (givenBy c.sortParsedTags).map CfgVal.bool]

/-- `clap` only lets the four names pass, exactly as written. -/
def ColourChecked (c : CliConfig) : Prop :=
  ∀ s, c.colour.value = some s → ∃ p ∈ colourNames, s = p.1.toList

/-- The built-in values. -/
def builtIn : Dict
  | .cliColour => some (.colour .auto)
  | .maskingCharacters => some (.chars ['*'])
  | .sortParsedTags => some (.bool true)

/-- The value in force of a setting: that of the command line if the user gave one, else that of the
environment, else that of the configuration file - section `global` first, then the selected profile, then
`default` -, else the built-in one. -/
def inForce (file : FigData) (env : Dict) (profile : Option String) (c : CliConfig) (k : CfgKey) : Option CfgVal :=
  firstOf [givenSettings c k, env k, file "global" k, file (profile.getD "default") k, file "default" k, builtIn k]

end Pemv.Spec
