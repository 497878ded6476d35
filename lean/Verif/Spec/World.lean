import Verif.Model.World
import Verif.Spec.Argv
import Verif.Spec.Text

/-!
# Specification of where the settings come from
-/

namespace Pemv.Spec

/-- The variable that holds a setting. -/
def variableName : CfgKey → String
  | .cliColour => "pemv_cli_colour"
  | .maskingCharacters => "pemv_masking_characters"
  | .sortParsedTags => "pemv_sort_parsed_tags"

/-- The variables that are looked at. Their names may be written in upper and lower case. -/
def variableNames : List String :=
  ["pemv_config", "pemv_profile", "pemv_cli_colour", "pemv_masking_characters", "pemv_sort_parsed_tags"]

/-- The variable has this value. -/
def HasVariable (vars : List (Text × Text)) (name : String) (v : Text) : Prop :=
  ∃ n, (n, v) ∈ vars ∧ SameLetters n name.toList

/-- The variable is not set. -/
def NoVariable (vars : List (Text × Text)) (name : String) : Prop := ∀ v, ¬ HasVariable vars name v

/-- No variable is set twice to different values (in different spellings). -/
def Unambiguous (vars : List (Text × Text)) : Prop :=
  ∀ name ∈ variableNames, ∀ v v', HasVariable vars name v → HasVariable vars name v' → v = v'

/-- The value of a setting in the environment. -/
def VariableIs (lib : Library) (vars : List (Text × Text)) (k : CfgKey) (value : Option CfgVal) : Prop :=
  (NoVariable vars (variableName k) ∧ value = none) ∨
  ∃ v, HasVariable vars (variableName k) v ∧ value = some (lib.value k v)

/-- The text of a variable, without white space around it, or else another text. -/
def TextIs (vars : List (Text × Text)) (name : String) (otherwise t : Text) : Prop :=
  (NoVariable vars name ∧ t = otherwise) ∨ ∃ v, HasVariable vars name v ∧ IsTrim v t

/-- The configuration file: the one the variable names, or `pemv.toml`; if that is no absolute path, the one in the
working directory or else in the nearest directory above it that has one. -/
def FileIs (w : World) (content : Option Text) : Prop :=
  ∃ path, TextIs w.vars "pemv_config" "pemv.toml".toList path ∧
    if path.head? = some '/' then content = w.absoluteFile path
    else
      (content = none ∧ ∀ near dir, w.workingDir = near ++ dir → w.file dir path = none) ∨
      ∃ near dir c, w.workingDir = near ++ dir ∧ content = some c ∧ w.file dir path = some c ∧
        ∀ near' dir', w.workingDir = near' ++ dir' → near'.length < near.length → w.file dir' path = none

/-- The profile: the one the variable names, or `default`. -/
def ProfileIs (w : World) (profile : String) : Prop := TextIs w.vars "pemv_profile" "default".toList profile.toList

/-- Texts that differ at most in the case of ASCII letters. -/
def SameName (p p' : String) : Prop := ∃ low : Text, SameLetters p.toList low ∧ SameLetters p'.toList low

/-- The sections of configuration files are found whatever the case of their names, as `figment` does. -/
def CaseBlind (lib : Library) : Prop :=
  ∀ text file p p', lib.toml text = some file → SameName p p' → file p = file p'

end Pemv.Spec
