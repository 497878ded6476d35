import Verif.Model.Cli
import Verif.Spec.Run
import Verif.Spec.Config

/-!
# Specification of the command line
-/

namespace Pemv.Spec

/-- What an option is for. -/
inductive Opt where
  | operation (op : Operation)
  | colour | masking | sort | noSort | help | version
  deriving DecidableEq, Repr

/-- The names of the options. -/
def optionNames : List (OptName × Opt) := [
  (.short 'h', .help), (.short '?', .help), (.long "help", .help),
  (.short 'V', .version), (.long "version", .version),
  (.long "colour", .colour), (.long "color", .colour),
  (.short 'm', .masking), (.long "masking-character", .masking), (.long "masking-char", .masking),
  (.long "masking", .masking),
  (.long "sort-parsed-tags", .sort), (.long "sort", .sort),
  (.long "no-sort-parsed-tags", .noSort), (.long "no-sort", .noSort),
  (.long "identify", .operation .identify), (.long "id", .operation .identify),
  (.short 'a', .operation .autoTlv), (.long "auto-tlv", .operation .autoTlv), (.long "auto", .operation .autoTlv),
  (.long "parse-tlv", .operation .autoTlv), (.long "parse", .operation .autoTlv),
  (.short 'b', .operation .berTlv), (.long "ber-tlv", .operation .berTlv), (.long "ber", .operation .berTlv),
  (.short 'i', .operation .ingenicoTlv), (.long "ingenico-tlv", .operation .ingenicoTlv),
  (.long "ingenico", .operation .ingenicoTlv),
  (.short 't', .operation .tvr), (.long "tvr", .operation .tvr), (.long "95", .operation .tvr),
  (.long "iac", .operation .tvr), (.long "tac", .operation .tvr),
  (.long "ccd-iad", .operation .ccdIad), (.long "9F10", .operation .ccdIad), (.long "9f10", .operation .ccdIad),
  (.long "iad", .operation .ccdIad),
  (.long "ccd-cvr", .operation .ccdCvr), (.long "cvr", .operation .ccdCvr),
  (.long "tsi", .operation .tsi), (.long "9B", .operation .tsi), (.long "9b", .operation .tsi),
  (.short 'r', .operation .cvmResults), (.long "cvm-results", .operation .cvmResults),
  (.long "9F34", .operation .cvmResults), (.long "9f34", .operation .cvmResults),
  (.long "cvm-result", .operation .cvmResults),
  (.long "cvm-list", .operation .cvmList), (.long "8E", .operation .cvmList), (.long "8e", .operation .cvmList),
  (.long "service-code", .operation .serviceCode), (.long "5F30", .operation .serviceCode),
  (.long "5f30", .operation .serviceCode)]

/-- A use of an option that has been understood. -/
inductive Given where
  | operation (op : Operation) (argument : Text)
  | colour (name : Text)
  | masking (cs : List Char)
  | sort (b : Bool)
  | noSort (b : Bool)
  | help | version
  deriving DecidableEq, Repr

/-- The two truth values. -/
def truthValue (s : Text) : Option Bool :=
  if s = "true".toList then some true else if s = "false".toList then some false else none

/-- Texts of one character each. -/
def singleChars : List Text → Option (List Char)
  | [] => some []
  | [c] :: l => (singleChars l).map (c :: ·)
  | _ :: _ => none

/-- What an option with these values says. Operations take one value, which is not empty; a colour choice is one
of the four names; masking characters are single characters, at least one of them; the sort options take a truth
value or nothing, which means `true`. -/
def understandOpt : Opt → List Text → Option Given
  | .operation op, [v] => if v = [] then none else some (.operation op v)
  | .colour, [v] => if v ∈ colourNames.map (fun p => p.1.toList) then some (.colour v) else none
  | .masking, v :: vs => (singleChars (v :: vs)).map .masking
  | .sort, [] => some (.sort true)
  | .sort, [v] => (truthValue v).map .sort
  | .noSort, [] => some (.noSort true)
  | .noSort, [v] => (truthValue v).map .noSort
  | .help, [] => some .help
  | .version, [] => some .version
  | _, _ => none

/-- What a use of an option says. -/
def understand (u : Use) : Option Given := (optionNames.lookup u.name).bind (fun o => understandOpt o u.values)

/-- The operations that read a block of data objects. -/
def tlvOperations : List Operation := [.autoTlv, .berTlv, .ingenicoTlv]

/-- The operation asked for. -/
def Given.operation? : Given → Option (Operation × Text)
  | .operation op v => some (op, v)
  | _ => none

/-- The colour choice made. -/
def Given.colour? : Given → Option Text
  | .colour v => some v
  | _ => none

/-- The masking characters given. -/
def Given.masking? : Given → Option (List Char)
  | .masking cs => some cs
  | _ => none

/-- The value given for sorting. -/
def Given.sort? : Given → Option Bool
  | .sort b => some b
  | _ => none

/-- The value given for not sorting. -/
def Given.noSort? : Given → Option Bool
  | .noSort b => some b
  | _ => none

/-- The operations asked for. -/
def operationsOf (gs : List Given) : List (Operation × Text) := gs.filterMap Given.operation?

/-- The colour choices made. -/
def coloursOf (gs : List Given) : List Text := gs.filterMap Given.colour?

/-- The lists of masking characters given. -/
def masksOf (gs : List Given) : List (List Char) := gs.filterMap Given.masking?

/-- The values given for sorting. -/
def sortsOf (gs : List Given) : List Bool := gs.filterMap Given.sort?

/-- The values given for not sorting. -/
def noSortsOf (gs : List Given) : List Bool := gs.filterMap Given.noSort?

/-- A command line that makes sense: at most one operation, one colour choice and one word about sorting; and
masking characters and sorting only for operations that read blocks. -/
structure Consistent (gs : List Given) : Prop where
  operation : (operationsOf gs).length ≤ 1
  colour : (coloursOf gs).length ≤ 1
  sorting : (sortsOf gs).length + (noSortsOf gs).length ≤ 1
  block : masksOf gs ≠ [] ∨ sortsOf gs ≠ [] ∨ noSortsOf gs ≠ [] → ∃ p ∈ operationsOf gs, p.1 ∈ tlvOperations

/-- No option given twice, other than masking characters. -/
structure NoRepeats (gs : List Given) : Prop where
  operation : ((operationsOf gs).map Prod.fst).Nodup
  colour : (coloursOf gs).length ≤ 1
  sort : (sortsOf gs).length ≤ 1
  noSort : (noSortsOf gs).length ≤ 1

/-- The settings given on the command line. -/
def settingsGiven (gs : List Given) : Dict
  | .cliColour => (coloursOf gs).head?.bind (fun s => (colourNames.lookup (String.ofList s)).map CfgVal.colour)
  | .maskingCharacters => if masksOf gs = [] then none else some (.chars (masksOf gs).flatten)
  | .sortParsedTags => (sortsOf gs ++ (noSortsOf gs).map not).head?.map CfgVal.bool

/-- The value in force of a setting for this command line. -/
def valueInForce (file : FigData) (env : Dict) (profile : Option String) (gs : List Given) (k : CfgKey) : Option CfgVal :=
  firstOf [settingsGiven gs k, env k, file "global" k, file (profile.getD "default") k, file "default" k, builtIn k]

/-- A value of the type its key asks for. -/
def RightType : CfgKey → CfgVal → Prop
  | .cliColour, .colour _ => True
  | .maskingCharacters, .chars _ => True
  | .sortParsedTags, .bool _ => True
  | _, _ => False

/-- The configuration file and the environment hold values of the right types. -/
def WellTyped (file : FigData) (env : Dict) : Prop :=
  (∀ k v, env k = some v → RightType k v) ∧ ∀ p k v, file p k = some v → RightType k v

/-- The bytes meant by the argument of an option that decodes one data element: hex digits, except that a service
code is a decimal number, whose digits are stored as BCD. -/
def DataOf (op : Operation) (s : Text) (d : List Byte) : Prop :=
  if op = .serviceCode then
    ∃ n, IsU16Text s n ∧ n ≤ 999 ∧ d = [UInt8.ofNat (n / 100), UInt8.ofNat (16 * (n / 10 % 10) + n % 10)]
  else d = hexBytes s

end Pemv.Spec
