import Verif.Model.Tables

/-!
# The parsed value types of src/emv and src/non_emv
-/

namespace Pemv

/-! ### Service code, src/non_emv/service_code.rs -/

/-- `ServiceCode`, src/non_emv/service_code.rs:21-28. -/
structure ServiceCode where
  number : Nat
  interchange : Variant Byte
  technology : Variant Byte
  authorisationProcessing : Variant Byte
  allowedServices : Variant Byte
  pinRequirements : Variant Byte
  deriving DecidableEq, Repr

/-- `From<u8>` of an infallible enum (src/macros.rs:89-95). rustc guarantees that some arm matches;
for the tables of the program this is proved, and a missing arm would be a `panic` here. -/
def enumFrom (table : List (Variant Byte)) (x : Byte) : Out (Variant Byte) :=
  match enumMatch table x with
  | some v => .ok v
  | none => .panic

/-- `TryFrom<u16> for ServiceCode`, src/non_emv/service_code.rs:80-101. -/
def ServiceCode.tryFromU16 (number : Nat) : Out ServiceCode :=
  if number > 999 then .err .invalidNumber
  else do
    let position1 := UInt8.ofNat ((number % 1000) / 100)
    let position2 := UInt8.ofNat ((number % 100) / 10)
    let position3 := UInt8.ofNat (number % 10)
    let interchange ← enumFrom interchangeTable position1
    let technology ← enumFrom technologyTable position1
    let authorisationProcessing ← enumFrom authorisationProcessingTable position2
    let allowedServices ← enumFrom allowedServicesTable position3
    let pinRequirements ← enumFrom pinRequirementsTable position3
    .ok ⟨number, interchange, technology, authorisationProcessing, allowedServices, pinRequirements⟩

/-- `TryFrom<&[u8]> for ServiceCode`, src/non_emv/service_code.rs:103-119. -/
def ServiceCode.tryFrom (rawBytes : List Byte) : Out ServiceCode :=
  if rawBytes.length ≠ 2 then .err (.byteCountIncorrect .eq 2 rawBytes.length)
  else do
    let s ← bytesToStr rawBytes
    let n ← parseStrToU16 s
    ServiceCode.tryFromU16 n

/-! ### Single-code values -/

/-- `TryFrom<&[u8]>` of the one-byte enums: `TransactionType` (src/emv/transaction_type.rs:31-47),
`TerminalType` (src/emv/terminal_type.rs:53-69), `PosEntryMode` (src/emv/pos_entry_mode.rs:40-56). All
three report `Unrecognised` for unlisted codes. -/
def byteEnumTryFrom (table : List (Variant Byte)) (rawBytes : List Byte) : Out (Variant Byte) :=
  if rawBytes.length ≠ 1 then .err (.byteCountIncorrect .eq 1 rawBytes.length)
  else do
    let b ← index rawBytes 0
    enumTryFrom table .unrecognised b

/-- `TransactionType`, src/emv/transaction_type.rs:17-47. -/
def transactionTypeTryFrom : List Byte → Out (Variant Byte) := byteEnumTryFrom transactionTypeTable

/-- `TerminalType`, src/emv/terminal_type.rs:13-69. -/
def terminalTypeTryFrom : List Byte → Out (Variant Byte) := byteEnumTryFrom terminalTypeTable

/-- `PosEntryMode`, src/emv/pos_entry_mode.rs:17-56. -/
def posEntryModeTryFrom : List Byte → Out (Variant Byte) := byteEnumTryFrom posEntryModeTable

/-- `str::from_utf8` restricted to two-byte inputs (the only use is
src/emv/authorisation_response_code.rs:101, after the length check): two ASCII bytes, or one two-byte
sequence `C2..DF 80..BF`. `none` is the UTF-8 error. -/
def fromUtf8Two (a b : Byte) : Option Text :=
  if a < 0x80 ∧ b < 0x80 then some [Char.ofNat a.toNat, Char.ofNat b.toNat]
  else if 0xC2 ≤ a ∧ a ≤ 0xDF ∧ 0x80 ≤ b ∧ b ≤ 0xBF then
    some [Char.ofNat ((a.toNat - 0xC0) * 64 + (b.toNat - 0x80))]
  else none

/-- `TryFrom<&[u8]> for AuthorisationResponseCode`, src/emv/authorisation_response_code.rs:87-105. -/
def arcTryFrom (rawBytes : List Byte) : Out (Variant Text) :=
  if rawBytes.length ≠ 2 then .err (.byteCountIncorrect .eq 2 rawBytes.length)
  else do
    let a ← index rawBytes 0
    let b ← index rawBytes 1
    match fromUtf8Two a b with
    | none => .err .invalidNumber
    | some s => enumTryFrom arcTable .unrecognised s

/-! ### CV rules, CVM list, CVM results -/

/-- `CardholderVerificationRule::try_from`, src/emv/cv_rule/mod.rs:16-27. -/
def cvRuleTryFrom (bytes : List Byte) : Out Value := cvRuleLayout.tryFrom bytes

/-- Looks up a field of a parsed bitflag struct by name (Rust field access `value.field`). -/
def Layout.get (l : Layout) (v : Value) (name : String) : Option FieldVal :=
  ((List.zipWith (fun (r : Nat × List Field) (vs : List FieldVal) =>
      List.zipWith (fun f x => (f.name, x)) r.2 vs) l.rows v).flatten).lookup name

/-- `slice.chunks(n)`, used at src/emv/cvm_list.rs:48 and src/util.rs:131, 153, with fuel. -/
def chunksF {α : Type} (n : Nat) : Nat → List α → List (List α)
  | 0, _ => []
  | _ + 1, [] => []
  | fuel + 1, x :: xs => (x :: xs).take n :: chunksF n fuel ((x :: xs).drop n)

/-- `slice.chunks(n)` for `n > 0`. -/
def chunks {α : Type} (n : Nat) (xs : List α) : List (List α) := chunksF n xs.length xs

/-- `CardholderVerificationMethodList`, src/emv/cvm_list.rs:23-27. -/
structure CvmList where
  xValue : Nat
  yValue : Nat
  cvRules : List Value
  deriving DecidableEq, Repr

/-- The loop of src/emv/cvm_list.rs:48-50. -/
def cvRulesFrom : List (List Byte) → Out (List Value)
  | [] => .ok []
  | pair :: rest => do
    let r ← cvRuleTryFrom pair
    let rs ← cvRulesFrom rest
    .ok (r :: rs)

/-- `TryFrom<&[u8]> for CardholderVerificationMethodList`, src/emv/cvm_list.rs:29-58. -/
def CvmList.tryFrom (bytes : List Byte) : Out CvmList :=
  if bytes.length < 8 then .err (.byteCountIncorrect .gt 8 bytes.length)
  else if (bytes.length - 8) % 2 ≠ 0 then .err .byteCountNotDivisibleIntoComponents
  else do
    let xs ← slice bytes 0 4
    let x ← byteSliceToU32 xs
    let ys ← slice bytes 4 8
    let y ← byteSliceToU32 ys
    let rest ← slice bytes 8 bytes.length
    let rules ← cvRulesFrom (chunks 2 rest)
    .ok ⟨x, y, rules⟩

/-- `CardholderVerificationMethodResults`, src/emv/cvm_results.rs:13-18. -/
structure CvmResults where
  cvRule : Value
  result : Variant Byte
  deriving DecidableEq, Repr

/-- `USED_BITS_MASK` of CVM Results, src/emv/cvm_results.rs:54. -/
def cvmResultsMask : List Byte := [0b01111111, 0b11111111, 0b11111111]

/-- `TryFrom<&[u8]> for CardholderVerificationMethodResults`, src/emv/cvm_results.rs:29-50. -/
def CvmResults.tryFrom (rawBytes : List Byte) : Out CvmResults :=
  if rawBytes.length ≠ 3 then .err (.byteCountIncorrect .eq 3 rawBytes.length)
  else do
    let bytes ← maskBytes rawBytes cvmResultsMask
    let ruleBytes ← slice bytes 0 2
    let rule ← cvRuleTryFrom ruleBytes
    let b ← index bytes 2
    let result ← enumTryFrom cvmResultTable .nonCompliant b
    .ok ⟨rule, result⟩

/-- `get_binary_representation` of CVM Results, src/emv/cvm_results.rs:56-61. -/
def CvmResults.binaryRepresentation (v : CvmResults) : List Byte :=
  cvRuleLayout.binaryRepresentation v.cvRule ++ [v.result.toByte]

/-- `get_bit_display_information` of CVM Results, src/emv/cvm_results.rs:64-81. -/
def CvmResults.bitDisplayInformation (v : CvmResults) : List EnabledBitRange :=
  (cvRuleLayout.bitDisplayInformation v.cvRule).map (fun r => { r with offset := r.offset + 8 }) ++
    [⟨7, 8, "Result: ".toList ++ v.result.text.toList,
      if v.result.name = "Failed" then .error else .normal⟩]

/-! ### CCD Issuer Application Data -/

/-- `IssuerApplicationData` with `FormatSpecificData::A`, src/emv/ccd/iad.rs:18-21, 51-58. -/
structure Iad where
  cci : Value
  dki : Byte
  cvr : Value
  counterBytes : List Byte
  issuerDiscretionaryData : List Byte
  deriving DecidableEq, Repr

/-- `TryFrom<&[u8]> for IssuerApplicationData`, src/emv/ccd/iad.rs:23-48, and
`FormatSpecificData::parse_format_data`, lines 65-86 (the only format code is A). -/
def Iad.tryFrom (bytes : List Byte) : Out Iad :=
  if bytes.length ≠ 32 then .err .nonCcdCompliant
  else do
    let b0 ← index bytes 0
    let b16 ← index bytes 16
    if b0 ≠ 0x0F ∨ b16 ≠ 0x0F then .err .nonCcdCompliant
    else
      let cciBytes ← slice bytes 1 2
      let cci ← cciLayout.tryFrom cciBytes
      let dki ← index bytes 2
      let cvrBytes ← slice bytes 3 8
      let cvr ← cvrLayout.tryFrom cvrBytes
      let counterBytes ← slice bytes 8 16
      let issuerDiscretionaryData ← slice bytes 17 32
      .ok ⟨cci, dki, cvr, counterBytes, issuerDiscretionaryData⟩

/-! ### Issuer Action Codes -/

/-- Which of `IssuerActionCodeDefault`, `IssuerActionCodeDenial`, `IssuerActionCodeOnline`. -/
inductive IacKind where
  | default | denial | online
  deriving DecidableEq, Repr

/-- `TryFrom<&[u8]>`, src/emv/iac/default.rs:61-69, denial.rs:55-63, online.rs:59-67: the wrapped
TVR. -/
def iacTryFrom (_kind : IacKind) (rawBytes : List Byte) : Out Value := tvrLayout.tryFrom rawBytes

/-- `Default::default()`, src/emv/iac/default.rs:44-58, denial.rs:38-52, online.rs:42-56. -/
def iacDefault (kind : IacKind) : Out Value :=
  match kind with
  | .default => (tvrLayout.tryFrom [0xFF, 0xFF, 0xFF, 0xFF, 0xFF]).expect
  | .denial => (tvrLayout.tryFrom [0x00, 0x00, 0x00, 0x00, 0x00]).expect
  | .online => (tvrLayout.tryFrom [0xFF, 0xFF, 0xFF, 0xFF, 0xFF]).expect

end Pemv
