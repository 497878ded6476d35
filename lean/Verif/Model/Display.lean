import Verif.Model.Output
import Verif.Model.Process

/-!
# `display_breakdown` of every value type, and of tags and blocks
-/

namespace Pemv

open Disp

/-- `DisplayBreakdown for ServiceCode`, src/non_emv/service_code.rs:122-174. -/
def displayServiceCode (v : ServiceCode) (indentation : Nat) : Disp :=
  .all [
    printIndentation indentation, color boldSpec, println (padLeft0 3 (natToText v.number)), reset,
    printIndentation indentation, print "││├ ".toList, color boldSpec,
    print "Allowed Services:".toList, reset, println ("         ".toList ++ v.allowedServices.text.toList),
    printIndentation indentation, print "││└ ".toList, color boldSpec,
    print "PIN Requirements:".toList, reset, println ("         ".toList ++ v.pinRequirements.text.toList),
    printIndentation indentation, print "│└─ ".toList, color boldSpec,
    print "Authorisation Processing:".toList, reset,
    println (" ".toList ++ v.authorisationProcessing.text.toList),
    printIndentation indentation, print "├── ".toList, color boldSpec,
    print "Interchange:".toList, reset, println ("              ".toList ++ v.interchange.text.toList),
    printIndentation indentation, print "└── ".toList, color boldSpec,
    print "Technology:".toList, reset, println ("               ".toList ++ v.technology.text.toList)]

/-- `references_x_or_y_value`, src/emv/cv_rule/cvm_condition.rs:35-43. -/
def referencesXOrY (c : Variant Byte) : Bool :=
  c.name == "InApplicationCurrencyUnderX" || c.name == "InApplicationCurrencyOverX" ||
  c.name == "InApplicationCurrencyUnderY" || c.name == "InApplicationCurrencyOverY"

/-- `cv_rule.condition.internal.map_or(false, ..)`, src/emv/cvm_list.rs:75-80. -/
def ruleReferencesXOrY (rule : Value) : Bool :=
  match cvRuleLayout.get rule "condition" with
  | some (.optEnum (some c)) => referencesXOrY c
  | _ => false

/-- The condition of src/emv/cvm_list.rs:73-80. -/
def showXY (v : CvmList) : Bool :=
  v.xValue != 0 || v.yValue != 0 || v.cvRules.any ruleReferencesXOrY

/-- `value_padding_length`, src/emv/cvm_list.rs:82-84. -/
def xyWidth (v : CvmList) : Nat := max (max (numDecDigits v.xValue) (numDecDigits v.yValue)) 3

/-- `Display` of the method / condition of a CV rule, src/emv/cvm_list.rs:122, 129. -/
def ruleFieldText (rule : Value) (name : String) : Text :=
  match (cvRuleLayout.rows.flatMap Prod.snd).find? (fun f => f.name == name),
      cvRuleLayout.get rule name with
  | some f, some v => f.valueText v
  | _, _ => []

/-- `cv_rule.continue_if_unsuccessful`, src/emv/cvm_list.rs:138. -/
def ruleContinues (rule : Value) : Bool :=
  match cvRuleLayout.get rule "continue_if_unsuccessful" with
  | some (.bool b) => b
  | _ => false

/-- One rule, src/emv/cvm_list.rs:110-144; `number` is `i + 1`. -/
def displayCvmRule (m : Machine) (indentation number : Nat) (rule : Value) : Disp :=
  .all [
    printIndentation indentation, color boldSpec,
    println ("CVM ".toList ++ natToText number ++ ":".toList), reset,
    withIndentSucc m indentation printIndentation, color boldSpec,
    print "Method:         ".toList, reset, println (" ".toList ++ ruleFieldText rule "method"),
    withIndentSucc m indentation printIndentation, color boldSpec,
    print "Condition:      ".toList, reset, println (" ".toList ++ ruleFieldText rule "condition"),
    withIndentSucc m indentation printIndentation, color boldSpec,
    print "If Unsuccessful:".toList, reset,
    println (" ".toList ++ (if ruleContinues rule then "Next CVM" else "Fail").toList)]

/-- The loop of src/emv/cvm_list.rs:110-144. -/
def displayCvmRules (m : Machine) (indentation : Nat) : Nat → List Value → Disp
  | _, [] => .nil
  | number, r :: rs =>
    (displayCvmRule m indentation number r).seq (displayCvmRules m indentation (number + 1) rs)

/-- The X and Y lines, src/emv/cvm_list.rs:86-102. -/
def displayXY (v : CvmList) (indentation : Nat) : Disp :=
  .all [
    printIndentation indentation, color headerSpec, print "X Value:".toList, reset,
    println (" ".toList ++ padLeft0 (xyWidth v) (natToText v.xValue) ++
      " (implicit decimal point based on application currency)".toList),
    printIndentation indentation, color headerSpec, print "Y Value:".toList, reset,
    println (" ".toList ++ padLeft0 (xyWidth v) (natToText v.yValue))]

/-- `DisplayBreakdown for CardholderVerificationMethodList`, src/emv/cvm_list.rs:61-146. -/
def displayCvmList (m : Machine) (v : CvmList) (indentation : Nat) : Disp :=
  .all [
    if showXY v then displayXY v indentation else .nil,
    printIndentation indentation, color headerSpec,
    println "Cardholder Verification Rules:".toList, reset,
    displayCvmRules m indentation 1 v.cvRules]

/-- `display_breakdown` of CVM Results (a `BitflagValue`), src/emv/bitflag_values.rs:73-178 with
src/emv/cvm_results.rs:52-82. -/
def displayCvmResults (v : CvmResults) (indentation : Nat) (show_ : Bool) : Disp :=
  displayBreakdown 3 v.binaryRepresentation v.bitDisplayInformation indentation show_

/-- `{dki:#04X}`, src/emv/ccd/iad.rs:131. -/
def hexHash04 (b : Byte) : Text := "0x".toList ++ padLeft0 2 (hexUpper b)

/-- `DisplayBreakdown for IssuerApplicationData`, src/emv/ccd/iad.rs:103-156. -/
def displayIad (m : Machine) (v : Iad) (indentation : Nat) (show_ : Bool) : Disp :=
  .all [
    printIndentation indentation, color headerSpec, println "Common Core Identifier:".toList, reset,
    withIndentSucc m indentation (fun i => displayLayout cciLayout v.cci i show_),
    printIndentation indentation, color headerSpec, print "Derivation Key Index:".toList, reset,
    println (" ".toList ++ hexHash04 v.dki),
    printIndentation indentation, color headerSpec, println "Card Verification Results:".toList, reset,
    withIndentSucc m indentation (fun i => displayLayout cvrLayout v.cvr i show_),
    printIndentation indentation, color headerSpec,
    println "Counters: (Payment System-Specific)".toList, reset,
    withIndentSucc m indentation (printBytes v.counterBytes 16),
    printIndentation indentation, color headerSpec, println "Issuer-Discretionary Data".toList, reset,
    withIndentSucc m indentation (printBytes v.issuerDiscretionaryData 16)]

/-- The header texts of src/emv/iac/default.rs:78-81, denial.rs:72-75, online.rs:76. -/
def iacHeader : IacKind → String
  | .default =>
    "If not an online transaction and any of the following match the TVR, reject the transaction:"
  | .denial =>
    "If any of the following match the TVR, deny the transaction without even going online:"
  | .online => "If any of the following match the TVR, complete the transaction online:"

/-- `DisplayBreakdown` of the IACs, src/emv/iac/default.rs:72-86, denial.rs:66-80, online.rs:70-81. -/
def displayIac (kind : IacKind) (tvr : Value) (indentation : Nat) : Disp :=
  .all [
    printIndentation indentation, color headerSpec, println (iacHeader kind).toList, reset,
    displayLayout tvrLayout tvr indentation false]

/-- `DisplayBreakdown` of the code enums: src/emv/transaction_type.rs:50-55, terminal_type.rs:72-77,
pos_entry_mode.rs:59-64, authorisation_response_code.rs:108-113. -/
def displayCode (text : String) (indentation : Nat) : Disp :=
  .all [printIndentation indentation, println text.toList]

/-- Dynamic dispatch of `parsed.display_breakdown`, src/emv/tlv_parsing/mod.rs:369. -/
def ParsedValue.display (m : Machine) (v : ParsedValue) (indentation : Nat) (show_ : Bool) : Disp :=
  match v with
  | .serviceCode v => displayServiceCode v indentation
  | .authorisationResponseCode v => displayCode v.text indentation
  | .cvmList v => displayCvmList m v indentation
  | .tvr v => displayLayout tvrLayout v indentation show_
  | .tsi v => displayLayout tsiLayout v indentation show_
  | .transactionType v => displayCode v.text indentation
  | .iac kind v => displayIac kind v indentation
  | .iad v => displayIad m v indentation show_
  | .terminalCapabilities v => displayLayout terminalCapabilitiesLayout v indentation show_
  | .cvmResults v => displayCvmResults v indentation show_
  | .terminalType v => displayCode v.text indentation
  | .posEntryMode v => displayCode v.text indentation
  | .additionalTerminalCapabilities v =>
    displayLayout additionalTerminalCapabilitiesLayout v indentation show_

/-- `DisplayBreakdown for RawEmvTag`, src/emv/tlv_parsing/mod.rs:440-464. -/
def displayRawTag (m : Machine) (t : RawEmvTag) (indentation : Nat) : Disp :=
  match t.data with
  | .normal [] => .nil
  | .normal data =>
    .all [printIndentation indentation, color headerSpec, println "Raw:".toList, reset,
      withIndentSucc m indentation (printBytesPretty data 16)]
  | .masked =>
    .all [printIndentation indentation, color headerSpec, println "* Masked *".toList, reset]

/-- `print_tag_name`, src/emv/tlv_parsing/mod.rs:283-313. -/
def printTagName (indentation : Nat) (tag : List Byte) (length : Option Nat) (name : Option String) :
    Disp :=
  .all [
    printIndentation indentation, color headerSpec, print "Tag:".toList, reset, print " 0x".toList,
    color boldSpec, printBytesSmall tag, reset,
    match length with
    | some len =>
      println (" - ".toList ++ natToText len ++ " byte".toList ++ (if len = 1 then "" else "s").toList ++
        " - ".toList ++ (name.getD "<Unknown>").toList)
    | none => println (" - ?? bytes - ".toList ++ (name.getD "<Unknown>").toList)]

/-- `DisplayBreakdown for ProcessedEmvTag`, src/emv/tlv_parsing/mod.rs:276-373. -/
def displayTag (m : Machine) (t : ProcessedEmvTag) (indentation : Nat) (show_ : Bool) : Disp :=
  match t with
  | .raw rawTag =>
    .all [printTagName indentation rawTag.tag rawTag.data.len none, displayRawTag m rawTag indentation]
  | .annotated name rawTag =>
    .all [printTagName indentation rawTag.tag rawTag.data.len (some name),
      displayRawTag m rawTag indentation]
  | .parsed name parsed rawTag =>
    .all [printTagName indentation rawTag.tag rawTag.data.len (some name),
      displayRawTag m rawTag indentation,
      printIndentation indentation, color headerSpec, println "Parsed:".toList, reset,
      withIndentSucc m indentation (fun i => parsed.display m i show_)]

mutual
/-- `DisplayBreakdown for ProcessedEmvNode`, src/emv/tlv_parsing/mod.rs:119-143. -/
def displayNode (m : Machine) (show_ : Bool) : ProcessedEmvNode → Nat → Disp
  | .mk tag children, indentation =>
    .all [
      displayTag m tag indentation show_,
      if children.isEmpty then .nil
      else .all [
        printIndentation indentation, color headerSpec,
        println "Constructed Data Object's Child Tags:".toList, reset,
        withIndentSucc m indentation (fun i => displayNodes m show_ children true i)]]

/-- The loop of `DisplayBreakdown for ProcessedEmvBlock`, src/emv/tlv_parsing/mod.rs:73-81. -/
def displayNodes (m : Machine) (show_ : Bool) : ProcessedEmvBlock → (first : Bool) → Nat → Disp
  | [], _, _ => .nil
  | n :: ns, first, indentation =>
    .all [
      if first then .nil else println [],
      displayNode m show_ n indentation,
      displayNodes m show_ ns false indentation]
end

/-- `DisplayBreakdown for ProcessedEmvBlock`, src/emv/tlv_parsing/mod.rs:66-83. -/
def displayBlock (m : Machine) (b : ProcessedEmvBlock) (indentation : Nat) (show_ : Bool) : Disp :=
  displayNodes m show_ b true indentation

/-- `DisplayBreakdown for TagBasicInfo`, src/emv/tag_basic_info.rs:56-91. -/
def displayTagInfo (v : TagBasicInfo) (indentation : Nat) : Disp :=
  .all [
    printIndentation indentation, color headerSpec, print "Name:".toList, reset,
    println ("             ".toList ++ (v.name.getD "<Unknown>").toList),
    printIndentation indentation, color headerSpec, print "Tag:".toList, reset,
    print "              0x".toList, color boldSpec, printBytesSmall v.tag, reset, println [],
    printIndentation indentation, color headerSpec, print "Class:".toList, reset,
    println ("            ".toList ++ v.cls.text.toList),
    printIndentation indentation, color headerSpec, print "Data Object Type:".toList, reset,
    println (" ".toList ++ v.dataObjectType.text.toList)]

end Pemv
