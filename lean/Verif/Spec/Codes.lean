import Verif.Model.Values

/-!
# Specification of the single-code values
-/

namespace Pemv.Spec

/-- Transaction types (tag 9C): ISO 8583 processing code, first two digits. -/
def transactionTypes : List (Nat × String) :=
  [(0x00, "Purchase"), (0x01, "Cash Advance"), (0x02, "Void"), (0x09, "Purchase With Cashback"),
   (0x20, "Refund"), (0x31, "Balance Inquiry"), (0x38, "Mini Statement"), (0x40, "Fund Transfer")]

/-- Terminal types (tag 9F35), EMV Book 4 annex A1: the first digit is who controls the terminal, the second
its environment and communication. -/
def terminalType (code : Nat) : Option String :=
  let owner := code / 16
  let kind := code % 16
  if owner < 1 ∨ 3 < owner ∨ kind < 1 ∨ 6 < kind ∨ (owner = 3 ∧ kind < 4) then none
  else
    let attended := if kind ≤ 3 then "Attended, " else "Unattended, "
    let mode :=
      if kind = 1 ∨ kind = 4 then "Online-Only, "
      else if kind = 2 ∨ kind = 5 then "Offline With Online Capabilities, "
      else "Offline-Only, "
    let control :=
      if owner = 1 then "Controlled by a Financial Institution"
      else if owner = 2 then "Controlled by a Merchant"
      else "Controlled by the Cardholder (self-attended, home PC, etc.)"
    let note := if owner = 1 ∧ 4 ≤ kind then " (ATM if it supports Cash Disbursement)" else ""
    some (attended ++ mode ++ control ++ note)

/-- POS entry modes (tag 9F39), by code and variant. -/
def posEntryModes : List (Nat × String) :=
  [(0x00, "Unknown"), (0x01, "Manual"), (0x02, "MagneticStripe"), (0x03, "Barcode"), (0x04, "Ocr"),
   (0x05, "ContactIcc"), (0x06, "Track1"), (0x07, "ContactlessIcc"), (0x08, "ContactlessIccMappingApplied"),
   (0x09, "EcommerceIncludingRemoteChip"), (0x10, "CredentialsOnFile"), (0x80, "Fallback"),
   (0x81, "EcommerceIncludingChip"), (0x82, "ViaServer"), (0x83, "ContactlessIcc"),
   (0x90, "MagneticStripeFull"), (0x91, "ContactlessMagneticStripe"),
   (0x92, "ContactlessIccMappingApplied"), (0x95, "ContactIccUnreliable")]

/-- Authorisation response codes (tag 8A): the two-digit ISO 8583 codes, by number and text shown. -/
def responseCodes : List (Nat × String) := [
  (0, "Approval"),
  (1, "Call"),
  (2, "Call - Special Conditions"),
  (3, "Terminal ID Error"),
  (4, "Hold Card - Call"),
  (5, "Decline - Do Not Honour"),
  (6, "Error"),
  (7, "Hold Card - Call - Special Conditions"),
  (8, "Honour With Identification"),
  (9, "No Original Transaction"),
  (10, "Partial Approval"),
  (11, "Approved (VIP)"),
  (12, "Invalid Transaction"),
  (13, "Invalid Amount"),
  (14, "Invalid Card Number"),
  (15, "No Such Issuer"),
  (16, "Approved - Update Track 3"),
  (17, "Customer Cancellation"),
  (18, "Customer Dispute"),
  (19, "Retry Transaction"),
  (20, "Invalid Response"),
  (21, "No Action Taken"),
  (22, "Suspected Malfunction"),
  (23, "Invalid Minimum Amount"),
  (24, "File Update Not Supported"),
  (25, "Invalid ICC Data"),
  (26, "Duplicate File Update Record"),
  (27, "File Update Field Edit Error"),
  (28, "File Update File Locked Out"),
  (29, "File Update Not Successful"),
  (30, "Format Error"),
  (31, "Bank Not Supported By Switch"),
  (32, "Completed Partially"),
  (33, "Expired Card"),
  (34, "Suspected Fraud"),
  (35, "Card Acceptor, Contact Acquirer"),
  (36, "Restricted Card"),
  (37, "Card Acceptor, Call Acquirer Security"),
  (38, "Allowable PIN Retries Exceeded"),
  (39, "No Credit Account"),
  (40, "Requested Function Not Supported"),
  (41, "Lost Card"),
  (42, "No Universal Account"),
  (43, "Stolen Card"),
  (44, "No Investment Account"),
  (51, "Insufficient Funds"),
  (52, "No Chequing Account"),
  (53, "No Savings Account"),
  (54, "Expired Card"),
  (55, "Incorrect PIN"),
  (56, "No Card Record"),
  (57, "Transaction Not Allowed For Cardholder"),
  (58, "Transaction Not Allowed For Terminal"),
  (59, "Suspected Fraud"),
  (60, "Card Acceptor, Contact Acquirer"),
  (61, "Debit Cashback Withdrawal Limit Decline"),
  (62, "Restricted Card"),
  (63, "Security Violation"),
  (64, "Original Amount Incorrect"),
  (65, "Decline - Insert Card (often due to too many contactless transactions)"),
  (66, "Card Acceptor, Call Acquirer Security"),
  (67, "ATM Hard Card Capture"),
  (68, "Response Received Too Late"),
  (75, "Allowable PIN Retries Exceeded"),
  (91, "Issuer Timeout"),
  (92, "Issuer Routing Problem"),
  (93, "Transaction Not Completed - Law Violation"),
  (94, "Duplicate Transmission"),
  (95, "Reconciliation Error"),
  (96, "System Malfunction")]

/-- ISO/IEC 7813 service code, first digit: interchange. -/
def interchange (d : Nat) : String :=
  if d = 1 ∨ d = 2 then "International"
  else if d = 5 ∨ d = 6 then "National"
  else if d = 7 then "Private"
  else if d = 9 then "Test"
  else "RFU"

/-- First digit: technology. -/
def technology (d : Nat) : String :=
  if d = 2 ∨ d = 6 then "Integrated circuit card (ICC)" else "Magnetic stripe only (MSR)"

/-- Second digit: authorisation processing. -/
def authorisation (d : Nat) : String :=
  if d = 0 then "Normal"
  else if d = 2 then "By issuer only (no offline authorisation)"
  else if d = 4 then
    "By issuer only unless an explicit bilateral agreement applies (no offline authorisation)"
  else "RFU"

/-- Third digit: allowed services. -/
def services (d : Nat) : String :=
  if d = 0 ∨ d = 1 ∨ d = 6 then "No restrictions"
  else if d = 2 ∨ d = 5 ∨ d = 7 then "Goods and services only"
  else if d = 3 then "ATM only"
  else if d = 4 then "Cash only"
  else "RFU"

/-- Third digit: PIN requirements. -/
def pin (d : Nat) : String :=
  if d = 0 ∨ d = 3 ∨ d = 5 then "PIN required"
  else if d = 6 ∨ d = 7 then "Prompt for PIN if PIN pad is present"
  else "None"

/-- A row of table 3 of ISO/IEC 7813, which the project keeps a picture of (references/ServiceCodeChart.jpg). A dash is
`none`. The first two columns are those of the first digit, the last two those of the third. -/
structure ChartRow where
  interchange : Option String
  technology : Option String
  authorisation : Option String
  services : Option String
  pin : Option String

/-- The table, copied from the picture; the rows are for the digits 0 to 9. -/
def chart : List ChartRow := [
  ⟨none, none, some "Normal", some "No restrictions", some "PIN required"⟩,
  ⟨some "International", none, none, some "No restrictions", none⟩,
  ⟨some "International", some "Integrated circuit card", some "By issuer", some "Goods and services only", none⟩,
  ⟨none, none, none, some "ATM only", some "PIN required"⟩,
  ⟨none, none, some "By issuer unless explicit bilateral agreement applies", some "Cash only", none⟩,
  ⟨some "National", none, none, some "Goods and services only", some "PIN required"⟩,
  ⟨some "National", some "Integrated circuit card", none, some "No restrictions", some "Prompt for PIN if PED present"⟩,
  ⟨some "Private", none, none, some "Goods and services only", some "Prompt for PIN if PED present"⟩,
  ⟨none, none, none, none, none⟩,
  ⟨some "Test", none, none, none, none⟩]

/-- The wording of the program, where it differs from that of the table. -/
def chartWording (cell : String) : String :=
  if cell = "Integrated circuit card" then "Integrated circuit card (ICC)"
  else if cell = "By issuer" then "By issuer only (no offline authorisation)"
  else if cell = "By issuer unless explicit bilateral agreement applies" then
    "By issuer only unless an explicit bilateral agreement applies (no offline authorisation)"
  else if cell = "Prompt for PIN if PED present" then "Prompt for PIN if PIN pad is present"
  else cell

/-- A cell in the words of the program; `dash` is what it shows for a dash. -/
def chartCell (dash : String) : Option String → String
  | none => dash
  | some cell => chartWording cell

/-- All code tables of bytes. -/
def codeTables : List (List (Variant Byte)) :=
  [interchangeTable, technologyTable, authorisationProcessingTable, allowedServicesTable,
   pinRequirementsTable, formatCodeTable, cryptogramVersionTable, genAc1Table, genAc2Table, cvMethodTable,
   cvmConditionTable, cvmResultTable, transactionTypeTable, terminalTypeTable, posEntryModeTable]

/-- Those in which each variant has one code. -/
def oneCodeTables : List (List (Variant Byte)) :=
  [formatCodeTable, cryptogramVersionTable, genAc1Table, genAc2Table, cvMethodTable,
   cvmConditionTable, cvmResultTable, transactionTypeTable, terminalTypeTable]

end Pemv.Spec
