import Verif.Model.Bitflags

/-!
# The tables: every invocation of `enum_*!` and `bitflag_value!`, and `identify_tag`

Transcribed by tools/gen_tables.py.
-/

namespace Pemv

/-- `Interchange`, src/non_emv/service_code.rs:32-38. -/
def interchangeTable : List (Variant Byte) := [
  ⟨"International", some [0x01, 0x02], "International"⟩,
  ⟨"National", some [0x05, 0x06], "National"⟩,
  ⟨"Private", some [0x07], "Private"⟩,
  ⟨"Test", some [0x09], "Test"⟩,
  ⟨"Rfu", none, "RFU"⟩]

/-- `Technology`, src/non_emv/service_code.rs:43-46. -/
def technologyTable : List (Variant Byte) := [
  ⟨"IntegratedCircuitCard", some [0x02, 0x06], "Integrated circuit card (ICC)"⟩,
  ⟨"MagneticStripeOnly", none, "Magnetic stripe only (MSR)"⟩]

/-- `AuthorisationProcessing`, src/non_emv/service_code.rs:51-57. -/
def authorisationProcessingTable : List (Variant Byte) := [
  ⟨"Normal", some [0x00], "Normal"⟩,
  ⟨"ByIssuer", some [0x02], "By issuer only (no offline authorisation)"⟩,
  ⟨"ByIssuerUnlessExplicitAgreement", some [0x04], "By issuer only unless an explicit bilateral agreement applies (no offline authorisation)"⟩,
  ⟨"Rfu", none, "RFU"⟩]

/-- `AllowedServices`, src/non_emv/service_code.rs:62-68. -/
def allowedServicesTable : List (Variant Byte) := [
  ⟨"NoRestrictions", some [0x00, 0x01, 0x06], "No restrictions"⟩,
  ⟨"GoodsAndServicesOnly", some [0x02, 0x05, 0x07], "Goods and services only"⟩,
  ⟨"AtmOnly", some [0x03], "ATM only"⟩,
  ⟨"CashOnly", some [0x04], "Cash only"⟩,
  ⟨"Rfu", none, "RFU"⟩]

/-- `PinRequirements`, src/non_emv/service_code.rs:73-77. -/
def pinRequirementsTable : List (Variant Byte) := [
  ⟨"PinRequired", some [0x00, 0x03, 0x05], "PIN required"⟩,
  ⟨"PromptIfPinpadPresent", some [0x06, 0x07], "Prompt for PIN if PIN pad is present"⟩,
  ⟨"None", none, "None"⟩]

/-- `FormatCode`, src/emv/ccd/cci.rs:23-25. -/
def formatCodeTable : List (Variant Byte) := [
  ⟨"A", some [0x0A], "Format A"⟩]

/-- `CryptogramVersion`, src/emv/ccd/cci.rs:30-33. -/
def cryptogramVersionTable : List (Variant Byte) := [
  ⟨"TripleDes", some [0x05], "Triple DES (3DES)"⟩,
  ⟨"Aes", some [0x06], "AES"⟩]

/-- `GenAc1ApplicationCryptogramType`, src/emv/ccd/cvr.rs:77-82. -/
def genAc1Table : List (Variant Byte) := [
  ⟨"Aac", some [0x00], "AAC (Application Authentication Cryptogram)"⟩,
  ⟨"Tc", some [0x01], "TC (Transaction Certificate)"⟩,
  ⟨"Arqc", some [0x02], "ARQC (Authorization Request Cryptogram)"⟩,
  ⟨"Rfu", some [0x03], "RFU (Reserved For Use)"⟩]

/-- `GenAc2ApplicationCryptogramType`, src/emv/ccd/cvr.rs:87-92. -/
def genAc2Table : List (Variant Byte) := [
  ⟨"Aac", some [0x00], "AAC (Application Authentication Cryptogram)"⟩,
  ⟨"Tc", some [0x01], "TC (Transaction Certificate)"⟩,
  ⟨"SecondGenAcNotRequested", some [0x02], "Second GENERATE AC not requested"⟩,
  ⟨"Rfu", some [0x03], "RFU (Reserved For Use)"⟩]

/-- `CvMethod`, src/emv/cv_rule/cv_method.rs:13-25. -/
def cvMethodTable : List (Variant Byte) := [
  ⟨"FailCvmProcessing", some [0x00], "Fail CVM processing"⟩,
  ⟨"PlaintextPin", some [0x01], "Plaintext PIN verification performed by ICC"⟩,
  ⟨"EncipheredPinOnline", some [0x02], "Enciphered PIN verified online"⟩,
  ⟨"PlaintextPinWithSignature", some [0x03], "Plaintext PIN verification performed by ICC and signature (paper)"⟩,
  ⟨"EncipheredPin", some [0x04], "Enciphered PIN verification performed by ICC"⟩,
  ⟨"EncipheredPinWithSignature", some [0x05], "Enciphered PIN verification performed by ICC and signature (paper)"⟩,
  ⟨"Signature", some [0x1E], "Signature (paper)"⟩,
  ⟨"NoCvmRequired", some [0x1F], "No CVM required"⟩,
  ⟨"NoCvmPerformed", some [0x3F], "No CVM performed"⟩]

/-- `CvmCondition`, src/emv/cv_rule/cvm_condition.rs:13-29. -/
def cvmConditionTable : List (Variant Byte) := [
  ⟨"Always", some [0x00], "Always"⟩,
  ⟨"UnattendedCash", some [0x01], "If unattended cash"⟩,
  ⟨"NotUnattendedNotManualNotCashback", some [0x02], "If not unattended cash and not manual cash and not purchase with cashback"⟩,
  ⟨"TerminalSupported", some [0x03], "If terminal supports the CVM"⟩,
  ⟨"Manual", some [0x04], "If manual cash"⟩,
  ⟨"Cashback", some [0x05], "If purchase with cashback"⟩,
  ⟨"InApplicationCurrencyUnderX", some [0x06], "If transaction is in the application currency and is under X value"⟩,
  ⟨"InApplicationCurrencyOverX", some [0x07], "If transaction is in the application currency and is over X value"⟩,
  ⟨"InApplicationCurrencyUnderY", some [0x08], "If transaction is in the application currency and is under Y value"⟩,
  ⟨"InApplicationCurrencyOverY", some [0x09], "If transaction is in the application currency and is over Y value"⟩]

/-- `CvmResult`, src/emv/cvm_results.rs:22-26. -/
def cvmResultTable : List (Variant Byte) := [
  ⟨"Unknown", some [0x00], "Unknown"⟩,
  ⟨"Failed", some [0x01], "Failed"⟩,
  ⟨"Successful", some [0x02], "Successful"⟩]

/-- `TransactionType`, src/emv/transaction_type.rs:19-28. -/
def transactionTypeTable : List (Variant Byte) := [
  ⟨"Purchase", some [0x00], "Purchase"⟩,
  ⟨"CashAdvance", some [0x01], "Cash Advance"⟩,
  ⟨"Void", some [0x02], "Void"⟩,
  ⟨"CashbackPurchase", some [0x09], "Purchase With Cashback"⟩,
  ⟨"Refund", some [0x20], "Refund"⟩,
  ⟨"BalanceInquiry", some [0x31], "Balance Inquiry"⟩,
  ⟨"MiniStatement", some [0x38], "Mini Statement"⟩,
  ⟨"FundTransfer", some [0x40], "Fund Transfer"⟩]

/-- `TerminalType`, src/emv/terminal_type.rs:15-50. -/
def terminalTypeTable : List (Variant Byte) := [
  ⟨"AttendedOnlineOnlyFinancialInstitution", some [0x11], "Attended, Online-Only, Controlled by a Financial Institution"⟩,
  ⟨"AttendedOfflineWithOnlineCapabilitiesFinancialInstitution", some [0x12], "Attended, Offline With Online Capabilities, Controlled by a Financial Institution"⟩,
  ⟨"AttendedOfflineOnlyFinancialInstitution", some [0x13], "Attended, Offline-Only, Controlled by a Financial Institution"⟩,
  ⟨"UnattendedOnlineOnlyFinancialInstitution", some [0x14], "Unattended, Online-Only, Controlled by a Financial Institution (ATM if it supports Cash Disbursement)"⟩,
  ⟨"UnattendedOfflineWithOnlineCapabilitiesFinancialInstitution", some [0x15], "Unattended, Offline With Online Capabilities, Controlled by a Financial Institution (ATM if it supports Cash Disbursement)"⟩,
  ⟨"UnattendedOfflineOnlyFinancialInstitution", some [0x16], "Unattended, Offline-Only, Controlled by a Financial Institution (ATM if it supports Cash Disbursement)"⟩,
  ⟨"AttendedOnlineOnlyMerchant", some [0x21], "Attended, Online-Only, Controlled by a Merchant"⟩,
  ⟨"AttendedOfflineWithOnlineCapabilitiesMerchant", some [0x22], "Attended, Offline With Online Capabilities, Controlled by a Merchant"⟩,
  ⟨"AttendedOfflineOnlyMerchant", some [0x23], "Attended, Offline-Only, Controlled by a Merchant"⟩,
  ⟨"UnattendedOnlineOnlyMerchant", some [0x24], "Unattended, Online-Only, Controlled by a Merchant"⟩,
  ⟨"UnattendedOfflineWithOnlineCapabilitiesMerchant", some [0x25], "Unattended, Offline With Online Capabilities, Controlled by a Merchant"⟩,
  ⟨"UnattendedOfflineOnlyMerchant", some [0x26], "Unattended, Offline-Only, Controlled by a Merchant"⟩,
  ⟨"UnattendedOnlineOnlyCardholder", some [0x34], "Unattended, Online-Only, Controlled by the Cardholder (self-attended, home PC, etc.)"⟩,
  ⟨"UnattendedOfflineWithOnlineCapabilitiesCardholder", some [0x35], "Unattended, Offline With Online Capabilities, Controlled by the Cardholder (self-attended, home PC, etc.)"⟩,
  ⟨"UnattendedOfflineOnlyCardholder", some [0x36], "Unattended, Offline-Only, Controlled by the Cardholder (self-attended, home PC, etc.)"⟩]

/-- `PosEntryMode`, src/emv/pos_entry_mode.rs:19-37. -/
def posEntryModeTable : List (Variant Byte) := [
  ⟨"Unknown", some [0x00], "Unknown"⟩,
  ⟨"Manual", some [0x01], "Manual (keyed entry)"⟩,
  ⟨"MagneticStripe", some [0x02], "Magnetic Stripe Reader (MSR)"⟩,
  ⟨"Barcode", some [0x03], "Barcode"⟩,
  ⟨"Ocr", some [0x04], "Optical Character Recognition (OCR)"⟩,
  ⟨"ContactIcc", some [0x05], "Integrated Circuit Chip (ICC) - Data Reliable (contact/insert transaction) (CVV can be checked)"⟩,
  ⟨"Track1", some [0x06], "Magnetic Stripe Track 1"⟩,
  ⟨"ContactlessIcc", some [0x07, 0x83], "Contactless Chip (contactless/tap transaction)"⟩,
  ⟨"ContactlessIccMappingApplied", some [0x08, 0x92], "Contactless Chip (contactless/tap transaction) - Contactless Mapping Service Applied"⟩,
  ⟨"EcommerceIncludingRemoteChip", some [0x09], "E-Commerce - Including Remote Chip"⟩,
  ⟨"CredentialsOnFile", some [0x10], "Merchant Has Cardholder Credentials On File (token, recurring payment, etc.)"⟩,
  ⟨"Fallback", some [0x80], "ICC Could Not Process - Fallback to MSR"⟩,
  ⟨"EcommerceIncludingChip", some [0x81], "E-Commerce - Including Chip"⟩,
  ⟨"ViaServer", some [0x82], "Via a Server (issuer, acquirer, third-party vendor)"⟩,
  ⟨"MagneticStripeFull", some [0x90], "Magnetic Stripe Reader (MSR) - Full Track Data - Data Reliable (CVV can be checked)"⟩,
  ⟨"ContactlessMagneticStripe", some [0x91], "Contactless Magnetic Stripe Data (MSD)"⟩,
  ⟨"ContactIccUnreliable", some [0x95], "Integrated Circuit Chip (ICC) - Data Unreliable (contact/insert transaction) (CVV cannot be checked)"⟩]

/-- `AuthorisationResponseCode`, src/emv/authorisation_response_code.rs:18-84. -/
def arcTable : List (Variant Text) := [
  ⟨"Approval", some ["00".toList], "Approval"⟩,
  ⟨"Call", some ["01".toList], "Call"⟩,
  ⟨"CallSpecial", some ["02".toList], "Call - Special Conditions"⟩,
  ⟨"TerminalIdError", some ["03".toList], "Terminal ID Error"⟩,
  ⟨"HoldCall", some ["04".toList], "Hold Card - Call"⟩,
  ⟨"Decline", some ["05".toList], "Decline - Do Not Honour"⟩,
  ⟨"Error", some ["06".toList], "Error"⟩,
  ⟨"HoldCallSpecial", some ["07".toList], "Hold Card - Call - Special Conditions"⟩,
  ⟨"HonourWithId", some ["08".toList], "Honour With Identification"⟩,
  ⟨"NoOriginalTransaction", some ["09".toList], "No Original Transaction"⟩,
  ⟨"PartialApproval", some ["10".toList], "Partial Approval"⟩,
  ⟨"ApprovalVip", some ["11".toList], "Approved (VIP)"⟩,
  ⟨"InvalidTransaction", some ["12".toList], "Invalid Transaction"⟩,
  ⟨"InvalidAmount", some ["13".toList], "Invalid Amount"⟩,
  ⟨"InvalidCardNumber", some ["14".toList], "Invalid Card Number"⟩,
  ⟨"NoSuchIssuer", some ["15".toList], "No Such Issuer"⟩,
  ⟨"ApprovedUpdateTrack3", some ["16".toList], "Approved - Update Track 3"⟩,
  ⟨"CustomerCancellation", some ["17".toList], "Customer Cancellation"⟩,
  ⟨"CustomerDispute", some ["18".toList], "Customer Dispute"⟩,
  ⟨"RetryTransaction", some ["19".toList], "Retry Transaction"⟩,
  ⟨"InvalidResponse", some ["20".toList], "Invalid Response"⟩,
  ⟨"NoActionTaken", some ["21".toList], "No Action Taken"⟩,
  ⟨"SuspectedMalfunction", some ["22".toList], "Suspected Malfunction"⟩,
  ⟨"InvalidMinimumAmount", some ["23".toList], "Invalid Minimum Amount"⟩,
  ⟨"FileUpdateNotSupported", some ["24".toList], "File Update Not Supported"⟩,
  ⟨"InvalidIccData", some ["25".toList], "Invalid ICC Data"⟩,
  ⟨"DuplicateFileUpdateRecord", some ["26".toList], "Duplicate File Update Record"⟩,
  ⟨"FileUpdateFieldEditError", some ["27".toList], "File Update Field Edit Error"⟩,
  ⟨"FileUpdateFileLockedOut", some ["28".toList], "File Update File Locked Out"⟩,
  ⟨"FileUpdateNotSuccessful", some ["29".toList], "File Update Not Successful"⟩,
  ⟨"FormatError", some ["30".toList], "Format Error"⟩,
  ⟨"BankNotSupportedBySwitch", some ["31".toList], "Bank Not Supported By Switch"⟩,
  ⟨"CompletedPartially", some ["32".toList], "Completed Partially"⟩,
  ⟨"ExpiredCard", some ["33".toList, "54".toList], "Expired Card"⟩,
  ⟨"SuspectedFraud", some ["34".toList, "59".toList], "Suspected Fraud"⟩,
  ⟨"CardAcceptorContactAcquirer", some ["35".toList, "60".toList], "Card Acceptor, Contact Acquirer"⟩,
  ⟨"RestrictedCard", some ["36".toList, "62".toList], "Restricted Card"⟩,
  ⟨"CardAcceptorCallAcquirerSecurity", some ["37".toList, "66".toList], "Card Acceptor, Call Acquirer Security"⟩,
  ⟨"AllowablePinRetriesExceeded", some ["38".toList, "75".toList], "Allowable PIN Retries Exceeded"⟩,
  ⟨"NoCreditAccount", some ["39".toList], "No Credit Account"⟩,
  ⟨"RequestedFunctionNotSupported", some ["40".toList], "Requested Function Not Supported"⟩,
  ⟨"LostCard", some ["41".toList], "Lost Card"⟩,
  ⟨"NoUniversalAccount", some ["42".toList], "No Universal Account"⟩,
  ⟨"StolenCard", some ["43".toList], "Stolen Card"⟩,
  ⟨"NoInvestmentAccount", some ["44".toList], "No Investment Account"⟩,
  ⟨"InsufficientFunds", some ["51".toList], "Insufficient Funds"⟩,
  ⟨"NoChequingAccount", some ["52".toList], "No Chequing Account"⟩,
  ⟨"NoSavingsAccount", some ["53".toList], "No Savings Account"⟩,
  ⟨"IncorrectPin", some ["55".toList], "Incorrect PIN"⟩,
  ⟨"NoCardRecord", some ["56".toList], "No Card Record"⟩,
  ⟨"TransactionNotAllowedCardholder", some ["57".toList], "Transaction Not Allowed For Cardholder"⟩,
  ⟨"TransactionNotAllowedTerminal", some ["58".toList], "Transaction Not Allowed For Terminal"⟩,
  ⟨"DebitCashbackWithdrawalLimitDecline", some ["61".toList], "Debit Cashback Withdrawal Limit Decline"⟩,
  ⟨"SecurityViolation", some ["63".toList], "Security Violation"⟩,
  ⟨"OriginalAmountIncorrect", some ["64".toList], "Original Amount Incorrect"⟩,
  ⟨"DeclineInsertCard", some ["65".toList], "Decline - Insert Card (often due to too many contactless transactions)"⟩,
  ⟨"HoldCallAtm", some ["67".toList], "ATM Hard Card Capture"⟩,
  ⟨"ResponseReceivedTooLate", some ["68".toList], "Response Received Too Late"⟩,
  ⟨"IssuerTimeout", some ["91".toList], "Issuer Timeout"⟩,
  ⟨"IssuerRoutingProblem", some ["92".toList], "Issuer Routing Problem"⟩,
  ⟨"TransactionNotCompletedLawViolation", some ["93".toList], "Transaction Not Completed - Law Violation"⟩,
  ⟨"DuplicateTransmission", some ["94".toList], "Duplicate Transmission"⟩,
  ⟨"ReconciliationError", some ["95".toList], "Reconciliation Error"⟩,
  ⟨"SystemMalfunction", some ["96".toList], "System Malfunction"⟩]

/-- `TerminalVerificationResults`, src/emv/tvr.rs:13-77. -/
def tvrLayout : Layout where
  numBytes := 5
  rows := [
    (0, [
      ⟨"offline_data_authentication_not_performed", .bool, 0b10000000, none, .normal, "Offline data authentication was not performed"⟩,
      ⟨"sda_failed", .bool, 0b01000000, none, .error, "SDA (Static Data Authentication) failed"⟩,
      ⟨"icc_data_missing", .bool, 0b00100000, none, .error, "ICC data missing"⟩,
      ⟨"terminal_card_exception", .bool, 0b00010000, none, .error, "Card appears on terminal exception file"⟩,
      ⟨"dda_failed", .bool, 0b00001000, none, .error, "DDA (Dynamic Data Authentication) failed"⟩,
      ⟨"cda_failed", .bool, 0b00000100, none, .error, "CDA (Combined Data Authentication) failed"⟩]),
    (1, [
      ⟨"icc_terminal_version_mismatch", .bool, 0b10000000, none, .warning, "ICC and terminal have different application versions"⟩,
      ⟨"expired_application", .bool, 0b01000000, none, .error, "Expired application"⟩,
      ⟨"application_not_yet_effective", .bool, 0b00100000, none, .error, "Application not yet effective"⟩,
      ⟨"requested_service_not_allowed", .bool, 0b00010000, none, .error, "Requested service not allowed for card product"⟩,
      ⟨"new_card", .bool, 0b00001000, none, .warning, "New card"⟩]),
    (2, [
      ⟨"cardholder_verification_unsuccessful", .bool, 0b10000000, none, .warning, "Cardholder verification was not successful"⟩,
      ⟨"unrecognized_cvm", .bool, 0b01000000, none, .warning, "Unrecognised CVM (Cardholder Verification Method)"⟩,
      ⟨"pin_try_limit_exceeded", .bool, 0b00100000, none, .error, "PIN try limit exceeded"⟩,
      ⟨"pin_entry_required_but_no_pinpad", .bool, 0b00010000, none, .error, "PIN entry required and PIN pad not present or not working"⟩,
      ⟨"pin_entry_required_but_no_entry", .bool, 0b00001000, none, .warning, "PIN entry required, PIN pad present, but PIN was not entered (PIN bypass)"⟩,
      ⟨"online_pin_entered", .bool, 0b00000100, none, .normal, "Online PIN entered"⟩]),
    (3, [
      ⟨"transaction_exceeds_floor_limit", .bool, 0b10000000, none, .normal, "Transaction exceeds floor limit"⟩,
      ⟨"consecutive_offline_limit_lower_exceeded", .bool, 0b01000000, none, .normal, "Lower consecutive offline limit exceeded"⟩,
      ⟨"consecutive_offline_limit_upper_exceeded", .bool, 0b00100000, none, .normal, "Upper consecutive offline limit exceeded"⟩,
      ⟨"transaction_selected_for_online_processing", .bool, 0b00010000, none, .normal, "Transaction selected randomly for online processing"⟩,
      ⟨"merchant_forced_transaction_online", .bool, 0b00001000, none, .normal, "Merchant forced transaction online"⟩]),
    (4, [
      ⟨"default_tdol_used", .bool, 0b10000000, none, .normal, "Default TDOL (Transaction Certificate Data Object List) used"⟩,
      ⟨"issuer_authentication_failed", .bool, 0b01000000, none, .error, "Issuer authentication failed"⟩,
      ⟨"script_processing_failed_before_final_gen_ac", .bool, 0b00100000, none, .error, "Script processing failed before final GENERATE AC"⟩,
      ⟨"script_processing_failed_after_final_gen_ac", .bool, 0b00010000, none, .error, "Script processing failed after final GENERATE AC"⟩])]

/-- `TransactionStatusInformation`, src/emv/tsi.rs:13-23. -/
def tsiLayout : Layout where
  numBytes := 2
  rows := [
    (0, [
      ⟨"offline_data_authentication_performed", .bool, 0b10000000, none, .normal, "Offline data authentication was performed"⟩,
      ⟨"cardholder_verification_performed", .bool, 0b01000000, none, .normal, "Cardholder verification was performed"⟩,
      ⟨"card_risk_management_performed", .bool, 0b00100000, none, .normal, "Card risk management was performed"⟩,
      ⟨"issuer_authentication_performed", .bool, 0b00010000, none, .normal, "Issuer authentication was performed"⟩,
      ⟨"terminal_risk_management_performed", .bool, 0b00001000, none, .normal, "Terminal risk management was performed"⟩,
      ⟨"script_processing_performed", .bool, 0b00000100, none, .normal, "Script processing was performed"⟩]),
    (1, [])]

/-- `TerminalCapabilities`, src/emv/terminal_capabilities.rs:13-40. -/
def terminalCapabilitiesLayout : Layout where
  numBytes := 3
  rows := [
    (0, [
      ⟨"input_manual_key_entry", .bool, 0b10000000, none, .normal, "Manual key entry"⟩,
      ⟨"input_magnetic_stripe", .bool, 0b01000000, none, .normal, "Magnetic stripe (MSR)"⟩,
      ⟨"input_icc", .bool, 0b00100000, none, .normal, "IC with contacts (ICC)"⟩]),
    (1, [
      ⟨"cvm_plaintext_pin_for_icc_verification", .bool, 0b10000000, none, .normal, "Plaintext PIN for ICC verification"⟩,
      ⟨"cvm_enciphered_pin_for_online_verification", .bool, 0b01000000, none, .normal, "Enciphered PIN for online verification"⟩,
      ⟨"cvm_signature", .bool, 0b00100000, none, .normal, "Signature (paper)"⟩,
      ⟨"cvm_enciphered_pin_for_offline_verification", .bool, 0b00010000, none, .normal, "Enciphered PIN for offline verification"⟩,
      ⟨"cvm_no_cvm_required", .bool, 0b00001000, none, .normal, "No CVM Required"⟩]),
    (2, [
      ⟨"security_sda", .bool, 0b10000000, none, .normal, "SDA (Static Data Authentication)"⟩,
      ⟨"security_dda", .bool, 0b01000000, none, .normal, "DDA (Dynamic Data Authentication)"⟩,
      ⟨"security_card_capture", .bool, 0b00100000, none, .normal, "Card capture (ATM retaining the card)"⟩,
      ⟨"security_cda", .bool, 0b00001000, none, .normal, "CDA (Combined Data Authentication)"⟩])]

/-- `AdditionalTerminalCapabilities`, src/emv/additional_terminal_capabilities.rs:13-61. -/
def additionalTerminalCapabilitiesLayout : Layout where
  numBytes := 5
  rows := [
    (0, [
      ⟨"txn_cash", .bool, 0b10000000, none, .normal, "Cash"⟩,
      ⟨"txn_goods", .bool, 0b01000000, none, .normal, "Goods"⟩,
      ⟨"txn_services", .bool, 0b00100000, none, .normal, "Services"⟩,
      ⟨"txn_cashback", .bool, 0b00010000, none, .normal, "Cashback"⟩,
      ⟨"txn_inquiry", .bool, 0b00001000, none, .normal, "Inquiry (request for information about one of the cardholder's accounts)"⟩,
      ⟨"txn_transfer", .bool, 0b00000100, none, .normal, "Transfer (between cardholder accounts at the same financial institution)"⟩,
      ⟨"txn_payment", .bool, 0b00000010, none, .normal, "Payment (from a cardholder account to another party)"⟩,
      ⟨"txn_administrative", .bool, 0b00000001, none, .normal, "Administrative"⟩]),
    (1, [
      ⟨"txn_cash_deposit", .bool, 0b10000000, none, .normal, "Cash Deposit (into a bank account related to an application on the card used)"⟩]),
    (2, [
      ⟨"input_numeric_keys", .bool, 0b10000000, none, .normal, "Numeric keys"⟩,
      ⟨"input_alphabetic_and_special_keys", .bool, 0b01000000, none, .normal, "Alphabetic and special characters keys"⟩,
      ⟨"input_command_keys", .bool, 0b00100000, none, .normal, "Command keys"⟩,
      ⟨"input_function_keys", .bool, 0b00010000, none, .normal, "Function keys"⟩]),
    (3, [
      ⟨"output_print_attendant", .bool, 0b10000000, none, .normal, "Print, attendant"⟩,
      ⟨"output_print_cardholder", .bool, 0b01000000, none, .normal, "Print, cardholder"⟩,
      ⟨"output_display_attendant", .bool, 0b00100000, none, .normal, "Display, attendant"⟩,
      ⟨"output_display_cardholder", .bool, 0b00010000, none, .normal, "Display, cardholder"⟩,
      ⟨"output_code_table_10", .bool, 0b00000010, none, .normal, "ISO/IEC 8859 Code Table 10"⟩,
      ⟨"output_code_table_9", .bool, 0b00000001, none, .normal, "ISO/IEC 8859 Code Table 9"⟩]),
    (4, [
      ⟨"output_code_table_8", .bool, 0b10000000, none, .normal, "ISO/IEC 8859 Code Table 8"⟩,
      ⟨"output_code_table_7", .bool, 0b01000000, none, .normal, "ISO/IEC 8859 Code Table 7"⟩,
      ⟨"output_code_table_6", .bool, 0b00100000, none, .normal, "ISO/IEC 8859 Code Table 6"⟩,
      ⟨"output_code_table_5", .bool, 0b00010000, none, .normal, "ISO/IEC 8859 Code Table 5"⟩,
      ⟨"output_code_table_4", .bool, 0b00001000, none, .normal, "ISO/IEC 8859 Code Table 4"⟩,
      ⟨"output_code_table_3", .bool, 0b00000100, none, .normal, "ISO/IEC 8859 Code Table 3"⟩,
      ⟨"output_code_table_2", .bool, 0b00000010, none, .normal, "ISO/IEC 8859 Code Table 2"⟩,
      ⟨"output_code_table_1", .bool, 0b00000001, none, .normal, "ISO/IEC 8859 Code Table 1"⟩])]

/-- `CommonCoreIdentifier`, src/emv/ccd/cci.rs:13-18. -/
def cciLayout : Layout where
  numBytes := 1
  rows := [
    (0, [
      ⟨"iad_format_code", .enum formatCodeTable .nonCcdCompliant, 0b11110000, some 4, .normal, "IAD Format Code: {}"⟩,
      ⟨"cryptogram_version", .enum cryptogramVersionTable .nonCcdCompliant, 0b00001111, none, .normal, "Cryptogram Version: {}"⟩])]

/-- `CardVerificationResults`, src/emv/ccd/cvr.rs:13-72. -/
def cvrLayout : Layout where
  numBytes := 5
  rows := [
    (0, [
      ⟨"gen_ac_2_application_cryptogram_type", .enum genAc2Table .nonCcdCompliant, 0b11000000, some 6, .normal, "Application cryptogram type returned in 2nd GENERATE AC: {}"⟩,
      ⟨"gen_ac_1_application_cryptogram_type", .enum genAc1Table .nonCcdCompliant, 0b00110000, some 4, .normal, "Application cryptogram type returned in 1st GENERATE AC: {}"⟩,
      ⟨"cda_performed", .bool, 0b00001000, none, .normal, "CDA (Combined Data Authentication) performed"⟩,
      ⟨"offline_dda_performed", .bool, 0b00000100, none, .normal, "Offline DDA (Dynamic Data Authentication) performed"⟩,
      ⟨"issuer_authentication_not_performed", .bool, 0b00000010, none, .warning, "Issuer authentication not performed"⟩,
      ⟨"issuer_authentication_failed", .bool, 0b00000001, none, .error, "Issuer authentication failed"⟩]),
    (1, [
      ⟨"pin_try_count", .u8, 0b11110000, some 4, .normal, "PIN try count: {}"⟩,
      ⟨"offline_pin_verification_performed", .bool, 0b00001000, none, .normal, "Offline PIN verification performed"⟩,
      ⟨"offline_pin_verification_failed", .bool, 0b00000100, none, .error, "Offline PIN verification performed and PIN not successfully verified"⟩,
      ⟨"pin_try_limit_exceeded", .bool, 0b00000010, none, .error, "PIN try limit exceeded"⟩,
      ⟨"last_online_transaction_not_completed", .bool, 0b00000001, none, .warning, "Last online transaction not completed"⟩]),
    (2, [
      ⟨"offline_transaction_count_limit_lower_exceeded", .bool, 0b10000000, none, .normal, "Lower offline transaction count limit exceeded"⟩,
      ⟨"offline_transaction_count_limit_upper_exceeded", .bool, 0b01000000, none, .normal, "Upper offline transaction count limit exceeded"⟩,
      ⟨"offline_cumulative_amount_limit_lower_exceeded", .bool, 0b00100000, none, .normal, "Lower cumulative offline amount limit exceeded"⟩,
      ⟨"offline_cumulative_amount_limit_upper_exceeded", .bool, 0b00010000, none, .normal, "Upper cumulative offline amount limit exceeded"⟩,
      ⟨"issuer_discretionary_bit_1", .bool, 0b00001000, none, .normal, "Issuer-discretionary bit 1"⟩,
      ⟨"issuer_discretionary_bit_2", .bool, 0b00000100, none, .normal, "Issuer-discretionary bit 2"⟩,
      ⟨"issuer_discretionary_bit_3", .bool, 0b00000010, none, .normal, "Issuer-discretionary bit 3"⟩,
      ⟨"issuer_discretionary_bit_4", .bool, 0b00000001, none, .normal, "Issuer-discretionary bit 4"⟩]),
    (3, [
      ⟨"successful_issuer_script_commands_with_secure_messaging", .u8, 0b11110000, some 4, .normal, "Number of successfully processed issuer script commands containing secure messaging: {}"⟩,
      ⟨"issuer_script_processing_failed", .bool, 0b00001000, none, .error, "Issuer script processing failed"⟩,
      ⟨"offline_data_authentication_failed_on_previous_transaction", .bool, 0b00000100, none, .warning, "Offline data authentication failed on previous transaction"⟩,
      ⟨"go_online_on_next_transaction", .bool, 0b00000010, none, .normal, "Go online on next transaction"⟩,
      ⟨"unable_to_go_online", .bool, 0b00000001, none, .warning, "Unable to go online"⟩]),
    (4, [])]

/-- `CardholderVerificationRule`, src/emv/cv_rule/mod.rs:18-26. -/
def cvRuleLayout : Layout where
  numBytes := 2
  rows := [
    (0, [
      ⟨"continue_if_unsuccessful", .bool, 0b01000000, none, .normal, "Apply succeeding CV Rule if this CVM is unsuccessful"⟩,
      ⟨"method", .optEnum cvMethodTable "Unknown (likely issuer or payment system-specific)", 0b00111111, none, .normal, "Method: {}"⟩]),
    (1, [
      ⟨"condition", .optEnum cvmConditionTable "Unknown (likely payment system-specific)", 0b11111111, none, .normal, "Condition: {}"⟩])]

/-- The arms of `identify_tag`, src/emv/tlv_parsing/process_emv_tag.rs:32-155. -/
def tagTable : List (List Byte × String) := [
  ([0x42], "Issuer Identification Number (IIN)"),
  ([0x4F], "Application Dedicated File (ADF) Name"),
  ([0x50], "Application Label"),
  ([0x57], "Track 2 Equivalent Data"),
  ([0x5A], "Application Primary Account Number (PAN)"),
  ([0x5F, 0x20], "Cardholder Name"),
  ([0x5F, 0x24], "Application Expiration Date"),
  ([0x5F, 0x25], "Application Effective Date"),
  ([0x5F, 0x28], "Issuer Country Code"),
  ([0x5F, 0x2A], "Transaction Currency Code"),
  ([0x5F, 0x2D], "Language Preference"),
  ([0x5F, 0x30], "Service Code"),
  ([0x5F, 0x34], "Application Primary Account Number (PAN) Sequence Number"),
  ([0x5F, 0x36], "Transaction Currency Exponent"),
  ([0x5F, 0x50], "Issuer URL"),
  ([0x5F, 0x53], "International Bank Account Number (IBAN)"),
  ([0x5F, 0x54], "Bank Identifier Code (BIC)"),
  ([0x5F, 0x55], "Issuer Country Code (alpha2 format)"),
  ([0x5F, 0x56], "Issuer Country Code (alpha3 format)"),
  ([0x5F, 0x57], "Account Type"),
  ([0x61], "Application Template"),
  ([0x6F], "File Control Information (FCI) Template"),
  ([0x70], "READ RECORD Response Message Template"),
  ([0x71], "Issuer Script Template 1"),
  ([0x72], "Issuer Script Template 2"),
  ([0x73], "Directory Discretionary Template"),
  ([0x77], "Response Message Template Format 2"),
  ([0x80], "Response Message Template Format 1"),
  ([0x81], "Amount, Authorised (Binary)"),
  ([0x82], "Application Interchange Profile"),
  ([0x83], "Command Template"),
  ([0x84], "Dedicated File (DF) Name"),
  ([0x86], "Issuer Script Command"),
  ([0x87], "Application Priority Indicator"),
  ([0x88], "Short File Identifier (SFI)"),
  ([0x89], "Authorisation Code"),
  ([0x8A], "Authorisation Response Code"),
  ([0x8C], "Card Risk Management Data Object List 1 (CDOL1)"),
  ([0x8D], "Card Risk Management Data Object List 2 (CDOL2)"),
  ([0x8E], "CVM List"),
  ([0x8F], "Certification Authority Public Key Index (ICC)"),
  ([0x90], "Issuer Public Key Certificate"),
  ([0x91], "Issuer Authentication Data"),
  ([0x92], "Issuer Public Key Remainder"),
  ([0x93], "Signed Static Application Data"),
  ([0x94], "Application File Locator (AFL)"),
  ([0x95], "Terminal Verification Results (TVR)"),
  ([0x97], "Transaction Certificate Data Object List (TDOL)"),
  ([0x98], "Transaction Certificate (TC) Hash Value"),
  ([0x99], "Transaction PIN Data"),
  ([0x9A], "Transaction Date"),
  ([0x9B], "Transaction Status Information (TSI)"),
  ([0x9C], "Transaction Type"),
  ([0x9D], "Directory Definition File (DDF) Name"),
  ([0x9F, 0x01], "Acquirer Identifier"),
  ([0x9F, 0x02], "Amount, Authorised (Numeric)"),
  ([0x9F, 0x03], "Amount, Other (Numeric)"),
  ([0x9F, 0x04], "Amount, Other (Binary)"),
  ([0x9F, 0x05], "Application Discretionary Data"),
  ([0x9F, 0x06], "Application Identifier (AID)"),
  ([0x9F, 0x07], "Application Usage Control"),
  ([0x9F, 0x08], "Application Version Number (ICC)"),
  ([0x9F, 0x09], "Application Version Number (Terminal)"),
  ([0x9F, 0x0B], "Cardholder Name Extended"),
  ([0x9F, 0x0D], "Issuer Action Code - Default"),
  ([0x9F, 0x0E], "Issuer Action Code - Denial"),
  ([0x9F, 0x0F], "Issuer Action Code - Online"),
  ([0x9F, 0x10], "Issuer Application Data (CCD-Compliant)"),
  ([0x9F, 0x11], "Issuer Code Table Index"),
  ([0x9F, 0x12], "Application Preferred Name"),
  ([0x9F, 0x13], "Last Online Application Transaction Counter (ATC) Register"),
  ([0x9F, 0x14], "Lower Consecutive Offline Limit"),
  ([0x9F, 0x15], "Merchant Category Code"),
  ([0x9F, 0x16], "Merchant Identifier"),
  ([0x9F, 0x17], "PIN Try Counter"),
  ([0x9F, 0x18], "Issuer Script Identifier"),
  ([0x9F, 0x1A], "Terminal Country Code"),
  ([0x9F, 0x1B], "Terminal Floor Limit"),
  ([0x9F, 0x1C], "Terminal Identification"),
  ([0x9F, 0x1D], "Terminal Risk Management Data"),
  ([0x9F, 0x1E], "Interface Device (IFD/Terminal) Serial Number"),
  ([0x9F, 0x1F], "Track 1 Discretionary Data"),
  ([0x9F, 0x20], "Track 2 Discretionary Data"),
  ([0x9F, 0x21], "Transaction Time"),
  ([0x9F, 0x22], "Certification Authority Public Key Index (Terminal)"),
  ([0x9F, 0x23], "Upper Consecutive Offline Limit"),
  ([0x9F, 0x26], "Application Cryptogram"),
  ([0x9F, 0x27], "Cryptogram Information Data (CID)"),
  ([0x9F, 0x2D], "ICC PIN Encipherment Public Key Certificate"),
  ([0x9F, 0x2E], "ICC PIN Encipherment Public Key Exponent"),
  ([0x9F, 0x2F], "ICC PIN Encipherment Public Key Remainder"),
  ([0x9F, 0x32], "Issuer Public Key Exponent"),
  ([0x9F, 0x33], "Terminal Capabilities"),
  ([0x9F, 0x34], "CVM Results"),
  ([0x9F, 0x35], "Terminal Type"),
  ([0x9F, 0x36], "Application Transaction Counter (ATC)"),
  ([0x9F, 0x37], "Unpredictable Number"),
  ([0x9F, 0x38], "Processing Options Data Object List (PDOL)"),
  ([0x9F, 0x39], "POS Entry Mode"),
  ([0x9F, 0x3A], "Amount, Reference Currency (Binary)"),
  ([0x9F, 0x3B], "Application Reference Currency"),
  ([0x9F, 0x3C], "Transaction Reference Currency Code"),
  ([0x9F, 0x3D], "Transaction Reference Currency Exponent"),
  ([0x9F, 0x40], "Additional Terminal Capabilities"),
  ([0x9F, 0x41], "Transaction Sequence Counter"),
  ([0x9F, 0x42], "Application Currency Code"),
  ([0x9F, 0x43], "Application Reference Currency Exponent"),
  ([0x9F, 0x44], "Application Currency Exponent"),
  ([0x9F, 0x45], "Data Authentication Code"),
  ([0x9F, 0x46], "ICC Public Key Certificate"),
  ([0x9F, 0x47], "ICC Public Key Exponent"),
  ([0x9F, 0x48], "ICC Public Key Remainder"),
  ([0x9F, 0x49], "Dynamic Data Authentication Data Object List (DDOL)"),
  ([0x9F, 0x4A], "Static Data Authentication Tag List"),
  ([0x9F, 0x4B], "Signed Dynamic Application Data"),
  ([0x9F, 0x4C], "ICC Dynamic Number"),
  ([0x9F, 0x4D], "Log Entry"),
  ([0x9F, 0x4E], "Merchant Name and Location"),
  ([0x9F, 0x4F], "Log Format"),
  ([0xA5], "File Control Information (FCI) Proprietary Template"),
  ([0xBF, 0x0C], "File Control Information (FCI) Issuer Discretionary Data")]

end Pemv
