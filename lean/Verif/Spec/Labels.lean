import Verif.Spec.Emv
import Verif.Spec.Drawing

/-!
# Specification of the explanations

The text and the severity shown for each item of each bit-mapped value, by the item's name.
-/

namespace Pemv.Spec

/-- The decimal numeral of a number. -/
def decimal (n : Nat) : Text := (toString n).toList

/-- Terminal Verification Results. -/
def tvrLabels : List (String × Severity × String) :=
  [("offline_data_authentication_not_performed", .normal, "Offline data authentication was not performed"),
   ("sda_failed", .error, "SDA (Static Data Authentication) failed"),
   ("icc_data_missing", .error, "ICC data missing"),
   ("terminal_card_exception", .error, "Card appears on terminal exception file"),
   ("dda_failed", .error, "DDA (Dynamic Data Authentication) failed"),
   ("cda_failed", .error, "CDA (Combined Data Authentication) failed"),
   ("icc_terminal_version_mismatch", .warning, "ICC and terminal have different application versions"),
   ("expired_application", .error, "Expired application"),
   ("application_not_yet_effective", .error, "Application not yet effective"),
   ("requested_service_not_allowed", .error, "Requested service not allowed for card product"),
   ("new_card", .warning, "New card"),
   ("cardholder_verification_unsuccessful", .warning, "Cardholder verification was not successful"),
   ("unrecognized_cvm", .warning, "Unrecognised CVM (Cardholder Verification Method)"),
   ("pin_try_limit_exceeded", .error, "PIN try limit exceeded"),
   ("pin_entry_required_but_no_pinpad", .error, "PIN entry required and PIN pad not present or not working"),
   ("pin_entry_required_but_no_entry", .warning, "PIN entry required, PIN pad present, but PIN was not entered (PIN bypass)"),
   ("online_pin_entered", .normal, "Online PIN entered"),
   ("transaction_exceeds_floor_limit", .normal, "Transaction exceeds floor limit"),
   ("consecutive_offline_limit_lower_exceeded", .normal, "Lower consecutive offline limit exceeded"),
   ("consecutive_offline_limit_upper_exceeded", .normal, "Upper consecutive offline limit exceeded"),
   ("transaction_selected_for_online_processing", .normal, "Transaction selected randomly for online processing"),
   ("merchant_forced_transaction_online", .normal, "Merchant forced transaction online"),
   ("default_tdol_used", .normal, "Default TDOL (Transaction Certificate Data Object List) used"),
   ("issuer_authentication_failed", .error, "Issuer authentication failed"),
   ("script_processing_failed_before_final_gen_ac", .error, "Script processing failed before final GENERATE AC"),
   ("script_processing_failed_after_final_gen_ac", .error, "Script processing failed after final GENERATE AC")]

/-- Transaction Status Information. -/
def tsiLabels : List (String × Severity × String) :=
  [("offline_data_authentication_performed", .normal, "Offline data authentication was performed"),
   ("cardholder_verification_performed", .normal, "Cardholder verification was performed"),
   ("card_risk_management_performed", .normal, "Card risk management was performed"),
   ("issuer_authentication_performed", .normal, "Issuer authentication was performed"),
   ("terminal_risk_management_performed", .normal, "Terminal risk management was performed"),
   ("script_processing_performed", .normal, "Script processing was performed")]

/-- Terminal Capabilities. -/
def terminalCapabilitiesLabels : List (String × Severity × String) :=
  [("input_manual_key_entry", .normal, "Manual key entry"),
   ("input_magnetic_stripe", .normal, "Magnetic stripe (MSR)"),
   ("input_icc", .normal, "IC with contacts (ICC)"),
   ("cvm_plaintext_pin_for_icc_verification", .normal, "Plaintext PIN for ICC verification"),
   ("cvm_enciphered_pin_for_online_verification", .normal, "Enciphered PIN for online verification"),
   ("cvm_signature", .normal, "Signature (paper)"),
   ("cvm_enciphered_pin_for_offline_verification", .normal, "Enciphered PIN for offline verification"),
   ("cvm_no_cvm_required", .normal, "No CVM Required"),
   ("security_sda", .normal, "SDA (Static Data Authentication)"),
   ("security_dda", .normal, "DDA (Dynamic Data Authentication)"),
   ("security_card_capture", .normal, "Card capture (ATM retaining the card)"),
   ("security_cda", .normal, "CDA (Combined Data Authentication)")]

/-- Additional Terminal Capabilities. -/
def additionalTerminalCapabilitiesLabels : List (String × Severity × String) :=
  [("txn_cash", .normal, "Cash"),
   ("txn_goods", .normal, "Goods"),
   ("txn_services", .normal, "Services"),
   ("txn_cashback", .normal, "Cashback"),
   ("txn_inquiry", .normal, "Inquiry (request for information about one of the cardholder's accounts)"),
   ("txn_transfer", .normal, "Transfer (between cardholder accounts at the same financial institution)"),
   ("txn_payment", .normal, "Payment (from a cardholder account to another party)"),
   ("txn_administrative", .normal, "Administrative"),
   ("txn_cash_deposit", .normal, "Cash Deposit (into a bank account related to an application on the card used)"),
   ("input_numeric_keys", .normal, "Numeric keys"),
   ("input_alphabetic_and_special_keys", .normal, "Alphabetic and special characters keys"),
   ("input_command_keys", .normal, "Command keys"),
   ("input_function_keys", .normal, "Function keys"),
   ("output_print_attendant", .normal, "Print, attendant"),
   ("output_print_cardholder", .normal, "Print, cardholder"),
   ("output_display_attendant", .normal, "Display, attendant"),
   ("output_display_cardholder", .normal, "Display, cardholder"),
   ("output_code_table_10", .normal, "ISO/IEC 8859 Code Table 10"),
   ("output_code_table_9", .normal, "ISO/IEC 8859 Code Table 9"),
   ("output_code_table_8", .normal, "ISO/IEC 8859 Code Table 8"),
   ("output_code_table_7", .normal, "ISO/IEC 8859 Code Table 7"),
   ("output_code_table_6", .normal, "ISO/IEC 8859 Code Table 6"),
   ("output_code_table_5", .normal, "ISO/IEC 8859 Code Table 5"),
   ("output_code_table_4", .normal, "ISO/IEC 8859 Code Table 4"),
   ("output_code_table_3", .normal, "ISO/IEC 8859 Code Table 3"),
   ("output_code_table_2", .normal, "ISO/IEC 8859 Code Table 2"),
   ("output_code_table_1", .normal, "ISO/IEC 8859 Code Table 1")]

/-- Common Core Identifier. -/
def cciLabels : List (String × Severity × String) :=
  [("iad_format_code", .normal, "IAD Format Code"),
   ("cryptogram_version", .normal, "Cryptogram Version")]

/-- Card Verification Results. -/
def cvrLabels : List (String × Severity × String) :=
  [("gen_ac_2_application_cryptogram_type", .normal, "Application cryptogram type returned in 2nd GENERATE AC"),
   ("gen_ac_1_application_cryptogram_type", .normal, "Application cryptogram type returned in 1st GENERATE AC"),
   ("cda_performed", .normal, "CDA (Combined Data Authentication) performed"),
   ("offline_dda_performed", .normal, "Offline DDA (Dynamic Data Authentication) performed"),
   ("issuer_authentication_not_performed", .warning, "Issuer authentication not performed"),
   ("issuer_authentication_failed", .error, "Issuer authentication failed"),
   ("pin_try_count", .normal, "PIN try count"),
   ("offline_pin_verification_performed", .normal, "Offline PIN verification performed"),
   ("offline_pin_verification_failed", .error, "Offline PIN verification performed and PIN not successfully verified"),
   ("pin_try_limit_exceeded", .error, "PIN try limit exceeded"),
   ("last_online_transaction_not_completed", .warning, "Last online transaction not completed"),
   ("offline_transaction_count_limit_lower_exceeded", .normal, "Lower offline transaction count limit exceeded"),
   ("offline_transaction_count_limit_upper_exceeded", .normal, "Upper offline transaction count limit exceeded"),
   ("offline_cumulative_amount_limit_lower_exceeded", .normal, "Lower cumulative offline amount limit exceeded"),
   ("offline_cumulative_amount_limit_upper_exceeded", .normal, "Upper cumulative offline amount limit exceeded"),
   ("issuer_discretionary_bit_1", .normal, "Issuer-discretionary bit 1"),
   ("issuer_discretionary_bit_2", .normal, "Issuer-discretionary bit 2"),
   ("issuer_discretionary_bit_3", .normal, "Issuer-discretionary bit 3"),
   ("issuer_discretionary_bit_4", .normal, "Issuer-discretionary bit 4"),
   ("successful_issuer_script_commands_with_secure_messaging", .normal, "Number of successfully processed issuer script commands containing secure messaging"),
   ("issuer_script_processing_failed", .error, "Issuer script processing failed"),
   ("offline_data_authentication_failed_on_previous_transaction", .warning, "Offline data authentication failed on previous transaction"),
   ("go_online_on_next_transaction", .normal, "Go online on next transaction"),
   ("unable_to_go_online", .warning, "Unable to go online")]

/-- Cardholder Verification Rule. -/
def cvRuleLabels : List (String × Severity × String) :=
  [("continue_if_unsuccessful", .normal, "Apply succeeding CV Rule if this CVM is unsuccessful"),
   ("method", .normal, "Method"),
   ("condition", .normal, "Condition")]

/-- CVM Results. -/
def cvmResultsLabels : List (String × Severity × String) := cvRuleLabels ++ [("result", .normal, "Result")]

/-- The text of each code, by its name. -/
def codeTexts : List (String × String) :=
  [("A", "Format A"), ("TripleDes", "Triple DES (3DES)"), ("Aes", "AES"),
   ("Aac", "AAC (Application Authentication Cryptogram)"), ("Tc", "TC (Transaction Certificate)"),
   ("Arqc", "ARQC (Authorization Request Cryptogram)"), ("SecondGenAcNotRequested", "Second GENERATE AC not requested"),
   ("Rfu", "RFU (Reserved For Use)"),
   ("FailCvmProcessing", "Fail CVM processing"), ("PlaintextPin", "Plaintext PIN verification performed by ICC"),
   ("EncipheredPinOnline", "Enciphered PIN verified online"),
   ("PlaintextPinWithSignature", "Plaintext PIN verification performed by ICC and signature (paper)"),
   ("EncipheredPin", "Enciphered PIN verification performed by ICC"),
   ("EncipheredPinWithSignature", "Enciphered PIN verification performed by ICC and signature (paper)"),
   ("Signature", "Signature (paper)"), ("NoCvmRequired", "No CVM required"), ("NoCvmPerformed", "No CVM performed"),
   ("Always", "Always"), ("UnattendedCash", "If unattended cash"),
   ("NotUnattendedNotManualNotCashback",
    "If not unattended cash and not manual cash and not purchase with cashback"),
   ("TerminalSupported", "If terminal supports the CVM"), ("Manual", "If manual cash"),
   ("Cashback", "If purchase with cashback"),
   ("InApplicationCurrencyUnderX", "If transaction is in the application currency and is under X value"),
   ("InApplicationCurrencyOverX", "If transaction is in the application currency and is over X value"),
   ("InApplicationCurrencyUnderY", "If transaction is in the application currency and is under Y value"),
   ("InApplicationCurrencyOverY", "If transaction is in the application currency and is over Y value"),
   ("Unknown", "Unknown"), ("Failed", "Failed"), ("Successful", "Successful")]

/-- The text for a code that is not listed, by the name of the item. -/
def unlistedTexts : List (String × String) :=
  [("method", "Unknown (likely issuer or payment system-specific)"),
   ("condition", "Unknown (likely payment system-specific)")]

/-- The text of the value an item holds. -/
def Item.valueText (t : Item) (n : Nat) : Text :=
  match t.kind with
  | .flag => []
  | .number => decimal n
  | .code codes => (((codes.lookup n).bind (fun c => codeTexts.lookup c)).getD "").toList
  | .openCode codes =>
    match codes.lookup n with
    | some c => ((codeTexts.lookup c).getD "").toList
    | none => ((unlistedTexts.lookup t.name).getD "").toList

/-- The explanation of an item: its label, followed by its value unless it is a flag. -/
def Item.explanation (t : Item) (label : String) (n : Nat) : Text :=
  match t.kind with
  | .flag => label.toList
  | _ => label.toList ++ ": ".toList ++ t.valueText n

/-- The annotation of an item of a value of `n` bytes. -/
def Item.annotation (labels : List (String × Severity × String)) (n : Nat) (bs : List Byte) (t : Item) :
    Annotation :=
  match labels.lookup t.name with
  | some (severity, label) =>
    ⟨(t.range n).1, (t.range n).2, t.explanation label (t.bitsOf bs), severity⟩
  | none => ⟨(t.range n).1, (t.range n).2, [], .normal⟩

/-- The annotations of a value: those of the flags that are set and of everything else. -/
def annotations (labels : List (String × Severity × String)) (items : List Item) (bs : List Byte) :
    List Annotation :=
  (shown items bs).map (Item.annotation labels bs.length bs)

/-- The annotations of CVM Results: a result of 1 (failed) is an error. -/
def cvmResultsAnnotations (bs : List Byte) : List Annotation :=
  (annotations cvmResultsLabels cvmResultsItems bs).map (fun r =>
    if r.left = 7 ∧ bs.getD 2 0 = 1 then { r with severity := .error } else r)

/-- The labels of each value. -/
def labelled : List (BitValue × List (String × Severity × String)) :=
  [(⟨tvrLayout, 5, tvrItems⟩, tvrLabels), (⟨tsiLayout, 2, tsiItems⟩, tsiLabels),
   (⟨terminalCapabilitiesLayout, 3, terminalCapabilitiesItems⟩, terminalCapabilitiesLabels),
   (⟨additionalTerminalCapabilitiesLayout, 5, additionalTerminalCapabilitiesItems⟩,
    additionalTerminalCapabilitiesLabels),
   (⟨cciLayout, 1, cciItems⟩, cciLabels), (⟨cvrLayout, 5, cvrItems⟩, cvrLabels)]

/-- What each issuer action code is for. -/
def iacHeading : IacKind → String
  | .default =>
    "If not an online transaction and any of the following match the TVR, reject the transaction:"
  | .denial =>
    "If any of the following match the TVR, deny the transaction without even going online:"
  | .online => "If any of the following match the TVR, complete the transaction online:"

end Pemv.Spec
