import Verif.Model.Values

/-!
# Specification of the bit-mapped values

For each value, which EMV bits (bytes numbered from 1, bits from 8 down to 1, as in the EMV books) each
named item occupies and what it holds. Transcribed from the coding tables of EMV Book 3 annex C, EMV Book 4
annex A and the CCD annexes, and the field names of the API; independent of the masks and shifts of the code.
-/

namespace Pemv.Spec

/-- What an item holds: a flag, a number, a code that must be listed, or a code that may be unlisted. -/
inductive Kind where
  | flag
  | number
  | code (codes : List (Nat × String))
  | openCode (codes : List (Nat × String))
  deriving DecidableEq, Repr

/-- An item at bits `hi` down to `lo` of a byte. -/
structure Item where
  name : String
  byte : Nat
  hi : Nat
  lo : Nat
  kind : Kind
  deriving DecidableEq, Repr

/-- The number in bits `hi` down to `lo` of a byte. -/
def bits (b : Byte) (hi lo : Nat) : Nat := b.toNat / 2 ^ (lo - 1) % 2 ^ (hi + 1 - lo)

/-- The bits of an item in an input. -/
def Item.bitsOf (t : Item) (bs : List Byte) : Nat := bits (bs.getD (t.byte - 1) 0) t.hi t.lo

/-- May the item hold these bits? -/
def Kind.accepts : Kind → Nat → Bool
  | .code codes, n => (codes.lookup n).isSome
  | _, _ => true

/-- Do the bits hold a listed code (if they hold a code)? -/
def Kind.listed : Kind → Nat → Bool
  | .code codes, n => (codes.lookup n).isSome
  | .openCode codes, n => (codes.lookup n).isSome
  | _, _ => true

/-- The value of a parsed item is the meaning of its bits. -/
def Kind.means : Kind → Nat → FieldVal → Bool
  | .flag, n, .bool b => b == (n == 1)
  | .number, n, .u8 x => x.toNat == n
  | .code codes, n, .enum v => codes.lookup n == some v.name
  | .openCode codes, n, .optEnum o => codes.lookup n == o.map Variant.name
  | _, _, _ => false

/-- Is bit `j` (1 to 8) of a byte used by some item? -/
def usedBit (items : List Item) (byte j : Nat) : Bool :=
  items.any (fun t => t.byte == byte && decide (t.lo ≤ j) && decide (j ≤ t.hi))

/-- A byte with its unused bits cleared. -/
def clearByte (items : List Item) (byte : Nat) (b : Byte) : Byte :=
  UInt8.ofNat ((List.range 8).foldl
    (fun acc j => if usedBit items byte (j + 1) && b.toNat.testBit j then acc + 2 ^ j else acc) 0)

/-- An input with its unused bits cleared. -/
def clearUnused (items : List Item) (bs : List Byte) : List Byte :=
  bs.mapIdx (fun i b => clearByte items (i + 1) b)

/-- Inputs that agree on the bits of every item. -/
def Agree (items : List Item) (bs bs' : List Byte) : Prop :=
  bs.length = bs'.length ∧ ∀ t ∈ items, t.bitsOf bs = t.bitsOf bs'

/-- The range of bits an item occupies in a value of `n` bytes: the position of its leftmost bit, counted
from the rightmost bit of the value, and the number of bits. -/
def Item.range (t : Item) (n : Nat) : Nat × Nat := (8 * (n - t.byte) + (t.hi - 1), t.hi + 1 - t.lo)

/-- The items that are shown: flags that are set, and everything else. -/
def shown (items : List Item) (bs : List Byte) : List Item :=
  items.filter (fun t => !(t.kind == .flag && t.bitsOf bs == 0))

/-- Bit ranges of a value of `n` bytes that are non-empty, inside the value, listed from left to right and
do not overlap. -/
def WellFormedRanges (n : Nat) (rs : List (Nat × Nat)) : Prop :=
  (∀ r ∈ rs, 1 ≤ r.2 ∧ r.2 ≤ r.1 + 1 ∧ r.1 < 8 * n) ∧ rs.Pairwise (fun a b => b.1 + a.2 ≤ a.1)

instance (n : Nat) (rs : List (Nat × Nat)) : Decidable (WellFormedRanges n rs) :=
  inferInstanceAs (Decidable (_ ∧ _))

/-! ### The coding tables -/

/-- Flags at descending bits of one byte. -/
def flags (byte : Nat) : Nat → List String → List Item
  | _, [] => []
  | bit, name :: rest => ⟨name, byte, bit, bit, .flag⟩ :: flags byte (bit - 1) rest

/-- Terminal Verification Results: EMV Book 3, annex C5. -/
def tvrItems : List Item :=
  flags 1 8 ["offline_data_authentication_not_performed", "sda_failed", "icc_data_missing",
    "terminal_card_exception", "dda_failed", "cda_failed"] ++
  flags 2 8 ["icc_terminal_version_mismatch", "expired_application", "application_not_yet_effective",
    "requested_service_not_allowed", "new_card"] ++
  flags 3 8 ["cardholder_verification_unsuccessful", "unrecognized_cvm", "pin_try_limit_exceeded",
    "pin_entry_required_but_no_pinpad", "pin_entry_required_but_no_entry", "online_pin_entered"] ++
  flags 4 8 ["transaction_exceeds_floor_limit", "consecutive_offline_limit_lower_exceeded",
    "consecutive_offline_limit_upper_exceeded", "transaction_selected_for_online_processing",
    "merchant_forced_transaction_online"] ++
  flags 5 8 ["default_tdol_used", "issuer_authentication_failed",
    "script_processing_failed_before_final_gen_ac", "script_processing_failed_after_final_gen_ac"]

/-- Transaction Status Information: EMV Book 3, annex C6. -/
def tsiItems : List Item :=
  flags 1 8 ["offline_data_authentication_performed", "cardholder_verification_performed",
    "card_risk_management_performed", "issuer_authentication_performed",
    "terminal_risk_management_performed", "script_processing_performed"]

/-- Terminal Capabilities: EMV Book 4, annex A2. -/
def terminalCapabilitiesItems : List Item :=
  flags 1 8 ["input_manual_key_entry", "input_magnetic_stripe", "input_icc"] ++
  flags 2 8 ["cvm_plaintext_pin_for_icc_verification", "cvm_enciphered_pin_for_online_verification",
    "cvm_signature", "cvm_enciphered_pin_for_offline_verification", "cvm_no_cvm_required"] ++
  flags 3 8 ["security_sda", "security_dda", "security_card_capture"] ++ flags 3 4 ["security_cda"]

/-- Additional Terminal Capabilities: EMV Book 4, annex A3. -/
def additionalTerminalCapabilitiesItems : List Item :=
  flags 1 8 ["txn_cash", "txn_goods", "txn_services", "txn_cashback", "txn_inquiry", "txn_transfer",
    "txn_payment", "txn_administrative"] ++
  flags 2 8 ["txn_cash_deposit"] ++
  flags 3 8 ["input_numeric_keys", "input_alphabetic_and_special_keys", "input_command_keys",
    "input_function_keys"] ++
  flags 4 8 ["output_print_attendant", "output_print_cardholder", "output_display_attendant",
    "output_display_cardholder"] ++
  flags 4 2 ["output_code_table_10", "output_code_table_9"] ++
  flags 5 8 ["output_code_table_8", "output_code_table_7", "output_code_table_6", "output_code_table_5",
    "output_code_table_4", "output_code_table_3", "output_code_table_2", "output_code_table_1"]

/-- Common Core Identifier: EMV Book 3, annex C9.2. -/
def cciItems : List Item :=
  [⟨"iad_format_code", 1, 8, 5, .code [(10, "A")]⟩,
   ⟨"cryptogram_version", 1, 4, 1, .code [(5, "TripleDes"), (6, "Aes")]⟩]

/-- Card Verification Results: EMV Book 3, annex C9.3. -/
def cvrItems : List Item :=
  [⟨"gen_ac_2_application_cryptogram_type", 1, 8, 7,
      .code [(0, "Aac"), (1, "Tc"), (2, "SecondGenAcNotRequested"), (3, "Rfu")]⟩,
   ⟨"gen_ac_1_application_cryptogram_type", 1, 6, 5,
      .code [(0, "Aac"), (1, "Tc"), (2, "Arqc"), (3, "Rfu")]⟩] ++
  flags 1 4 ["cda_performed", "offline_dda_performed", "issuer_authentication_not_performed",
    "issuer_authentication_failed"] ++
  [⟨"pin_try_count", 2, 8, 5, .number⟩] ++
  flags 2 4 ["offline_pin_verification_performed", "offline_pin_verification_failed",
    "pin_try_limit_exceeded", "last_online_transaction_not_completed"] ++
  flags 3 8 ["offline_transaction_count_limit_lower_exceeded",
    "offline_transaction_count_limit_upper_exceeded", "offline_cumulative_amount_limit_lower_exceeded",
    "offline_cumulative_amount_limit_upper_exceeded", "issuer_discretionary_bit_1",
    "issuer_discretionary_bit_2", "issuer_discretionary_bit_3", "issuer_discretionary_bit_4"] ++
  [⟨"successful_issuer_script_commands_with_secure_messaging", 4, 8, 5, .number⟩] ++
  flags 4 4 ["issuer_script_processing_failed",
    "offline_data_authentication_failed_on_previous_transaction", "go_online_on_next_transaction",
    "unable_to_go_online"]

/-- CVM codes: EMV Book 3, table 39. -/
def cvmCodes : List (Nat × String) :=
  [(0, "FailCvmProcessing"), (1, "PlaintextPin"), (2, "EncipheredPinOnline"),
   (3, "PlaintextPinWithSignature"), (4, "EncipheredPin"), (5, "EncipheredPinWithSignature"),
   (30, "Signature"), (31, "NoCvmRequired"), (63, "NoCvmPerformed")]

/-- CVM condition codes: EMV Book 3, table 40. -/
def conditionCodes : List (Nat × String) :=
  [(0, "Always"), (1, "UnattendedCash"), (2, "NotUnattendedNotManualNotCashback"),
   (3, "TerminalSupported"), (4, "Manual"), (5, "Cashback"), (6, "InApplicationCurrencyUnderX"),
   (7, "InApplicationCurrencyOverX"), (8, "InApplicationCurrencyUnderY"),
   (9, "InApplicationCurrencyOverY")]

/-- Cardholder Verification Rule: EMV Book 3, annex C3. -/
def cvRuleItems : List Item :=
  [⟨"continue_if_unsuccessful", 1, 7, 7, .flag⟩, ⟨"method", 1, 6, 1, .openCode cvmCodes⟩,
   ⟨"condition", 2, 8, 1, .openCode conditionCodes⟩]

/-- CVM Results: EMV Book 4, annex A4: a rule, then the result. -/
def cvmResultsItems : List Item :=
  cvRuleItems ++ [⟨"result", 3, 8, 1, .code [(0, "Unknown"), (1, "Failed"), (2, "Successful")]⟩]

/-- A bit-mapped value of the API: its parser, its number of bytes and its coding table. -/
structure BitValue where
  layout : Layout
  numBytes : Nat
  items : List Item

/-- The values defined by `bitflag_value!`, except the CV rule. -/
def bitValues : List BitValue :=
  [⟨tvrLayout, 5, tvrItems⟩, ⟨tsiLayout, 2, tsiItems⟩,
   ⟨terminalCapabilitiesLayout, 3, terminalCapabilitiesItems⟩,
   ⟨additionalTerminalCapabilitiesLayout, 5, additionalTerminalCapabilitiesItems⟩,
   ⟨cciLayout, 1, cciItems⟩, ⟨cvrLayout, 5, cvrItems⟩]

/-- The CV rule. -/
def cvRule : BitValue := ⟨cvRuleLayout, 2, cvRuleItems⟩

end Pemv.Spec
