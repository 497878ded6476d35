import Verif.Model.Auto
import Verif.Model.Display
import Verif.Model.Config
import Verif.Proofs.NodeEq

/-!
# The other unit tests of the program, on the model

Translated by hand. These are tests: they check that the model agrees with what the authors of the program
expect on their own examples. The tests that go through a whole type (`bitflag_unique_values!`,
`bitflag_display_bits!` of src/testing_macros.rs) are modelled in Verif/Model/Testing.lean; that they pass is part of C105.
-/

namespace Pemv

/-! ### src/util.rs:200-435 -/

example : parseStrToU16 "1234".toList = .ok 1234 := by decide +kernel
example : parseStrToU16 "65536".toList = .err .invalidNumber := by decide +kernel
example : parseHexStr "DEADBEEF".toList = [0xDE, 0xAD, 0xBE, 0xEF] := by decide +kernel
example : parseHexStr "DE AD  BE EF".toList = [0xDE, 0xAD, 0xBE, 0xEF] := by decide +kernel
example : parseHexStr "deadbeef".toList = [0xDE, 0xAD, 0xBE, 0xEF] := by decide +kernel
example : parseHexStr "de ad  be ef".toList = [0xDE, 0xAD, 0xBE, 0xEF] := by decide +kernel
example : parseHexStr "  . 0a 6E  42    t ".toList = [0x0A, 0x6E, 0x42] := by decide +kernel
example : parseHexStr "  . 0a 6E  ❤️ 42    t ".toList = [0x0A, 0x6E, 0x42] := by decide +kernel
example : parseHexStrStrict "DEADBEEF".toList = .ok [0xDE, 0xAD, 0xBE, 0xEF] := by decide +kernel
example : parseHexStrStrict "deadbeef".toList = .ok [0xDE, 0xAD, 0xBE, 0xEF] := by decide +kernel
example : parseHexStrStrict "de ad  be ef".toList = .err .invalidBytes := by decide +kernel
example : parseHexStrStrict "  . 0a 6E  42    t ".toList = .err .invalidBytes := by decide +kernel
example : parseHexStrStrict "  . 0a 6E  ❤️ 42    t ".toList = .err .invalidBytes := by
  decide +kernel
example : byteSliceToU32 [0x25] = .ok 0x25 := by decide +kernel
example : byteSliceToU32 [0x12, 0x34, 0x56] = .ok 0x00123456 := by decide +kernel
example : byteSliceToU32 [0x12, 0x34, 0x56, 0x78] = .ok 0x12345678 := by decide +kernel
example : byteSliceToU32 [0x12, 0x34, 0x56, 0x78, 0x90] = .panic := by decide +kernel
example : byteSliceToU64 [0x25] = .ok 0x25 := by decide +kernel
example : byteSliceToU64 [0x12, 0x34, 0x56] = .ok 0x00123456 := by decide +kernel
example : byteSliceToU64 [0x12, 0x34, 0x56, 0x78, 0x90, 0x12, 0x34, 0x56] = .ok 0x1234567890123456 := by
  decide +kernel
example : byteSliceToU64 [0x12, 0x34, 0x56, 0x78, 0x90, 0x12, 0x34, 0x56, 0x78] = .panic := by decide +kernel
example : bytesToStr [0x1A] = .ok "1A".toList := by decide +kernel
example : bytesToStr [0xC6, 0xA2, 0xFF, 0x3E, 0x2B] = .ok "C6A2FF3E2B".toList := by decide +kernel
example : bytesToStr [0x01, 0x23, 0x45, 0x67, 0x89, 0xAB, 0xCD, 0xEF] = .ok "0123456789ABCDEF".toList := by
  decide +kernel
example : trimLeading0Bytes [0x00, 0x8A] = [0x8A] := by decide +kernel
example : trimLeading0Bytes [0x9F, 0x1D] = [0x9F, 0x1D] := by decide +kernel
example : trimLeading0Bytes [0x00, 0x00, 0x00] = [0x00] := by decide +kernel
example : numDecDigits 0 = 1 := by decide +kernel
example : ∀ n ∈ List.range 8, numDecDigits (10 ^ n) = n + 1 := by decide +kernel
example : numDecDigits 123456 = 6 := by decide +kernel

/-! ### src/emv/tlv_parsing/ber_tlv.rs: `tag_metadata` and the long-data tests -/

example : parseTagMetadata 0b00000000 = .ok (.universal, .primitive) := by decide +kernel
example : parseTagMetadata 0b01000000 = .ok (.application, .primitive) := by decide +kernel
example : parseTagMetadata 0b10000000 = .ok (.contextSpecific, .primitive) := by decide +kernel
example : parseTagMetadata 0b11000000 = .ok (.priv, .primitive) := by decide +kernel
example : parseTagMetadata 0b00100000 = .ok (.universal, .constructed) := by decide +kernel
example : parseTagMetadata 0b01100000 = .ok (.application, .constructed) := by decide +kernel
example : parseTagMetadata 0b10100000 = .ok (.contextSpecific, .constructed) := by decide +kernel
example : parseTagMetadata 0b11100000 = .ok (.priv, .constructed) := by decide +kernel

example : berParse .debug64 [0x91, 0b10000101, 0xFF, 0xFF, 0xFF, 0xFF, 0xFF] ['*'] = .err .unsupported := by
  decide +kernel
example : ingParse .debug64 ("T91:80:h".toList ++ List.replicate 256 '*') ['*'] =
    .ok [.mk ⟨[0x91], .contextSpecific, .primitive, .masked⟩ []] := by decide +kernel
example : ingParse .debug64 "T91:FFFFFFFFFF:h".toList ['*'] = .err .unsupported := by decide +kernel

/-! ### src/emv/tlv_parsing/mod.rs:565-800 -/

/-- The parsed and processed block of some BER-TLV bytes. -/
private def processed (bytes : List Byte) : Out ProcessedEmvBlock :=
  berParse .debug64 bytes ['*'] >>= processBlock

/-- The tags of a block, in order (enough to see the order; the nodes themselves are the same). -/
private def topTags (b : Out ProcessedEmvBlock) : Out (List ProcessedEmvTag) := b.map (·.map (·.tag))

/-- `sort_nodes`. -/
example : topTags ((processed [0x95, 0x05, 0x00, 0x80, 0x00, 0x80, 0x00, 0x9F, 0x09, 0x02, 0x00, 0x8C, 0x7E,
      0x03, 0x2A, 0x2A, 0x2A]).map sortNodes) =
    topTags (processed [0x7E, 0x03, 0x2A, 0x2A, 0x2A, 0x95, 0x05, 0x00, 0x80, 0x00, 0x80, 0x00, 0x9F,
      0x09, 0x02, 0x00, 0x8C]) ∧
    (topTags (processed [0x7E, 0x03, 0x2A, 0x2A, 0x2A, 0x95, 0x05, 0x00, 0x80, 0x00, 0x80, 0x00, 0x9F,
      0x09, 0x02, 0x00, 0x8C])).isOk = true := by decide +kernel

/-- `processed_emv_tag_parse_raw_normal`. -/
example : (parseRaw "Transaction Status Information (TSI)"
      ⟨[0x9B], .contextSpecific, .primitive, .normal [0xFC, 0x00]⟩
      (fun d => (tsiLayout.tryFrom d).map .tsi)).map (fun t => t.rawTag.data) =
    .ok (.normal [0xFC, 0x00]) := by decide +kernel

/-- `processed_emv_tag_parse_raw_masked`. -/
example : (parseRaw "Transaction Status Information (TSI)" ⟨[0x9B], .contextSpecific, .primitive, .masked⟩
      (fun d => (tsiLayout.tryFrom d).map .tsi)).map (fun t => t.rawTag.data) = .ok .masked := by
  decide +kernel

/-- The name of a processed tag. -/
private def nameOf : ProcessedEmvTag → Option String
  | .raw _ => none
  | .annotated n _ => some n
  | .parsed n _ _ => some n

/-- The call of `parse_raw_unrecognised` used by the tests. -/
private def arcProcessed (data : EmvData) : Out (Option String) :=
  (parseRawUnrecognised "Authorisation Response Code"
    "Authorisation Response Code (Unrecognised - likely payment system-specific)"
    ⟨[0x8A], .contextSpecific, .primitive, data⟩
    (fun d => (arcTryFrom d).map .authorisationResponseCode) (fun e => e == .unrecognised)).map nameOf

/-- `processed_emv_tag_parse_raw_unrecognised_normal_recognised`. -/
example : arcProcessed (.normal [0x30, 0x36]) = .ok (some "Authorisation Response Code") := by decide +kernel

/-- `processed_emv_tag_parse_raw_unrecognised_normal_unrecognised`. -/
example : arcProcessed (.normal [0x5A, 0x5A]) =
    .ok (some "Authorisation Response Code (Unrecognised - likely payment system-specific)") := by
  decide +kernel

/-- `processed_emv_tag_parse_raw_unrecognised_error`. -/
example : parseRawUnrecognised "" "" ⟨[0x8A], .contextSpecific, .primitive, .normal [0x30, 0x35]⟩
    (fun _ => .err .nonCompliant) (fun e => e == .unrecognised) = .err .nonCompliant := by decide +kernel

/-- `processed_emv_tag_parse_raw_unrecognised_masked`. -/
example : arcProcessed .masked = .ok (some "Authorisation Response Code") := by decide +kernel

example : isMaskedU8 [0x2A, 0x2A, 0x2A] ['*'] = true := by decide +kernel
example : isMaskedU8 [0x23, 0x12, 0x31] ['*'] = false := by decide +kernel
example : isMaskedU8 [0x2A] ['*'] = false := by decide +kernel
example : isMaskedStr "******".toList ['*'] = true := by decide +kernel
example : isMaskedStr "231231".toList ['*'] = false := by decide +kernel
example : isMaskedStr "*".toList ['*'] = false := by decide +kernel

/-! ### `wrong_byte_count!` of src/testing_macros.rs:6-21 for every type that uses it -/

example : transactionTypeTryFrom [0, 0] = .err (.byteCountIncorrect .eq 1 2) := by decide +kernel
example : terminalTypeTryFrom [0, 0] = .err (.byteCountIncorrect .eq 1 2) := by decide +kernel
example : posEntryModeTryFrom [0, 0] = .err (.byteCountIncorrect .eq 1 2) := by decide +kernel
example : arcTryFrom [0, 0, 0] = .err (.byteCountIncorrect .eq 2 3) := by decide +kernel
example : CvmResults.tryFrom [0, 0, 0, 0] = .err (.byteCountIncorrect .eq 3 4) := by decide +kernel
example : cvRuleTryFrom [0, 0, 0] = .err (.byteCountIncorrect .eq 2 3) := by decide +kernel
example : cciLayout.tryFrom [0, 0] = .err (.byteCountIncorrect .eq 1 2) := by decide +kernel
example : cvrLayout.tryFrom [0, 0, 0, 0, 0, 0] = .err (.byteCountIncorrect .eq 5 6) := by decide +kernel
example : tsiLayout.tryFrom [0, 0, 0] = .err (.byteCountIncorrect .eq 2 3) := by decide +kernel
example : tvrLayout.tryFrom [0, 0, 0, 0, 0, 0] = .err (.byteCountIncorrect .eq 5 6) := by decide +kernel
example : terminalCapabilitiesLayout.tryFrom [0, 0, 0, 0] = .err (.byteCountIncorrect .eq 3 4) := by
  decide +kernel
example : additionalTerminalCapabilitiesLayout.tryFrom [0, 0, 0, 0, 0, 0] =
    .err (.byteCountIncorrect .eq 5 6) := by decide +kernel

/-! ### src/emv/authorisation_response_code.rs -/

example : arcTryFrom [0x30, 0x35] = enumTryFrom arcTable .unrecognised ['0', '5'] ∧
    (arcTryFrom [0x30, 0x35]).isOk = true := by decide +kernel
example : arcTryFrom [0x00, 0x9F] = .err .invalidNumber := by decide +kernel

/-! ### src/emv/ccd/cci.rs -/

/-- The names of the variants a parsed value holds and its other fields, by field name. -/
private def fields (l : Layout) (v : Value) : List (String × String) :=
  ((List.zipWith (fun (r : Nat × List Field) (vs : List FieldVal) =>
    List.zipWith (fun f x => (f.name, match x with
      | .bool b => toString b
      | .u8 n => toString n.toNat
      | .enum v => v.name
      | .optEnum (some v) => v.name
      | .optEnum none => "None")) r.2 vs) l.rows v).flatten)

/-- `parse_from_bytes_valid`. -/
example : (cciLayout.tryFrom [0b10100110]).map (fields cciLayout) =
    .ok [("iad_format_code", "A"), ("cryptogram_version", "Aes")] := by decide +kernel

/-- `parse_from_bytes_non_ccd_compliant`. -/
example : cciLayout.tryFrom [0b10001010] = .err .nonCcdCompliant := by decide +kernel

/-! ### src/emv/ccd/iad.rs -/

/-- The value of the `ccd_compliant` test. -/
private def ccdValue : List Byte :=
  [0x0F, 0xA5, 0x01, 0xA2, 0x30, 0x30, 0x10, 0x00, 0x00, 0x00, 0x00, 0x00, 0x00, 0x00,
   0x00, 0x00, 0x0F, 0x01, 0x00, 0x00, 0x00, 0x00, 0x00, 0x00, 0x00, 0x00, 0x00, 0x00,
   0x00, 0x00, 0x00, 0x00]

/-- `ccd_compliant`. -/
example : (Iad.tryFrom ccdValue).map (fun v => fields cciLayout v.cci) =
    .ok [("iad_format_code", "A"), ("cryptogram_version", "TripleDes")] := by decide +kernel
example : (Iad.tryFrom ccdValue).map (fun v => (v.dki, v.counterBytes, v.issuerDiscretionaryData)) =
    .ok (1, List.replicate 8 0, 0x01 :: List.replicate 14 0) := by decide +kernel
example : (Iad.tryFrom ccdValue).map (fun v => fields cvrLayout v.cvr) =
    .ok [("gen_ac_2_application_cryptogram_type", "SecondGenAcNotRequested"),
      ("gen_ac_1_application_cryptogram_type", "Arqc"),
      ("cda_performed", "false"),
      ("offline_dda_performed", "false"),
      ("issuer_authentication_not_performed", "true"),
      ("issuer_authentication_failed", "false"),
      ("pin_try_count", "3"),
      ("offline_pin_verification_performed", "false"),
      ("offline_pin_verification_failed", "false"),
      ("pin_try_limit_exceeded", "false"),
      ("last_online_transaction_not_completed", "false"),
      ("offline_transaction_count_limit_lower_exceeded", "false"),
      ("offline_transaction_count_limit_upper_exceeded", "false"),
      ("offline_cumulative_amount_limit_lower_exceeded", "true"),
      ("offline_cumulative_amount_limit_upper_exceeded", "true"),
      ("issuer_discretionary_bit_1", "false"),
      ("issuer_discretionary_bit_2", "false"),
      ("issuer_discretionary_bit_3", "false"),
      ("issuer_discretionary_bit_4", "false"),
      ("successful_issuer_script_commands_with_secure_messaging", "1"),
      ("issuer_script_processing_failed", "false"),
      ("offline_data_authentication_failed_on_previous_transaction", "false"),
      ("go_online_on_next_transaction", "false"),
      ("unable_to_go_online", "false")] := by decide +kernel

/-- `non_ccd_compliant_wrong_byte_count`. -/
example : Iad.tryFrom (List.replicate 7 0) = .err .nonCcdCompliant := by decide +kernel

/-- `non_ccd_compliant_invalid_structure`. -/
example : Iad.tryFrom (0x0A :: List.replicate 15 0 ++ 0x0F :: List.replicate 15 0) = .err .nonCcdCompliant := by
  decide +kernel

/-- `non_ccd_compliant_valid_structure`. -/
example : Iad.tryFrom (0x0F :: List.replicate 15 0 ++ 0x0F :: List.replicate 15 0) = .err .nonCcdCompliant := by
  decide +kernel

/-! ### src/emv/cv_rule, src/emv/cvm_list.rs, src/emv/cvm_results.rs -/

example : (cvmConditionTable.find? (·.name == "InApplicationCurrencyOverY")).map referencesXOrY = some true := by
  decide +kernel
example : (cvmConditionTable.find? (·.name == "TerminalSupported")).map referencesXOrY = some false := by
  decide +kernel

example : (cvRuleTryFrom [0b01011110, 0x03]).map (fields cvRuleLayout) =
    .ok [("continue_if_unsuccessful", "true"), ("method", "Signature"), ("condition", "TerminalSupported")] := by
  decide +kernel

/-- `parse_from_bytes_empty`. -/
example : CvmList.tryFrom (List.replicate 8 0) = .ok ⟨0, 0, []⟩ := by decide +kernel

/-- `parse_from_bytes_valid`. -/
example : (CvmList.tryFrom [0x00, 0x00, 0x00, 0x2A, 0x00, 0x00, 0x00, 0x7B, 0b00000100, 0x03, 0b01011110, 0x03,
      0b00000000, 0x00]).map (fun v => (v.xValue, v.yValue, v.cvRules.map (fields cvRuleLayout))) =
    .ok (0x2A, 0x7B, [
      [("continue_if_unsuccessful", "false"), ("method", "EncipheredPin"), ("condition", "TerminalSupported")],
      [("continue_if_unsuccessful", "true"), ("method", "Signature"), ("condition", "TerminalSupported")],
      [("continue_if_unsuccessful", "false"), ("method", "FailCvmProcessing"), ("condition", "Always")]]) := by
  decide +kernel

/-- `parse_from_bytes_invalid_too_short`. -/
example : CvmList.tryFrom [0, 0, 0] = .err (.byteCountIncorrect .gt 8 3) := by decide +kernel

/-- `parse_from_bytes_invalid_wrong_parity`. -/
example : CvmList.tryFrom (List.replicate 9 0) = .err .byteCountNotDivisibleIntoComponents := by decide +kernel

/-- `parse_from_bytes_unknown_cvm_condition`. -/
example : (CvmList.tryFrom [0, 0, 0, 0, 0, 0, 0, 0, 0b00000010, 0x35]).map
      (fun v => (v.xValue, v.yValue, v.cvRules.map (fields cvRuleLayout))) =
    .ok (0, 0, [[("continue_if_unsuccessful", "false"), ("method", "EncipheredPinOnline"),
      ("condition", "None")]]) := by decide +kernel

/-- `parse_from_bytes_valid`, src/emv/cvm_results.rs. -/
example : (CvmResults.tryFrom [0b01011110, 0x03, 0b10]).map (fun v => (fields cvRuleLayout v.cvRule, v.result.name)) =
    .ok ([("continue_if_unsuccessful", "true"), ("method", "Signature"), ("condition", "TerminalSupported")],
      "Successful") := by decide +kernel

/-! ### src/emv/iac -/

example : ∀ k ∈ [IacKind.default, .denial, .online],
    iacTryFrom k [0xFF, 0xFF, 0xFF, 0xFF, 0xFF] = tvrLayout.tryFrom [0xFF, 0xFF, 0xFF, 0xFF, 0xFF] ∧
      (iacDefault k).isOk = true := by decide +kernel

/-! ### src/non_emv/service_code.rs -/

/-- The names of the variants of a service code. -/
private def scNames (v : ServiceCode) : Nat × List String :=
  (v.number, [v.interchange.name, v.technology.name, v.authorisationProcessing.name, v.allowedServices.name,
    v.pinRequirements.name])

example : (ServiceCode.tryFromU16 220).map scNames = .ok (220, ["International", "IntegratedCircuitCard",
    "ByIssuer", "NoRestrictions", "PinRequired"]) := by decide +kernel
example : (ServiceCode.tryFromU16 201).map scNames = .ok (201, ["International", "IntegratedCircuitCard",
    "Normal", "NoRestrictions", "None"]) := by decide +kernel
example : (ServiceCode.tryFromU16 121).map scNames = .ok (121, ["International", "MagneticStripeOnly",
    "ByIssuer", "NoRestrictions", "None"]) := by decide +kernel
example : ServiceCode.tryFromU16 1000 = .err .invalidNumber := by decide +kernel
example : ServiceCode.tryFrom [0x02, 0x20] = ServiceCode.tryFromU16 220 := by decide +kernel
example : ServiceCode.tryFrom [0x02, 0x20, 0x00] = .err (.byteCountIncorrect .eq 2 3) := by decide +kernel

/-! ### src/config/colour_choice.rs -/

example : ∀ c ∈ [ColourChoice.always, .alwaysAnsi, .auto, .never],
    ColourChoice.ofTerm c.toTerm = c ∧ ColourChoice.tryFrom c.text.toList = .ok c := by decide +kernel
example : ColourChoice.tryFrom "unsupported value".toList = .err .unsupported := by decide +kernel

end Pemv
