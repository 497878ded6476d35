import Verif.Model.Auto
import Verif.Proofs.NodeEq

/-!
# The unit tests of the parsers, on the model

Generated by tools/gen_conformance.py from the `test_parse` calls in src/emv/tlv_parsing. These are tests:
they check that the model agrees with what the authors of the program expect on their own examples.
-/

namespace Pemv

/-- `parse_empty_data`, src/emv/tlv_parsing/ber_tlv.rs. -/
example : berParse .debug64 [] ['*'] = .ok [] := by decide +kernel

/-- `parse_single_byte_primitive_unmasked_tag`, src/emv/tlv_parsing/ber_tlv.rs. -/
example : berParse .debug64 [0x5A, 0x08, 0x47, 0x61, 0x73, 0x00, 0x00, 0x00, 0x01, 0x19] ['*'] = .ok [.mk ⟨[0x5A], .application, .primitive, .normal [0x47, 0x61, 0x73, 0x00, 0x00, 0x00, 0x01, 0x19]⟩ []] := by decide +kernel

/-- `parse_multi_byte_primitive_unmasked_tag`, src/emv/tlv_parsing/ber_tlv.rs. -/
example : berParse .debug64 [0x5F, 0x34, 0x01, 0x01] ['*'] = .ok [.mk ⟨[0x5F, 0x34], .application, .primitive, .normal [0x01]⟩ []] := by decide +kernel

/-- `parse_single_byte_primitive_masked_tag`, src/emv/tlv_parsing/ber_tlv.rs. -/
example : berParse .debug64 [0x5A, 0x08, 0x2A, 0x2A, 0x2A, 0x2A, 0x2A, 0x2A, 0x2A, 0x2A] ['*'] = .ok [.mk ⟨[0x5A], .application, .primitive, .masked⟩ []] := by decide +kernel

/-- `parse_multi_byte_primitive_masked_tag`, src/emv/tlv_parsing/ber_tlv.rs. -/
example : berParse .debug64 [0x5F, 0x34, 0x02, 0x2A, 0x2A] ['*'] = .ok [.mk ⟨[0x5F, 0x34], .application, .primitive, .masked⟩ []] := by decide +kernel

/-- `parse_constructed_unmasked_tag`, src/emv/tlv_parsing/ber_tlv.rs. -/
example : berParse .debug64 [0x6F, 0x09, 0x4F, 0x07, 0xA0, 0x00, 0x00, 0x00, 0x03, 0x10, 0x10] ['*'] = .ok [.mk ⟨[0x6F], .application, .constructed, .normal [0x4F, 0x07, 0xA0, 0x00, 0x00, 0x00, 0x03, 0x10, 0x10]⟩ [.mk ⟨[0x4F], .application, .primitive, .normal [0xA0, 0x00, 0x00, 0x00, 0x03, 0x10, 0x10]⟩ []]] := by decide +kernel

/-- `parse_constructed_masked_tag`, src/emv/tlv_parsing/ber_tlv.rs. -/
example : berParse .debug64 [0x6F, 0x0B, 0x2A, 0x2A, 0x2A, 0x2A, 0x2A, 0x2A, 0x2A, 0x2A, 0x2A, 0x2A, 0x2A] ['*'] = .ok [.mk ⟨[0x6F], .application, .constructed, .masked⟩ []] := by decide +kernel

/-- `parse_constructed_masked_child_tag`, src/emv/tlv_parsing/ber_tlv.rs. -/
example : berParse .debug64 [0x6F, 0x0B, 0x5F, 0x20, 0x08, 0x2A, 0x2A, 0x2A, 0x2A, 0x2A, 0x2A, 0x2A, 0x2A] ['*'] = .ok [.mk ⟨[0x6F], .application, .constructed, .normal [0x5F, 0x20, 0x08, 0x2A, 0x2A, 0x2A, 0x2A, 0x2A, 0x2A, 0x2A, 0x2A]⟩ [.mk ⟨[0x5F, 0x20], .application, .primitive, .masked⟩ []]] := by decide +kernel

/-- `parse_multiple_tags`, src/emv/tlv_parsing/ber_tlv.rs. -/
example : berParse .debug64 [0x4F, 0x07, 0xA0, 0x00, 0x00, 0x00, 0x04, 0x10, 0x10, 0x5F, 0x34, 0x08, 0x2A, 0x2A, 0x2A, 0x2A, 0x2A, 0x2A, 0x2A, 0x2A, 0x5F, 0x24, 0x03, 0x25, 0x12, 0x31, 0x6F, 0x07, 0x9F, 0x37, 0x04, 0x34, 0xE6, 0x2F, 0x92] ['*'] = .ok [.mk ⟨[0x4F], .application, .primitive, .normal [0xA0, 0x00, 0x00, 0x00, 0x04, 0x10, 0x10]⟩ [], .mk ⟨[0x5F, 0x34], .application, .primitive, .masked⟩ [], .mk ⟨[0x5F, 0x24], .application, .primitive, .normal [0x25, 0x12, 0x31]⟩ [], .mk ⟨[0x6F], .application, .constructed, .normal [0x9F, 0x37, 0x04, 0x34, 0xE6, 0x2F, 0x92]⟩ [.mk ⟨[0x9F, 0x37], .contextSpecific, .primitive, .normal [0x34, 0xE6, 0x2F, 0x92]⟩ []]] := by decide +kernel

/-- `parse_empty_tag_data`, src/emv/tlv_parsing/ber_tlv.rs. -/
example : berParse .debug64 [0x5F, 0x20, 0x00] ['*'] = .ok [.mk ⟨[0x5F, 0x20], .application, .primitive, .normal []⟩ []] := by decide +kernel

/-- `parse_single_byte_tag_data_is_not_masked`, src/emv/tlv_parsing/ber_tlv.rs. -/
example : berParse .debug64 [0x5F, 0x34, 0x01, 0x2A] ['*'] = .ok [.mk ⟨[0x5F, 0x34], .application, .primitive, .normal [0x2A]⟩ []] := by decide +kernel

/-- `parse_3_byte_tag_name`, src/emv/tlv_parsing/ber_tlv.rs. -/
example : berParse .debug64 [0x9F, 0xA0, 0x20, 0x03, 0x22, 0x12, 0x31] ['*'] = .ok [.mk ⟨[0x9F, 0xA0, 0x20], .contextSpecific, .primitive, .normal [0x22, 0x12, 0x31]⟩ []] := by decide +kernel

/-- `parse_invalid_tag_length_too_long`, src/emv/tlv_parsing/ber_tlv.rs. -/
example : berParse .debug64 [0x91, 0x02, 0x00] ['*'] = .err .nonCompliant := by decide +kernel

/-- `parse_invalid_tag_name_indicates_more_coming_but_ends`, src/emv/tlv_parsing/ber_tlv.rs. -/
example : berParse .debug64 [0x5F] ['*'] = .err .nonCompliant := by decide +kernel

/-- `parse_invalid_tag_length_indicates_more_coming_but_ends`, src/emv/tlv_parsing/ber_tlv.rs. -/
example : berParse .debug64 [0x91, 0b1000_0010, 0xFF] ['*'] = .err .nonCompliant := by decide +kernel

/-- `parse_invalid_no_tag_length`, src/emv/tlv_parsing/ber_tlv.rs. -/
example : berParse .debug64 [0x91] ['*'] = .err .nonCompliant := by decide +kernel

/-- `parse_invalid_no_tag_data`, src/emv/tlv_parsing/ber_tlv.rs. -/
example : berParse .debug64 [0x91, 0x10] ['*'] = .err .nonCompliant := by decide +kernel

/-- `parse_handles_stupid_tag_names`, src/emv/tlv_parsing/ber_tlv.rs. -/
example : berParse .debug64 [0xE3, 0x03, 0x22, 0x12, 0x31] ['*'] = .ok [.mk ⟨[0xE3], .priv, .constructed, .normal [0x22, 0x12, 0x31]⟩ []] := by decide +kernel

/-- `parse_empty_data`, src/emv/tlv_parsing/ingenico_tlv.rs. -/
example : ingParse .debug64 "".toList ['*'] = .ok [] := by decide +kernel

/-- `parse_single_byte_primitive_unmasked_hex_tag`, src/emv/tlv_parsing/ingenico_tlv.rs. -/
example : ingParse .debug64 "T5A:08:h4761730000000119".toList ['*'] = .ok [.mk ⟨[0x5A], .application, .primitive, .normal [0x47, 0x61, 0x73, 0x00, 0x00, 0x00, 0x01, 0x19]⟩ []] := by decide +kernel

/-- `parse_multi_byte_primitive_unmasked_hex_tag`, src/emv/tlv_parsing/ingenico_tlv.rs. -/
example : ingParse .debug64 "T5F34:01:h01".toList ['*'] = .ok [.mk ⟨[0x5F, 0x34], .application, .primitive, .normal [0x01]⟩ []] := by decide +kernel

/-- `parse_single_byte_primitive_masked_hex_tag`, src/emv/tlv_parsing/ingenico_tlv.rs. -/
example : ingParse .debug64 "T5A:08:h****************".toList ['*'] = .ok [.mk ⟨[0x5A], .application, .primitive, .masked⟩ []] := by decide +kernel

/-- `parse_multi_byte_primitive_masked_hex_tag`, src/emv/tlv_parsing/ingenico_tlv.rs. -/
example : ingParse .debug64 "T5F34:02:h****".toList ['*'] = .ok [.mk ⟨[0x5F, 0x34], .application, .primitive, .masked⟩ []] := by decide +kernel

/-- `parse_single_byte_primitive_unmasked_ascii_tag`, src/emv/tlv_parsing/ingenico_tlv.rs. -/
example : ingParse .debug64 "T8A:02:a05".toList ['*'] = .ok [.mk ⟨[0x8A], .contextSpecific, .primitive, .normal [0x30, 0x35]⟩ []] := by decide +kernel

/-- `parse_single_byte_primitive_masked_ascii_tag`, src/emv/tlv_parsing/ingenico_tlv.rs. -/
example : ingParse .debug64 "T8A:02:a**".toList ['*'] = .ok [.mk ⟨[0x8A], .contextSpecific, .primitive, .masked⟩ []] := by decide +kernel

/-- `parse_constructed_unmasked_tag`, src/emv/tlv_parsing/ingenico_tlv.rs. -/
example : ingParse .debug64 "T6F:09:h4F07A0000000031010".toList ['*'] = .ok [.mk ⟨[0x6F], .application, .constructed, .normal [0x4F, 0x07, 0xA0, 0x00, 0x00, 0x00, 0x03, 0x10, 0x10]⟩ [.mk ⟨[0x4F], .application, .primitive, .normal [0xA0, 0x00, 0x00, 0x00, 0x03, 0x10, 0x10]⟩ []]] := by decide +kernel

/-- `parse_constructed_masked_tag`, src/emv/tlv_parsing/ingenico_tlv.rs. -/
example : ingParse .debug64 "T6F:0B:h**********************".toList ['*'] = .ok [.mk ⟨[0x6F], .application, .constructed, .masked⟩ []] := by decide +kernel

/-- `parse_constructed_masked_child_tag`, src/emv/tlv_parsing/ingenico_tlv.rs. -/
example : ingParse .debug64 "T6F:0B:h5F2008****************".toList ['*'] = .err .nonCompliant := by decide +kernel

/-- `parse_multiple_tags`, src/emv/tlv_parsing/ingenico_tlv.rs. -/
example : ingParse .debug64 "T4F:07:hA0000000041010~T5F34:08:h****************~T5F24:03:h251231~T6F:07:h9F370434E62F92".toList ['*'] = .ok [.mk ⟨[0x4F], .application, .primitive, .normal [0xA0, 0x00, 0x00, 0x00, 0x04, 0x10, 0x10]⟩ [], .mk ⟨[0x5F, 0x34], .application, .primitive, .masked⟩ [], .mk ⟨[0x5F, 0x24], .application, .primitive, .normal [0x25, 0x12, 0x31]⟩ [], .mk ⟨[0x6F], .application, .constructed, .normal [0x9F, 0x37, 0x04, 0x34, 0xE6, 0x2F, 0x92]⟩ [.mk ⟨[0x9F, 0x37], .contextSpecific, .primitive, .normal [0x34, 0xE6, 0x2F, 0x92]⟩ []]] := by decide +kernel

/-- `parse_empty_tag_data`, src/emv/tlv_parsing/ingenico_tlv.rs. -/
example : ingParse .debug64 "T5F20:00:h".toList ['*'] = .ok [.mk ⟨[0x5F, 0x20], .application, .primitive, .normal []⟩ []] := by decide +kernel

/-- `parse_single_byte_tag_ascii_data_is_not_masked`, src/emv/tlv_parsing/ingenico_tlv.rs. -/
example : ingParse .debug64 "T5F34:01:a*".toList ['*'] = .ok [.mk ⟨[0x5F, 0x34], .application, .primitive, .normal [0x2A]⟩ []] := by decide +kernel

/-- `parse_single_byte_tag_hex_data_is_masked`, src/emv/tlv_parsing/ingenico_tlv.rs. -/
example : ingParse .debug64 "T5F34:01:h**".toList ['*'] = .ok [.mk ⟨[0x5F, 0x34], .application, .primitive, .masked⟩ []] := by decide +kernel

/-- `parse_3_byte_tag_name`, src/emv/tlv_parsing/ingenico_tlv.rs. -/
example : ingParse .debug64 "T9FA020:03:h221231".toList ['*'] = .ok [.mk ⟨[0x9F, 0xA0, 0x20], .contextSpecific, .primitive, .normal [0x22, 0x12, 0x31]⟩ []] := by decide +kernel

/-- `parse_leading_0_byte_tag_name`, src/emv/tlv_parsing/ingenico_tlv.rs. -/
example : ingParse .debug64 "T008A:0002:h3030".toList ['*'] = .ok [.mk ⟨[0x8A], .contextSpecific, .primitive, .normal [0x30, 0x30]⟩ []] := by decide +kernel

/-- `parse_lowercase_where_possible`, src/emv/tlv_parsing/ingenico_tlv.rs. -/
example : ingParse .debug64 "T5f34:02:he6dd".toList ['*'] = .ok [.mk ⟨[0x5F, 0x34], .application, .primitive, .normal [0xE6, 0xDD]⟩ []] := by decide +kernel

/-- `parse_mixed_case`, src/emv/tlv_parsing/ingenico_tlv.rs. -/
example : ingParse .debug64 "T5f34:02:hE6Dd".toList ['*'] = .ok [.mk ⟨[0x5F, 0x34], .application, .primitive, .normal [0xE6, 0xDD]⟩ []] := by decide +kernel

/-- `parse_extra_end_separator`, src/emv/tlv_parsing/ingenico_tlv.rs. -/
example : ingParse .debug64 "T91:08:h****************~".toList ['*'] = .ok [.mk ⟨[0x91], .contextSpecific, .primitive, .masked⟩ []] := by decide +kernel

/-- `parse_non_ascii`, src/emv/tlv_parsing/ingenico_tlv.rs. -/
example : ingParse .debug64 "T5F34:02:h0001�T91:08:****************�".toList ['*'] = .err .nonCompliant := by decide +kernel

/-- `parse_invalid_tag_length_too_long_hex`, src/emv/tlv_parsing/ingenico_tlv.rs. -/
example : ingParse .debug64 "T91:02:h00".toList ['*'] = .err .nonCompliant := by decide +kernel

/-- `parse_invalid_tag_length_too_long_ascii`, src/emv/tlv_parsing/ingenico_tlv.rs. -/
example : ingParse .debug64 "T91:02:a0".toList ['*'] = .err .nonCompliant := by decide +kernel

/-- `parse_invalid_tag_name_ends_early`, src/emv/tlv_parsing/ingenico_tlv.rs. -/
example : ingParse .debug64 "T5F".toList ['*'] = .err .nonCompliant := by decide +kernel

/-- `parse_invalid_no_tag_name_ends_early`, src/emv/tlv_parsing/ingenico_tlv.rs. -/
example : ingParse .debug64 "T".toList ['*'] = .err .nonCompliant := by decide +kernel

/-- `parse_invalid_no_tag_name`, src/emv/tlv_parsing/ingenico_tlv.rs. -/
example : ingParse .debug64 "T:".toList ['*'] = .err .nonCompliant := by decide +kernel

/-- `parse_invalid_no_tag_length`, src/emv/tlv_parsing/ingenico_tlv.rs. -/
example : ingParse .debug64 "T91:".toList ['*'] = .err .nonCompliant := by decide +kernel

/-- `parse_invalid_no_tag_data`, src/emv/tlv_parsing/ingenico_tlv.rs. -/
example : ingParse .debug64 "T91:02:".toList ['*'] = .err .nonCompliant := by decide +kernel

/-- `parse_invalid_skips_tag_length`, src/emv/tlv_parsing/ingenico_tlv.rs. -/
example : ingParse .debug64 "T91:h6E34".toList ['*'] = .err .nonCompliant := by decide +kernel

/-- `parse_invalid_format_specifier`, src/emv/tlv_parsing/ingenico_tlv.rs. -/
example : ingParse .debug64 "T91:02:u83".toList ['*'] = .err .nonCompliant := by decide +kernel

/-- `parse_invalid_field_separator`, src/emv/tlv_parsing/ingenico_tlv.rs. -/
example : ingParse .debug64 "T8A~02~a00".toList ['*'] = .err .nonCompliant := by decide +kernel

/-- `parse_ignores_other_tag_types`, src/emv/tlv_parsing/ingenico_tlv.rs. -/
example : ingParse .debug64 "D1003:01:aD".toList ['*'] = .ok [] := by decide +kernel

/-- `parse_empty_data`, src/emv/tlv_parsing/auto_tlv.rs. -/
example : autoParse .debug64 "".toList ['*'] = .err .unrecognised := by decide +kernel

/-- `parse_ber_tlv_valid`, src/emv/tlv_parsing/auto_tlv.rs. -/
example : autoParse .debug64 "5F2403251231".toList ['*'] = .ok (.berTlv, [.mk ⟨[0x5F, 0x24], .application, .primitive, .normal [0x25, 0x12, 0x31]⟩ []]) := by decide +kernel

/-- `parse_ber_tlv_invalid`, src/emv/tlv_parsing/auto_tlv.rs. -/
example : autoParse .debug64 "5F24032531".toList ['*'] = .err .unrecognised := by decide +kernel

/-- `parse_ingenico_valid`, src/emv/tlv_parsing/auto_tlv.rs. -/
example : autoParse .debug64 "T5F24:03:h251231".toList ['*'] = .ok (.ingenico, [.mk ⟨[0x5F, 0x24], .application, .primitive, .normal [0x25, 0x12, 0x31]⟩ []]) := by decide +kernel

/-- `parse_ingenico_invalid`, src/emv/tlv_parsing/auto_tlv.rs. -/
example : autoParse .debug64 "T5F24:03:h2531".toList ['*'] = .err .unrecognised := by decide +kernel

end Pemv
