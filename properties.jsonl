{"id": "C01", "title": "Lenient hex decoding keeps exactly the hex digits, in order", "statement": "parse_hex_str(s) returns the bytes obtained by keeping the ASCII hex digits of s in order (either case), pairing them up from the left as high/low nibble, and dropping an unpaired last digit; every other character (ASCII or not) has no effect on the result.", "quantifier": "every Unicode string", "why_tests_cant": "strings are unbounded and any non-hex scalar value may occur at any place; tests sample five strings", "anchors": ["src/util.rs:parse_hex_str"]}
{"id": "C02", "title": "Strict hex decoding accepts exactly hex-digit strings", "statement": "parse_hex_str_strict(s) succeeds if and only if every character of s is an ASCII hex digit; then it returns what parse_hex_str returns, otherwise the error is InvalidBytes. In particular no non-ASCII character whose low 8 bits look like a hex digit is accepted.", "quantifier": "every Unicode string", "why_tests_cant": "the danger is a truncating char->u8 cast on one of 1.1 million scalar values at any position", "anchors": ["src/util.rs:parse_hex_str_strict"]}
{"id": "C03", "title": "Hex text round-trips", "statement": "Decoding the text that bytes_to_str produces gives back the original bytes, with either hex decoder and also after lower-casing the text; the text has exactly two characters per byte, all in 0-9A-F, and producing it never panics.", "quantifier": "every byte sequence of every length", "why_tests_cant": "unbounded byte sequences", "anchors": ["src/util.rs:bytes_to_str", "src/util.rs:parse_hex_str"]}
{"id": "C04", "title": "Big-endian integer reads are exact", "statement": "byte_slice_to_u32 / byte_slice_to_u64 return the base-256 big-endian value of the slice for at most 4 / 8 bytes (never overflowing) and panic exactly for longer slices.", "quantifier": "every byte slice", "why_tests_cant": "2^32 and 2^64 values, and every slice length", "anchors": ["src/util.rs:byte_slice_to_u32", "src/util.rs:byte_slice_to_u64"]}
{"id": "C05", "title": "Trimming leading zero bytes of a tag never changes or loses the tag", "statement": "trim_leading_0_bytes removes only leading 0x00 bytes, never the last byte, keeps the base-256 value, leaves no leading 0x00 unless one byte is left, never turns a non-empty vector into an empty one, and doing it twice is the same as once.", "quantifier": "every byte vector", "why_tests_cant": "unbounded vectors", "anchors": ["src/util.rs:trim_leading_0_bytes"]}
{"id": "C06", "title": "Decimal width is exact", "statement": "num_dec_digits(n) is the length of the decimal numeral of n, so zero-padding the CVM List X and Y amounts to the larger of the two widths (at least 3) prints both with the same number of digits and without losing any digit.", "quantifier": "every u32 pair", "why_tests_cant": "2^64 pairs of amounts", "anchors": ["src/util.rs:num_dec_digits", "src/emv/cvm_list.rs:display_breakdown"]}
{"id": "C07", "title": "Service-code text is parsed as a decimal u16", "statement": "parse_str_to_u16(s) succeeds exactly when s, after removing surrounding Unicode white space, is an optional '+' followed by one or more ASCII digits whose value is at most 65535, and returns that value; everything else is InvalidNumber.", "quantifier": "every Unicode string", "why_tests_cant": "unbounded strings, including any number of leading zeros", "anchors": ["src/util.rs:parse_str_to_u16"]}
{"id": "C08", "title": "A value is treated as masked exactly when it is entirely one masking character", "statement": "A value is reported as masked if and only if it has at least two characters (bytes for BER-TLV) and there is one configured masking character equal to all of them; the order and repetition of the masking characters is irrelevant, and with no masking characters nothing is masked.", "quantifier": "every value and every set of masking characters", "why_tests_cant": "masking sets and values are unbounded", "anchors": ["src/emv/tlv_parsing/mod.rs:is_masked_u8", "src/emv/tlv_parsing/mod.rs:is_masked_str", "src/emv/tlv_parsing/mod.rs:EmvData::from_u8_check_for_masked"]}
{"id": "C09", "title": "Masked values are never interpreted or shown", "statement": "A masked tag has no children, is never handed to a value parser, is displayed with the '* Masked *' marker, unknown length and no bytes, and what is displayed for it depends only on its tag.", "quantifier": "every tag, every masked value, in every input format", "why_tests_cant": "must hold for every tag including all that have a value parser", "anchors": ["src/emv/tlv_parsing/mod.rs:ProcessedEmvTag::parse_raw", "src/emv/tlv_parsing/mod.rs:parse_raw_unrecognised", "src/emv/tlv_parsing/ber_tlv.rs:get_child_block", "src/emv/tlv_parsing/mod.rs:RawEmvTag::display_breakdown"]}
{"id": "C10", "title": "The BER-TLV parser accepts exactly the BER-TLV language", "statement": "Parsing succeeds if and only if the input is a concatenation of BER-TLV objects (tag per the high-tag-number rule, short or 0..4-byte long-form length, value of exactly that length), where the last object is not one whose length is in long form and zero; the result lists these objects in order with their exact tag bytes and value bytes. The decomposition is unique.", "quantifier": "every byte sequence and every set of masking characters", "why_tests_cant": "infinitely many inputs; off-by-one slips in any of the index updates show only on particular shapes", "anchors": ["src/emv/tlv_parsing/ber_tlv.rs:parse"]}
{"id": "C11", "title": "BER-TLV encode/parse round-trip, including nested templates", "statement": "Encoding any forest of data objects (primitive values, or constructed objects holding a forest, to any depth) with minimal definite lengths below 2^32 and parsing the result gives back that forest: the same tags, classes, object types, values and nesting.", "quantifier": "every forest of any width and depth with well-formed tags", "why_tests_cant": "unbounded width, depth and lengths", "anchors": ["src/emv/tlv_parsing/ber_tlv.rs:parse", "src/emv/tlv_parsing/ber_tlv.rs:get_child_block"]}
{"id": "C12", "title": "No byte of accepted BER-TLV input is skipped or read twice", "statement": "When parsing succeeds, the input is exactly the concatenation, in order, of each reported object's tag, a length field denoting its value's length, and its value.", "quantifier": "every accepted input", "why_tests_cant": "must hold for all inputs", "anchors": ["src/emv/tlv_parsing/ber_tlv.rs:parse"]}
{"id": "C13", "title": "BER-TLV parsing is compositional", "statement": "If two byte strings parse, their concatenation parses to the concatenation of their results; and whenever a is accepted, a followed by b is accepted if and only if b is.", "quantifier": "every pair of byte sequences", "why_tests_cant": "unbounded pairs of inputs", "anchors": ["src/emv/tlv_parsing/ber_tlv.rs:parse"]}
{"id": "C14", "title": "Truncated BER-TLV data is always detected", "statement": "Cutting a block of BER-TLV objects anywhere strictly inside an object makes the parser fail; no truncation in the middle of an object is ever accepted as a shorter block.", "quantifier": "every block of objects and every cut point", "why_tests_cant": "every length and every cut", "anchors": ["src/emv/tlv_parsing/ber_tlv.rs:parse"]}
{"id": "C15", "title": "BER-TLV failures are classified", "statement": "A failing parse reports only NonCompliant or Unsupported; Unsupported is reported exactly when, after a (possibly empty) accepted sequence of objects, there is a complete tag followed by a length byte announcing more than four length bytes.", "quantifier": "every byte sequence", "why_tests_cant": "unbounded", "anchors": ["src/emv/tlv_parsing/ber_tlv.rs:parse"]}
{"id": "C16", "title": "The BER-TLV parser terminates and never panics on 64-bit targets", "statement": "For every input a Rust slice can hold, parsing (including all nested parsing) ends with a block or an error: no index or slice is out of bounds, no arithmetic overflows, whether or not overflow checks are compiled in. (On a 32-bit target this is false: a 4-byte length close to 2^32 makes it panic.)", "quantifier": "every byte sequence of length below 2^63, both build modes", "why_tests_cant": "absence of panics over all inputs; the project already fixed one such panic (CHANGELOG 0.4.0)", "anchors": ["src/emv/tlv_parsing/ber_tlv.rs:parse", "src/util.rs:byte_slice_to_u32"]}
{"id": "C17", "title": "Nested parsing is faithful and isolated", "statement": "The children of a constructed object are exactly what parsing its value on its own gives, or none if that fails; primitive and masked objects have none; a malformed nested value never makes the enclosing block fail nor changes its siblings.", "quantifier": "every input, every depth", "why_tests_cant": "recursion to any depth", "anchors": ["src/emv/tlv_parsing/ber_tlv.rs:get_child_block", "src/emv/tlv_parsing/ber_tlv.rs:parse"]}
{"id": "C18", "title": "Nesting depth and size are bounded by the input", "statement": "The number of objects at all levels together, and hence the nesting depth, is at most half the input length, and each nested value is at least two bytes shorter than the value around it; conversely every depth below 2^29 does occur, so recursion depth is not bounded by a small constant. On n bytes, accepted or not, at most n / 2 + 1 calls of the parser are open at a time, and at least as many as the result has levels. The tags and values kept, at all levels together, are at most n bytes per level, which can be quadratic in n.", "quantifier": "every input", "why_tests_cant": "resource bounds are statements over all inputs", "anchors": ["src/emv/tlv_parsing/ber_tlv.rs:parse"]}
{"id": "C19", "title": "Tag class and object type follow the first tag byte", "statement": "For every parsed or identified tag, the class is Universal/Application/Context-Specific/Private according to the top two bits of its first byte and the type is Constructed exactly when bit 6 is set; the conversion never panics.", "quantifier": "every first tag byte and every parser", "why_tests_cant": "the infallibility of the narrowing is a claim over all 256 bytes through all parsers", "anchors": ["src/emv/tlv_parsing/ber_tlv.rs:parse_tag_metadata", "src/emv/tag_basic_info.rs:TagBasicInfo::try_from"]}
{"id": "C20", "title": "Zero-length objects are accepted whatever their length form", "statement": "A block is accepted or rejected independently of whether a zero length is written in short form (00) or long form (81 00). FALSE of the code: a long-form zero length at the very end of a block is rejected although the same object followed by anything well-formed, or in short form, is accepted.", "quantifier": "every block with zero-length objects", "why_tests_cant": "the failing position is only the last object", "anchors": ["src/emv/tlv_parsing/ber_tlv.rs:parse"]}
{"id": "C21", "title": "The Ingenico parser accepts exactly the Ingenico record language", "statement": "Parsing succeeds if and only if the text is ASCII and is a sequence of records 'type tag-hex : length-hex : a|h value' each followed by one arbitrary separator character (optional after the last), with at least one full byte of tag, at most four bytes of length, and a value of exactly length characters (a) or 2*length characters (h) that is hex digits or wholly masked; the result lists the type-T records in order.", "quantifier": "every string and every set of masking characters", "why_tests_cant": "unbounded strings; every field boundary", "anchors": ["src/emv/tlv_parsing/ingenico_tlv.rs:parse"]}
{"id": "C22", "title": "Ingenico encode/parse round-trip", "statement": "Writing any list of data objects as Ingenico hex or ASCII records, with any one-character separators, and parsing the text gives back the same tags and values in the same order.", "quantifier": "every list of records", "why_tests_cant": "unbounded", "anchors": ["src/emv/tlv_parsing/ingenico_tlv.rs:parse"]}
{"id": "C23", "title": "The Ingenico field separator is immaterial", "statement": "Replacing each separator between records by any other ASCII character, and adding or removing one after the last record, does not change the result.", "quantifier": "every record list and every choice of separators", "why_tests_cant": "the documentation promises it for any character", "anchors": ["src/emv/tlv_parsing/ingenico_tlv.rs:parse"]}
{"id": "C24", "title": "Non-EMV Ingenico records are skipped without side effects", "statement": "Removing the records whose type is not 'T' (with their separators) from accepted text leaves the result unchanged.", "quantifier": "every accepted record list", "why_tests_cant": "all record contents", "anchors": ["src/emv/tlv_parsing/ingenico_tlv.rs:parse"]}
{"id": "C25", "title": "Ingenico hex fields are case-insensitive and tag padding is ignored", "statement": "Changing the letter case of hex digits in tag, length or hex value, or adding leading 00 bytes to a tag, does not change the result, as long as no masking character is a hex letter (with the masking character F, the value FF is masked and ff is not).", "quantifier": "every record list", "why_tests_cant": "unbounded", "anchors": ["src/emv/tlv_parsing/ingenico_tlv.rs:parse", "src/util.rs:trim_leading_0_bytes"]}
{"id": "C26", "title": "The Ingenico parser terminates and never panics on 64-bit targets", "statement": "For every string a Rust program can hold, parsing ends with a block or an error without out-of-bounds or non-boundary slicing and without overflow, in both build modes. (False on 32-bit targets: length*2 overflows.)", "quantifier": "every string of fewer than 2^63 bytes", "why_tests_cant": "absence of panics over all inputs", "anchors": ["src/emv/tlv_parsing/ingenico_tlv.rs:parse"]}
{"id": "C27", "title": "An Ingenico length field is read at its full numeric value", "statement": "The length used for a record is the number its hex digits denote. FALSE of the code for an odd number of digits: the last digit is silently dropped, so '8' is read as 0 and '108' as 0x10. True whenever the number of digits is even.", "quantifier": "every length field", "why_tests_cant": "depends on digit parity of unbounded fields", "anchors": ["src/emv/tlv_parsing/ingenico_tlv.rs:parse", "src/util.rs:parse_hex_str_strict"]}
{"id": "C28", "title": "Ingenico failures are classified", "statement": "A failing parse reports only NonCompliant or Unsupported; every text containing a non-ASCII character is NonCompliant; Unsupported occurs only for a length field of more than four bytes.", "quantifier": "every string", "why_tests_cant": "unbounded", "anchors": ["src/emv/tlv_parsing/ingenico_tlv.rs:parse"]}
{"id": "C29", "title": "Automatic format detection agrees with the individual parsers", "statement": "auto parse returns (Ingenico, b) exactly when the text is non-empty and the Ingenico parser accepts it with b; otherwise (BER-TLV, b) exactly when the BER-TLV parser accepts the leniently decoded text with b; otherwise Unrecognised. It never reports any other error.", "quantifier": "every string and masking set", "why_tests_cant": "unbounded", "anchors": ["src/emv/tlv_parsing/auto_tlv.rs:parse"]}
{"id": "C30", "title": "Text without a colon is never mistaken for Ingenico data", "statement": "For every non-empty text without ':' the automatic parser gives exactly the BER-TLV result (format BER-TLV) or Unrecognised.", "quantifier": "every colon-free string", "why_tests_cant": "unbounded", "anchors": ["src/emv/tlv_parsing/auto_tlv.rs:parse", "src/emv/tlv_parsing/ingenico_tlv.rs:parse"]}
{"id": "C31", "title": "Unrecognisable text is rejected by automatic detection", "statement": "Text that contains no TLV data at all is reported as Unrecognised. FALSE of the code beyond the empty string: any text with fewer than two hex digits that is not Ingenico data (for example 'zz') is accepted as an empty BER-TLV block, although the code rejects empty input explicitly 'because it'll match to anything'.", "quantifier": "every string", "why_tests_cant": "the guard tests only the empty string", "anchors": ["src/emv/tlv_parsing/auto_tlv.rs:parse"]}
{"id": "C32", "title": "Processing never alters the parsed data", "statement": "Annotating a block keeps every raw tag, value, class and type, the order of objects, and the nesting: erasing the annotations of the result gives back the input block.", "quantifier": "every block on which processing succeeds", "why_tests_cant": "all trees", "anchors": ["src/emv/tlv_parsing/process_emv_tag.rs:process_emv_tag", "src/emv/tlv_parsing/mod.rs:ProcessedEmvBlock::try_from"]}
{"id": "C33", "title": "Names shown are those of tag identification", "statement": "A processed tag carries a name if and only if identify_tag knows the tag, and the name is the identified one, except for the three documented 'unrecognised value' variants of 0x8A, 0x9C and 0x9F10.", "quantifier": "every tag and value", "why_tests_cant": "unbounded tags", "anchors": ["src/emv/tlv_parsing/process_emv_tag.rs:identify_tag", "src/emv/tlv_parsing/process_emv_tag.rs:process_emv_tag"]}
{"id": "C34", "title": "Processing succeeds exactly when every unmasked value is acceptable, and reports the first failure", "statement": "Processing a block fails if and only if some tag at some depth has an unmasked value its parser rejects with a non-tolerated error, and the reported error is the one of the first such tag in document order (a parent before its children).", "quantifier": "every block", "why_tests_cant": "trees of any shape", "anchors": ["src/emv/tlv_parsing/mod.rs:ProcessedEmvBlock::try_from", "src/emv/tlv_parsing/mod.rs:ProcessedEmvNode::try_from"]}
{"id": "C35", "title": "Exactly which values of known tags are acceptable", "statement": "For each parseable tag the acceptable values are: 5F30 two BCD bytes up to 0999; 8A two bytes of valid UTF-8; 8E at least 8 and an even number of bytes; 95, 9F0D, 9F0E, 9F0F, 9F40 five bytes; 9B two; 9F33 three; 9C one; 9F10 anything; 9F34 three bytes with the last at most 2; 9F35 and 9F39 one byte from their code tables. Every other tag accepts anything.", "quantifier": "every tag and every value", "why_tests_cant": "unbounded values for every tag", "anchors": ["src/emv/tlv_parsing/process_emv_tag.rs:process_emv_tag"]}
{"id": "C36", "title": "An unrecognised code in one tag does not abort the whole block", "statement": "A value whose only fault is an unrecognised code is annotated instead of failing the block. True of 8A, 9C and 9F10; FALSE of the code for 9F35 (Terminal Type) and 9F39 (POS Entry Mode), where an unlisted code makes the whole block fail.", "quantifier": "every tag with an open code table", "why_tests_cant": "depends on each tag's wiring", "anchors": ["src/emv/tlv_parsing/process_emv_tag.rs:process_emv_tag", "src/emv/terminal_type.rs", "src/emv/pos_entry_mode.rs"]}
{"id": "C37", "title": "Tag identification is consistent", "statement": "identify (TagBasicInfo) succeeds for every non-empty tag and fails with the byte-count error only for the empty one; name, class and type agree with what the TLV parsers report for the same tag; every tag with a known name is a well-formed BER-TLV tag, and different known tags have different names.", "quantifier": "every byte string", "why_tests_cant": "all tags", "anchors": ["src/emv/tag_basic_info.rs:TagBasicInfo::try_from", "src/emv/tlv_parsing/process_emv_tag.rs:identify_tag"]}
{"id": "C38", "title": "Sorting orders every level and keeps everything", "statement": "After sort_nodes, at every level the tags are in ascending byte-lexicographic order, the objects are a permutation of those before, objects with equal tags keep their relative order, and each object keeps its own (sorted) children; sorting twice equals sorting once.", "quantifier": "every block of any depth", "why_tests_cant": "all permutations and depths", "anchors": ["src/emv/tlv_parsing/mod.rs:ProcessedEmvBlock::sort_nodes"]}
{"id": "C39", "title": "Sorted output does not depend on the sorting algorithm or on input order of distinct tags", "statement": "Any stable sort of a level gives the same result, and two blocks whose levels are rearrangements of each other with all tags distinct at each level sort to the same block.", "quantifier": "every block", "why_tests_cant": "all permutations", "anchors": ["src/emv/tlv_parsing/mod.rs:ProcessedEmvBlock::sort_nodes"]}
{"id": "C40", "title": "Bitflag values require exactly their byte count", "statement": "Each bitflag value (TVR, TSI, CVR, CCI, Terminal Capabilities, Additional Terminal Capabilities, CV Rule, CVM Results) rejects any input of another length with ByteCountIncorrect carrying the expected and the found count; those built only of flags and numbers accept every input of the right length.", "quantifier": "every byte sequence", "why_tests_cant": "all lengths and all values", "anchors": ["src/macros.rs:bitflag_value", "src/emv/tvr.rs", "src/emv/cvm_results.rs"]}
{"id": "C41", "title": "Reserved bits are ignored", "statement": "Changing bits outside the used mask of a bitflag value never changes the parsed value or the error.", "quantifier": "every input of the right length", "why_tests_cant": "2^40 inputs", "anchors": ["src/macros.rs:bitflag_value"]}
{"id": "C42", "title": "Bitflag values round-trip on their used bits", "statement": "For TVR, TSI, CVR, CCI, Terminal Capabilities and Additional Terminal Capabilities, the binary representation of a parsed value is the input with the unused bits cleared; hence two inputs parse to the same value if and only if they agree on the used bits.", "quantifier": "every accepted input", "why_tests_cant": "2^40 inputs", "anchors": ["src/macros.rs:bitflag_value", "src/emv/bitflag_values.rs:get_binary_representation"]}
{"id": "C43", "title": "The bits displayed for CVM data are the bits received", "statement": "The binary representation of a parsed CV Rule / CVM Results value equals the used bits of the input. FALSE of the code for method or condition codes outside the code tables: they are displayed as all-zero bits. True whenever method and condition are listed codes.", "quantifier": "every CV rule and CVM result", "why_tests_cant": "all codes", "anchors": ["src/emv/cv_rule/cv_method.rs:From<OptionalCvMethod> for u8", "src/emv/cvm_results.rs"]}
{"id": "C44", "title": "Each flag means its EMV bit", "statement": "Each named flag or number of a bitflag value is determined exactly by the EMV-numbered byte/bits of the input it is specified at, and by nothing else.", "quantifier": "every input of the right length, every field", "why_tests_cant": "2^40 inputs for each of about 100 fields", "anchors": ["src/emv/tvr.rs", "src/emv/tsi.rs", "src/emv/ccd/cvr.rs", "src/emv/terminal_capabilities.rs", "src/emv/additional_terminal_capabilities.rs"]}
{"id": "C45", "title": "Breakdown ranges are well formed", "statement": "The bit ranges of a breakdown are listed left to right, are disjoint, lie inside the value, cover exactly the field's bits, and a flag is listed exactly when its bit is set while multi-bit fields are always listed.", "quantifier": "every value of every bitflag type", "why_tests_cant": "all 2^n values", "anchors": ["src/macros.rs:@display_field_bits", "src/emv/bitflag_values.rs:get_bit_display_information"]}
{"id": "C46", "title": "The breakdown drawing is aligned", "statement": "In the drawn breakdown every arm, header glyph and vertical line stands in the text column of the bit it belongs to, and nothing else is drawn in the leading part of a line; no arithmetic overflows or underflows while drawing.", "quantifier": "every value of every bitflag type, every indentation", "why_tests_cant": "column arithmetic over all subsets of set bits", "anchors": ["src/emv/bitflag_values.rs:display_breakdown"]}
{"id": "C47", "title": "Code tables are unambiguous and round-trip", "statement": "In every code table each code selects at most one variant, different codes of a one-code-per-variant table select different variants with different texts, and converting a variant back to its code and again gives the variant.", "quantifier": "every code of every table", "why_tests_cant": "255 codes per table and all tables", "anchors": ["src/macros.rs:enum_repr_fallible", "src/macros.rs:enum_no_repr_fallible"]}
{"id": "C48", "title": "Service codes are read digit by digit and agree across entry points", "statement": "A two-byte BCD service code is accepted exactly when all four nibbles are decimal and the value is at most 999; it equals parsing the same number as text; each of the three digits alone determines its meanings as in the table of ISO/IEC 7813 (references/ServiceCodeChart.jpg), and a digit is shown as RFU exactly if that table has nothing for it.", "quantifier": "every u16, every byte string, every text", "why_tests_cant": "65536 numbers and unbounded texts", "anchors": ["src/non_emv/service_code.rs"]}
{"id": "C49", "title": "A CVM List is its two amounts and its rules in order", "statement": "Parsing succeeds exactly for inputs of at least 8 bytes and even length; X and Y are the big-endian values of bytes 1-4 and 5-8, and the rules are the consecutive byte pairs in order; shorter or odd inputs give the documented errors.", "quantifier": "every byte sequence", "why_tests_cant": "unbounded rule lists", "anchors": ["src/emv/cvm_list.rs"]}
{"id": "C50", "title": "CVM Results parsing", "statement": "CVM Results succeed exactly for three bytes with the last one at most 2; the rule part equals parsing the first two bytes as a CV rule, and the breakdown of the rule part is shown eight bits further left.", "quantifier": "every byte sequence", "why_tests_cant": "2^24 values", "anchors": ["src/emv/cvm_results.rs"]}
{"id": "C51", "title": "CCD Issuer Application Data is sliced exactly", "statement": "IAD parsing succeeds exactly for 32 bytes with bytes 1 and 17 equal to 0F, format nibble A and cryptogram version 5 or 6; key index, CVR, counters and discretionary data are the corresponding slices; every other input gives NonCcdCompliant and nothing panics.", "quantifier": "every byte sequence", "why_tests_cant": "2^256 values and all lengths", "anchors": ["src/emv/ccd/iad.rs", "src/emv/ccd/cci.rs"]}
{"id": "C52", "title": "Issuer Action Codes mean the TVR bits; defaults are the EMV defaults", "statement": "An IAC of each kind accepts exactly what a TVR accepts and holds exactly the TVR; the default Denial code has no flag set, the default Default and Online codes have every flag set, and building them never panics.", "quantifier": "every byte sequence", "why_tests_cant": "all values", "anchors": ["src/emv/iac/default.rs", "src/emv/iac/denial.rs", "src/emv/iac/online.rs"]}
{"id": "C53", "title": "Hex dumps are lossless and aligned", "statement": "A dump shows at most 16 bytes per line, the hex digits of all lines read in order give back the bytes, every line but the last is full, and in the pretty dump the text column starts at the same position on every line.", "quantifier": "every byte sequence and indentation", "why_tests_cant": "unbounded", "anchors": ["src/util.rs:print_bytes", "src/util.rs:print_bytes_pretty", "src/util.rs:print_bytes_small"]}
{"id": "C54", "title": "No input can inject control characters into the terminal", "statement": "All text written to standard output for any input consists of printable ASCII, tabs, newlines and a fixed set of box-drawing characters; card data is only ever shown as hex digits and printable ASCII.", "quantifier": "every option, input text and configuration", "why_tests_cant": "security property over all inputs", "anchors": ["src/main.rs:main", "src/util.rs:print_bytes_pretty"]}
{"id": "C55", "title": "Indentation reflects nesting depth", "statement": "A tag nested d levels deep is printed with d leading tabs. FALSE of the code from depth 256 on: the 8-bit indentation overflows (panic with overflow checks, restart at 0 without). True for all blocks nested at most 254 levels deep, for which display never panics.", "quantifier": "every block", "why_tests_cant": "needs deep nesting tests do not build", "anchors": ["src/emv/tlv_parsing/mod.rs:ProcessedEmvNode::display_breakdown", "src/util.rs:print_indentation"]}
{"id": "C56", "title": "CVM List amounts are shown when they matter", "statement": "The X and Y amounts are printed if and only if one of them is non-zero or some rule's condition refers to X or Y; both are then written with as many digits as the longer one needs, but at least three.", "quantifier": "every CVM list", "why_tests_cant": "unbounded rule lists", "anchors": ["src/emv/cvm_list.rs:display_breakdown", "src/emv/cv_rule/cvm_condition.rs:references_x_or_y_value"]}
{"id": "C57", "title": "Errors and results are never mixed", "statement": "A run either writes a breakdown to standard output and nothing to standard error, or writes exactly one error message to standard error and nothing to standard output; in particular the detected-format line is only printed for blocks that are displayed.", "quantifier": "every option and input", "why_tests_cant": "all inputs of all options", "anchors": ["src/main.rs:main"]}
{"id": "C58", "title": "One option, one operation", "statement": "The output depends only on the first selected operation in a fixed order; options for other operations have no influence, and each operation shows exactly the breakdown of the value its parser returns.", "quantifier": "every combination of options", "why_tests_cant": "all combinations", "anchors": ["src/main.rs:main"]}
{"id": "C59", "title": "Hex options depend only on the hex digits", "statement": "For all options taking hex, two inputs with the same sequence of hex digits up to case give the same output, so spaces, separators and case are immaterial.", "quantifier": "every pair of such inputs", "why_tests_cant": "unbounded", "anchors": ["src/main.rs:main", "src/util.rs:parse_hex_str"]}
{"id": "C60", "title": "Configuration precedence", "statement": "Each setting takes its value from the command line if given there by the user, otherwise from the environment, otherwise from the configuration file (section 'global', then the selected profile, then 'default'), otherwise the built-in default; default values of command-line options never override anything.", "quantifier": "every combination of sources and profiles", "why_tests_cant": "all combinations of layers", "anchors": ["src/config/mod.rs:figment", "src/config/mod.rs:apply_cli_arguments"]}
{"id": "C61", "title": "Sort preference resolution", "statement": "--no-sort-parsed-tags given by the user decides (negated); otherwise --sort-parsed-tags given by the user decides; otherwise the configuration does; tags are sorted in the output exactly when the result is true.", "quantifier": "every combination of options and settings", "why_tests_cant": "all combinations", "anchors": ["src/config/mod.rs:apply_cli_arguments", "src/main.rs:main"]}
{"id": "C62", "title": "Colour choice conversions", "statement": "Every colour choice survives conversion to text and back and to the terminal library's type and back; parsing ignores letter case and accepts exactly the four names; only 'auto' is affected by whether output is a terminal.", "quantifier": "every string and choice", "why_tests_cant": "unbounded strings", "anchors": ["src/config/colour_choice.rs"]}
{"id": "C63", "title": "Single-code values mean their published codes", "statement": "Transaction type (9C), terminal type (9F35), POS entry mode (9F39) and authorisation response code (8A) are accepted exactly for one (two) byte(s) and the parsed value is the meaning published for that code; a wrong number of bytes is a byte-count error and an unassigned code an 'unrecognised' error.", "quantifier": "every byte string", "why_tests_cant": "every code of every table, including unassigned ones", "anchors": ["src/emv/transaction_type.rs", "src/emv/terminal_type.rs", "src/emv/pos_entry_mode.rs", "src/emv/authorisation_response_code.rs"]}
{"id": "C64", "title": "Every tag is decoded as the data element it stands for", "statement": "An accepted unmasked value of a tag with a decoder is shown as exactly what that data element's own decoder returns; a decoded value is only ever shown for those tags and never for masked data.", "quantifier": "every tag and every value", "why_tests_cant": "every tag, value and decoder at once", "anchors": ["src/emv/tlv_parsing/process_emv_tag.rs:process_emv_tag"]}
{"id": "C65", "title": "Tag names are those of the EMV data element dictionary", "statement": "A tag is given a name if and only if it is one of the 121 tags of the dictionary, and the name is the dictionary's.", "quantifier": "every byte string", "why_tests_cant": "all tags, including all unknown ones", "anchors": ["src/emv/tlv_parsing/process_emv_tag.rs:identify_tag", "src/emv/tag_basic_info.rs"]}
{"id": "C66", "title": "Severity colours", "statement": "When severity colours are requested each explanation is shown in the colour of its severity (normal: none, warning: yellow, error: red) and nothing else is yellow or red; inside issuer action codes, and when they are not requested, no explanation is coloured.", "quantifier": "every bit value, every set of set bits and both settings", "why_tests_cant": "all combinations of bits", "anchors": ["src/emv/bitflag_values.rs:display_breakdown", "src/emv/iac/default.rs:display_breakdown"]}
{"id": "C67", "title": "Explanation texts", "statement": "The text and severity shown for a set bit or bit field is that of its row in the published table; numbers are shown in decimal, codes by their published meaning and unlisted codes by the text for unlisted ones.", "quantifier": "every bit-mapped value", "why_tests_cant": "every bit of every value", "anchors": ["src/emv/bitflag_values.rs", "src/macros.rs:bitflag_value", "src/emv/cvm_results.rs:get_bit_display_information"]}
{"id": "C68", "title": "Terminal colours are always restored", "statement": "Every run that ends without a panic leaves the terminal in its default style, whatever it printed.", "quantifier": "every option, input and setting", "why_tests_cant": "all documents", "anchors": ["src/main.rs:main", "src/output_colours.rs"]}
{"id": "C69", "title": "Option names are unambiguous", "statement": "Every name (letter, long name or alias) an option can be given under belongs to exactly one option, and the names are exactly the documented ones; in particular --95, --9F10, --9B, --9F34, --8E and --5F30 (either case) are names of the option for that tag.", "quantifier": "every pair of options and every possible name", "why_tests_cant": "clap only checks for collisions in debug builds, and a misplaced alias is silently accepted", "anchors": ["src/cli.rs:build_cli"]}
{"id": "C70", "title": "Command lines", "statement": "A command line whose options are all understood and that asks for at most one operation, colour choice and word about sorting (and gives masking and sorting options only with a block operation) runs that operation with the settings in force: those given on the command line first, then the configured ones; any other combination is rejected before anything runs. Reading stops at the first option that is not understood, asks for help or asks for the version. Given well-typed configuration, no command line makes the program panic before the operation starts.", "quantifier": "every sequence of options and values, every configuration and environment", "why_tests_cant": "unbounded sequences of options in any order; looking up an option under a wrong name or type is a run-time panic", "anchors": ["src/cli.rs:build_cli", "src/config/mod.rs:apply_cli_arguments", "src/main.rs:main"]}
{"id": "C71", "title": "Options named after a tag show that tag", "statement": "An option whose name is a tag in hex (--95, --9F34, ...) prints for its value exactly the breakdown that a block containing an object with that tag and value would show, and reports an error when the value is not acceptable for that tag.", "quantifier": "every such option name, every non-empty value and every configuration", "why_tests_cant": "every value of every tag, through two different code paths", "anchors": ["src/cli.rs:build_cli", "src/main.rs:main", "src/emv/tlv_parsing/process_emv_tag.rs:process_emv_tag"]}
{"id": "C72", "title": "Declared defaults are the effective ones", "statement": "The default values declared for options (and hence shown in the help text) are the values in force when nothing is configured: giving them explicitly changes nothing.", "quantifier": "every block operation and every input", "why_tests_cant": "the declared and the effective default live in different files", "anchors": ["src/cli.rs:build_cli", "src/config/mod.rs:Config"]}
{"id": "C73", "title": "The format does not matter, the data does", "statement": "The same nested data objects give the same output whether they are given as BER-TLV hex or as Ingenico records, each value in hex or ASCII and with any separators; and automatic detection does what the option for the format found does, errors and panics included, after the two lines telling the format; the Ingenico format is tried first, and a text in neither format is reported as unrecognised.", "quantifier": "every tree of data objects, every choice of encoding and separator per object, every non-hex set of masking characters", "why_tests_cant": "relates two parsers over unbounded trees", "anchors": ["src/main.rs:main", "src/emv/tlv_parsing/ber_tlv.rs:parse", "src/emv/tlv_parsing/ingenico_tlv.rs:parse", "src/emv/tlv_parsing/auto_tlv.rs:parse"]}
{"id": "C74", "title": "What is shown can be read back", "statement": "If two runs show the same text (ignoring colours) then they show the same data objects: same tags, same values byte for byte, same nesting and order. No two different blocks, nested at most 254 levels deep, look alike, whatever their names and decoded values contain.", "quantifier": "every pair of blocks, formats, masking settings and machines", "why_tests_cant": "injectivity: a statement about all pairs of unbounded trees", "anchors": ["src/emv/tlv_parsing/mod.rs:ProcessedEmvBlock::display_breakdown", "src/util.rs:print_bytes_pretty"]}
{"id": "C75", "title": "Concatenation", "statement": "Without sorting, the output for two BER-TLV texts one after the other is the output for the first, an empty line and the output for the second; and if the first is fine and the second is in error, that error is the one reported for both together.", "quantifier": "every pair of texts", "why_tests_cant": "unbounded pairs", "anchors": ["src/main.rs:main", "src/emv/tlv_parsing/ber_tlv.rs:parse", "src/emv/tlv_parsing/mod.rs:ProcessedEmvBlock::display_breakdown"]}
{"id": "C76", "title": "Error messages are distinct", "statement": "Two different errors never have the same message; in particular the expected and actual numbers of bytes can be read off the message.", "quantifier": "every pair of errors, with all numbers", "why_tests_cant": "unbounded numbers", "anchors": ["src/error.rs:ParseError"]}
{"id": "C77", "title": "Order of options and of masking characters is immaterial", "statement": "Any reordering of understood options gives the same execution, and a run depends only on which masking characters are given, not on their order or repetition.", "quantifier": "every list of options and every permutation of it, every configuration", "why_tests_cant": "all permutations of unbounded lists", "anchors": ["src/cli.rs:build_cli", "src/config/mod.rs:apply_cli_arguments", "src/main.rs:main"]}
{"id": "C78", "title": "Masking characters only hide", "statement": "What is read with masking characters is what is read without them, except that masked values and everything nested inside them are removed; masking characters never make a readable BER-TLV input unreadable or the other way round, and never add, reorder or change anything.", "quantifier": "every input and every set of masking characters", "why_tests_cant": "relates the parses of all inputs under all settings", "anchors": ["src/emv/tlv_parsing/mod.rs:is_masked_u8", "src/emv/tlv_parsing/ber_tlv.rs:parse", "src/emv/tlv_parsing/ingenico_tlv.rs:parse"]}
{"id": "C79", "title": "Two values look alike exactly when they mean the same", "statement": "Two values given to the same single-value option (TVR, TSI, CCD CVR, CCD IAD, CVM results, CVM list, tag identification, service code), both of which are shown, give the same text exactly when they have the same meaning: the same bits in every item of the published table (unused bits do not count), the same listed codes (unlisted ones are not told apart), the same amounts, rules, counters and digits. Values of the same meaning are shown identically, colours included.", "quantifier": "every pair of accepted values of each kind, every machine and other setting", "why_tests_cant": "injectivity up to meaning: a statement about all pairs of values", "anchors": ["src/emv/bitflag_values.rs:display_breakdown", "src/emv/cvm_list.rs:display_breakdown", "src/emv/ccd/iad.rs:display_breakdown", "src/emv/tag_basic_info.rs:display_breakdown", "src/non_emv/service_code.rs:display_breakdown", "src/main.rs:main"]}
{"id": "C80", "title": "No value can break or forge a line", "statement": "Standard output is a sequence of complete lines, each made of tabs, text without tabs and one line break; nothing in the input can put a tab or a line break anywhere else. The lines that look as if they introduced a tag are exactly those of the tags of the block, at their levels: no value, however chosen, makes a tag appear that is not there.", "quantifier": "every option, argument, masking setting and machine, including runs that panic", "why_tests_cant": "all inputs, adversarial ones included", "anchors": ["src/emv/tlv_parsing/mod.rs:ProcessedEmvBlock::display_breakdown", "src/util.rs:print_bytes_pretty", "src/main.rs:main"]}
{"id": "C81", "title": "The output is bounded by the input", "statement": "The number of lines written is at most four times the square of the number of characters of the argument, plus six; for options on a single value it is linear, and for blocks it is linear for every nesting depth. The number of characters is bounded in the same way (2021 times the square plus 3030), and no line is longer than 505 characters plus twice the argument. There is no input with an explosive output; but quadratic growth does happen, for nested templates.", "quantifier": "every option, argument, masking setting and machine, including runs that panic", "why_tests_cant": "an asymptotic bound over all inputs", "anchors": ["src/emv/tlv_parsing/mod.rs:ProcessedEmvBlock::display_breakdown", "src/emv/tlv_parsing/ber_tlv.rs:parse", "src/emv/tlv_parsing/ingenico_tlv.rs:parse", "src/main.rs:main"]}
{"id": "C82", "title": "What arrives at the terminal", "statement": "A terminal that interprets the escape sequences of a coloured run shows exactly the specified characters in the specified styles and is left in its default style; removing the escape sequences gives exactly the uncoloured output, even for runs that panic. Colours are used exactly if the value in force says always or ansi, or says auto and the output is a terminal with TERM set and not dumb and NO_COLOR unset; otherwise there is not a single escape character, whatever the input.", "quantifier": "every option, input, configuration and environment", "why_tests_cant": "relates two streams for all inputs", "anchors": ["src/main.rs:main", "src/config/colour_choice.rs:change_based_on_tty", "src/output_colours.rs"]}
{"id": "C83", "title": "All builds agree", "statement": "Two builds of the program (any width of usize that has room for the argument, with or without overflow checks) in which a run does not panic do exactly the same: same characters, same colours, same message. A build without overflow checks never panics; one that panics because of them has shown a beginning of what the other shows, and only for blocks nested more than 254 levels deep. For arguments of fewer than 510 characters all 64-bit builds agree.", "quantifier": "every pair of targets and build modes, every option, argument and setting", "why_tests_cant": "tests run in one build", "anchors": ["src/main.rs:main", "src/emv/tlv_parsing/mod.rs:display_breakdown", "src/emv/tlv_parsing/ber_tlv.rs:parse", "src/emv/tlv_parsing/ingenico_tlv.rs:parse"]}
{"id": "C84", "title": "A template is shown as what it contains", "statement": "If the inside of a constructed data object can be shown by itself as BER-TLV, the object is shown as its tag line, its bytes and, one level deeper, exactly what is shown for the inside alone; if the inside cannot be read as BER-TLV, the object is shown as its tag line and bytes; and if the inside holds a value that is not understood, the whole is rejected with the message for that value.", "quantifier": "every constructed tag, length encoding and content, every masking and sorting setting", "why_tests_cant": "compositionality over unbounded contents", "anchors": ["src/emv/tlv_parsing/ber_tlv.rs:parse", "src/emv/tlv_parsing/mod.rs:display_breakdown", "src/emv/tlv_parsing/mod.rs:ProcessedEmvBlock"]}
{"id": "C85", "title": "Equality and order of processed data", "statement": "Equality of processed blocks is an equivalence relation; results of processing are equal exactly when the parsed blocks are, and then agree in every name and decoded value too. Objects are ordered by the byte-lexicographic order of their tags: the order is total, transitive, and ties exactly the objects with the same tag, so that equal objects are tied but tied objects need not be equal. Sorting goes by this order.", "quantifier": "every pair and triple of blocks and objects", "why_tests_cant": "relational laws over all values", "anchors": ["src/emv/tlv_parsing/mod.rs:ProcessedEmvTag", "src/emv/tlv_parsing/mod.rs:ProcessedEmvNode", "src/emv/tlv_parsing/mod.rs:RawEmvTag"]}
{"id": "C86", "title": "The build script", "statement": "A debug build generates nothing. A release build writes the man page and then the completion scripts for Bash, Elvish, Fish, PowerShell and Zsh, all for the options of the program, each kind only if its directory is given (by the environment or else by a .env file), otherwise naming the variable to set; it stops at the first failure and fails exactly if there is one.", "quantifier": "every environment and every behaviour of the file system and the generators", "why_tests_cant": "depends on failures of the environment", "anchors": ["build.rs:main", "build.rs:generate_man_page", "build.rs:generate_shell_completions"]}
{"id": "C87", "title": "Options given without a value", "statement": "An option declared to mean something without a value means exactly that, in every command line: the options about sorting without a value are the same as with true. FALSE for --colour: always is declared as its meaning without a value, but without a value it is rejected.", "quantifier": "every option with a declared missing value, under every name, in every command line", "why_tests_cant": "every context of other options", "anchors": ["src/cli.rs:build_cli"]}
{"id": "C88", "title": "The way options are written is immaterial", "statement": "Values can be given as --name value, --name=value, -c value, -cvalue and -c=value, and the program does the same; attached with an equals sign, every value arrives unchanged, whatever characters it contains. Nothing else is carried out: a name that does not exist, an argument that belongs to no option, anything after --, and a separate value that begins with a hyphen and goes on are rejected, whatever follows; help and version are obeyed when they are reached, whatever follows.", "quantifier": "every list of arguments and every configuration", "why_tests_cant": "unbounded lists of arbitrary texts", "anchors": ["src/cli.rs:build_cli", "src/main.rs:main"]}
{"id": "C89", "title": "Where the settings come from", "statement": "The configuration file is the one PEMV_CONFIG names, otherwise pemv.toml, looked for in the working directory and then in the directories above it; without a file there are no file settings; a file that is not understood is a panic once the command line is accepted. The profile is the one PEMV_PROFILE names, in any case of letters, otherwise default. The settings of the environment are in PEMV_CLI_COLOUR, PEMV_MASKING_CHARACTERS and PEMV_SORT_PARSED_TAGS. Only these five variables count, in any case of letters and any order. Altogether a setting is that of the command line, else of its variable, else of the file (global, profile, default), else the built-in one.", "quantifier": "every list of arguments, environment, working directory and file system", "why_tests_cant": "depends on surroundings that tests do not set up", "anchors": ["src/config/mod.rs:Config::figment", "src/config/mod.rs:apply_cli_arguments", "src/main.rs:main"]}
{"id": "C90", "title": "Every process ends properly", "statement": "On 64-bit targets, whatever its arguments, the program rejects the command line, prints help or version, fails with one documented message or shows a complete document; it does not hang or panic. The only causes of a panic are: a configuration file that is not understood, a setting of the wrong type in a variable or the file, and, in builds with overflow checks, an argument of at least 510 characters. (Running out of memory or stack is outside the model; C18 bounds the bytes kept and the depth of recursion.)", "quantifier": "every list of arguments, environment, file system and build", "why_tests_cant": "all inputs and surroundings at once", "anchors": ["src/main.rs:main", "src/config/mod.rs:Config::figment", "src/cli.rs:build_cli"]}
{"id": "C91", "title": "The work of the parsers is bounded", "statement": "Reading data in either format, or detecting the format, takes a number of elementary steps (loop iterations, elements copied, scanned or moved) that is at most quadratic in the size of the input and linear in the number of masking characters, whether the data are well-formed or not and however they are nested: there is no input that makes the program hang. A square is also reached, by deeply nested data. Detection takes exactly the steps of its attempts.", "quantifier": "every input, masking setting and machine with room for the input", "why_tests_cant": "an asymptotic bound over all inputs; a slow input has to be found before it can be tested", "anchors": ["src/emv/tlv_parsing/ber_tlv.rs:parse", "src/emv/tlv_parsing/ingenico_tlv.rs:parse", "src/emv/tlv_parsing/auto_tlv.rs:parse", "src/util.rs:trim_leading_0_bytes"]}
{"id": "C92", "title": "A reader of standard output that goes away", "statement": "If the reader of standard output goes away (as in a pipe to head), what has arrived is exactly the beginning of the output, as many bytes of it as the reader took: buffering loses, repeats and reorders nothing, and no more than the size of the buffer is ever held back. A reader that stays gets everything and the process ends as usual. A run that would end normally panics, with exit status 101, exactly if the reader goes away before the last line break has arrived; it is not ended quietly.", "quantifier": "every run, with and without colours, every size of the buffer, every cutting of texts into pieces, every number of bytes taken", "why_tests_cant": "the moment at which a reader goes away cannot be controlled in a test, let alone all of them", "anchors": ["src/main.rs:main", "src/emv/tlv_parsing/mod.rs:display_breakdown", "src/emv/bitflag_values.rs:display_breakdown", "src/output_colours.rs"]}
{"id": "C93", "title": "What is masked stays hidden", "statement": "Two inputs that differ only in masked values (their length, the masking character, and in Ingenico records the format letter) give exactly the same run: same output, same message. FALSE inside templates: the size and the bytes of a template are shown, masked values in it included, so two templates with different contents never look alike; the lines about the contents are the same, though. FALSE too when the format is detected and the records are followed by something else, since the text is then read as BER-TLV.", "quantifier": "every input in either format or detected, every choice of masked values, every set of masking characters, whatever comes after", "why_tests_cant": "a statement about pairs of runs (non-interference)", "anchors": ["src/emv/tlv_parsing/mod.rs:is_masked_u8", "src/emv/tlv_parsing/mod.rs:is_masked_str", "src/emv/tlv_parsing/ber_tlv.rs:parse", "src/emv/tlv_parsing/ingenico_tlv.rs:parse", "src/main.rs:main"]}
{"id": "C94", "title": "The exit status", "statement": "The exit status is 0 exactly if what was asked for was shown (a document, the help text or the version), 2 if the command line is wrong or empty, 101 for a panic. FALSE: a run that fails because of the data, with a message on standard error and nothing on standard output, always exits with 0, like success.", "quantifier": "every list of arguments, environment, file system and build", "why_tests_cant": "a statement about every way to end", "anchors": ["src/main.rs:main", "src/cli.rs:build_cli"]}
{"id": "C95", "title": "Sorting only rearranges", "statement": "With and without sorting the program reports the same errors and writes the same lines, each as often and with the same indentation, only in another order. With sorting, the order in which data objects are given does not matter, as long as objects with the same tag keep theirs: for data that are understood the run is exactly the same, and data that are not understood are rejected in every order (with the message for the first value not understood). Data in the order of tags at every level are shown alike with and without sorting.", "quantifier": "every option, argument and masking setting; every two inputs in either format that are rearrangements of each other", "why_tests_cant": "a statement about pairs of runs and all permutations", "anchors": ["src/emv/tlv_parsing/mod.rs:ProcessedEmvBlock::sort", "src/emv/tlv_parsing/mod.rs:display_breakdown", "src/main.rs:main"]}
{"id": "C96", "title": "Objects are shown independently of each other", "statement": "If the value of a data object is changed, nothing else in the output changes, with and without sorting: neither the lines of the other objects nor their places. The lines of the object itself are those that are shown for it alone. This holds for objects inside templates at any depth, too (the outermost may be an Ingenico record), except that the tag lines and dumps of the templates around it change.", "quantifier": "every BER-TLV or Ingenico input, every object in it, every new value, every masking and sorting setting", "why_tests_cant": "non-interference between unbounded numbers of objects", "anchors": ["src/emv/tlv_parsing/mod.rs:display_breakdown", "src/emv/tlv_parsing/mod.rs:ProcessedEmvBlock", "src/emv/tlv_parsing/ber_tlv.rs:parse"]}
{"id": "C97", "title": "Which errors an option can report", "statement": "Each option has its own set of things that can be wrong with what it is given: a wrong number of bytes (with exactly the number that option needs), and for CVM results, CVM lists, issuer application data, service codes and tags one more each; the options on blocks can report that the data are not well formed (detection: not recognised), a length that is not supported, or one of a fixed list of faults of values. Nothing else is ever reported, and each of these is reported for some input. The error about invalid bytes never occurs.", "quantifier": "every option, input, masking and sorting setting; every error", "why_tests_cant": "that an error never occurs is a statement about all inputs", "anchors": ["src/error.rs:ParseError", "src/main.rs:main", "src/emv/tlv_parsing/mod.rs:process_emv_tag", "src/emv/tlv_parsing/ber_tlv.rs:parse", "src/emv/tlv_parsing/ingenico_tlv.rs:parse"]}
{"id": "C98", "title": "RFU stands for reserved codes", "statement": "The word RFU appears in what is shown if and only if a reserved code is among the data: a service code with a digit that ISO/IEC 7813 reserves, or Card Verification Results (alone or inside Issuer Application Data) with a reserved type of cryptogram, at whatever level of a block; or if a value that is shown contains the three letters itself, within one row of the dump. Masked values never cause it, sorting does not matter, and the remaining options never show it.", "quantifier": "every option, input, masking and sorting setting for which a document is shown", "why_tests_cant": "that a word never appears otherwise is a statement about all outputs, including all names and explanations next to arbitrary data", "anchors": ["src/non_emv/service_code.rs:ServiceCode", "src/emv/ccd/cvr.rs:CardVerificationResults", "src/emv/ccd/iad.rs", "src/emv/tlv_parsing/mod.rs:display_breakdown", "src/main.rs:main"]}
{"id": "C99", "title": "The answer to every request", "statement": "For each option and each argument there is exactly one answer, described in full without reference to the program: the lines shown or the message reported, from the hexadecimal text through the grammar of the format, masking, nested templates, the choice of a format, the acceptance of values (with the first fault and its message), sorting, names and meanings to indentation and colours. The program gives that answer and nothing else; from the command line, environment and files to the characters and colours on the terminal, with exit status 0. The one exception: where a line of the answer has to be indented by more than 255 tabs, builds with overflow checks panic (status 101); there is no other panic.", "quantifier": "every option, argument, masking and sorting setting, command line, environment and terminal", "why_tests_cant": "full functional correctness over unbounded inputs", "anchors": ["src/main.rs:main", "src/cli.rs:build_cli", "src/config/mod.rs:Config::figment", "src/emv/tlv_parsing/ber_tlv.rs:parse", "src/emv/tlv_parsing/ingenico_tlv.rs:parse", "src/emv/tlv_parsing/auto_tlv.rs:parse", "src/emv/tlv_parsing/mod.rs:process_emv_tag", "src/emv/tlv_parsing/mod.rs:display_breakdown", "src/util.rs:parse_hex_str"]}
{"id": "C100", "title": "Ingenico records one after the other, and cut off", "statement": "Ingenico records, each followed by a separator, and then another text are read as the records and then the text: without sorting the display is that of the first, an empty line, and that of the second; if the second has an error, it is that of the whole. A record that is cut off at any place, after whatever complete records, is always an error: nothing is shown, and no shortened value is mistaken for a whole one.", "quantifier": "every list of records with any separators, every text after them, every place to cut, every masking and sorting setting", "why_tests_cant": "all pairs of texts and all places to cut", "anchors": ["src/emv/tlv_parsing/ingenico_tlv.rs:parse", "src/main.rs:main"]}
{"id": "C101", "title": "Cut-off data are noticed when the format is detected", "statement": "When the format is detected, data that are cut off are not recognised. FALSE for Ingenico records: cut in the wrong place they are taken for BER-TLV (T50:01:h41,T is read as one BER-TLV object). It holds for BER-TLV without colons cut inside any object, and for records written like BER-TLV objects (whole tag, length of one byte, hexadecimal value) when the cut leaves at least two digits of the last record and takes at least one; with fewer than two digits left they are taken for BER-TLV exactly if the records before the cut can be, and with all digits there (the value is empty) exactly if all records can be. Whatever the records, cut-off ones are accepted exactly if the bytes their digits make are BER-TLV.", "quantifier": "every text in either format, every place to cut, every masking setting", "why_tests_cant": "all texts and all places to cut", "anchors": ["src/emv/tlv_parsing/auto_tlv.rs:parse", "src/emv/tlv_parsing/ingenico_tlv.rs:parse", "src/emv/tlv_parsing/ber_tlv.rs:parse"]}
{"id": "C102", "title": "Targets with 32 bits", "statement": "On a 32-bit target reading data panics exactly if the parser comes to an object or record whose announced end is at position 2^32 or later, however short the data are; otherwise everything the program does is the same as on a 64-bit target. The one exception: builds without overflow checks take the lengths of Ingenico records in hexadecimal modulo 2^31, so that T5A:80000001:h12 is accepted as a record of one byte, and with the lengths reduced the above holds for them too.", "quantifier": "every input of fewer than 2^31 characters, every option, build mode, masking and sorting setting", "why_tests_cant": "tests run on one target; the inputs concerned need lengths at the edge of the number range", "anchors": ["src/emv/tlv_parsing/ber_tlv.rs:parse", "src/emv/tlv_parsing/ingenico_tlv.rs:parse", "src/main.rs:main"]}
{"id": "C103", "title": "The configuration as a whole", "statement": "A configuration used as a source of settings is read back as it was, whatever its values; only its profile, which is not part of the data, becomes the default one. If no setting is given on the command line, the settings the program works with are exactly the configuration that can be extracted as a whole from the same sources, and the program panics over its settings exactly if that extraction fails. A configuration merged over other sources decides every setting, except those the other sources have in the section global or in a section, other than default, named like the profile of the configuration. What is written for a setting is read back; a colour is one of the four names of the command line, in lower case only; the masking characters are an array of single characters, and whether to sort is a boolean; nothing else is accepted (numbers and tables aside).", "quantifier": "every configuration, configuration file, environment, profile and command line", "why_tests_cant": "all combinations of sources", "anchors": ["src/config/mod.rs:Config::try_from", "src/config/mod.rs:Config::figment", "src/config/mod.rs:Provider for Config", "src/config/colour_choice.rs:ColourChoice", "src/main.rs:main"]}
{"id": "C104", "title": "Conversions of codes", "statement": "Wrapping and unwrapping an optional CVM code or condition are inverse to each other. Codes and conditions that EMV defines survive the conversion from and to a number and different ones have different numbers; every other code becomes 0, which is the number of a defined one. The parts of a CV rule, and the texts shown for them in a CVM list, are those of its bytes converted. Issuer application data that are accepted have the format their identifier says and no other, compared in either direction.", "quantifier": "every byte, every CV rule, every code in the tables, all issuer application data", "why_tests_cant": "all bytes and all inputs that are accepted", "anchors": ["src/emv/cv_rule/cv_method.rs:OptionalCvMethod", "src/emv/cv_rule/cvm_condition.rs:OptionalCvmCondition", "src/emv/ccd/iad.rs:PartialEq<FormatCode> for FormatSpecificData"]}
{"id": "C105", "title": "What the project's own tests show", "statement": "Of every type, the tests that go through single bits ask that the empty input and each input with one bit have a value, that the input is got back from a value other than the empty one, and that at most one range of bits is shown in addition, at the right place. They pass for all types they are applied to. For the four types made of flags they pass exactly if no flag has several bits and no two flags share one; then, although only 8n + 1 inputs are looked at, all 256^n are read back as their used bits, and two are taken for the same value exactly if they agree in these; one input shows that every wrong length is rejected. What they cannot show: names, texts, severities and which flag has which bit (a table of Terminal Verification Results with the meanings of each byte in reverse order passes). FALSE for the Card Verification Results, which contain numbers: the tests pass with every shift for the PIN try count, also with those that show a wrong count or lose bits of the input.", "quantifier": "every table of flags of every length; every input; every shift", "why_tests_cant": "a statement about the tests themselves, for all tables they could be applied to", "anchors": ["src/testing_macros.rs:wrong_byte_count", "src/testing_macros.rs:bitflag_unique_values", "src/testing_macros.rs:bitflag_display_bits", "src/emv/ccd/cvr.rs", "src/emv/tvr.rs"]}
{"id": "C106", "title": "Arguments that are not text", "statement": "If an argument is not valid Unicode, nothing is read or shown: the command line is rejected when reading comes to that argument, whatever it stands for and whatever comes after it. Only options for help and version that are reached before are obeyed, those with a letter in the beginning of that argument (-h followed by something invalid) included. If all arguments are text, what is proved about texts holds.", "quantifier": "every list of arguments, valid or not", "why_tests_cant": "tests give arguments that are text", "anchors": ["src/main.rs:main", "src/cli.rs:build_cli"]}
{"id": "C107", "title": "What the help text tells is so", "statement": "Every option has a text of its own, and each name, value and tag it mentions is real: the names shown are names of that option, names and values in backquotes exist, the tags mentioned are the ones the option is also named after, with the words of their dictionary names, and the option shows what is shown for a data object with that tag (the Card Verification Results: for the part of it). Issuer Action Codes can indeed be given to the option for the TVR. The option not to sort is the inverse of the one to sort, whatever else is given; a masking option given several times is the same as all characters at once; the colour choice ansi is the same as always except on Windows; tags that are not of EMV can be left out of Ingenico data. Two statements cannot be taken literally: the values TRUE and FALSE of the placeholder are rejected (small letters are accepted), and contents that are a single masking character are not treated as masked.", "quantifier": "every option, every command line around it, every value and configuration", "why_tests_cant": "documentation is not executed, and its claims are about all command lines", "anchors": ["src/cli.rs:build_cli", "src/main.rs:main", "src/config/mod.rs:apply_cli_arguments"]}
{"id": "C108", "title": "A release is announced only if there is one", "statement": "If the release script announces success, there is one new commit, with the version of the tag in the manifest and the new list of changes, and one new tag for that commit. FALSE if the commit fails, which the script does not look at: the tag is then put on the commit before, whose manifest has the old version, and success is announced. It holds if the commit is made. Success is announced exactly if a tag is given, there are no uncommitted changes, and editing, formatting, lints, list of changes, tag and its verification succeed; otherwise nothing is touched (no tag given, or uncommitted changes; the status is 0 all the same), or there is a status other than 0. No commit and no tag is made unless formatting, lints and list of changes are in order; commits and tags are only ever added. Of the manifest only the line with the version of the package changes, and it can be changed again. The program built from a release gives the version of its tag when asked for it and at the head of its help text.", "quantifier": "every tag without characters special to sed, every repository, every outcome of every command", "why_tests_cant": "the outcomes of the commands cannot all be brought about, and a release cannot be tried out", "anchors": ["release.sh", "Cargo.toml:version", "src/cli.rs:build_cli"]}
{"id": "C109", "title": "How deep the calls of the parsers go", "statement": "With a stack that has room for so many calls of the BER-TLV parser inside each other, the program is aborted exactly if the parser comes, behind well-formed objects and whatever follows, to constructed and unmasked objects inside each other that deep; otherwise the result is the same as with any stack. The same holds for records, which are looked into if they are EMV data, and when the format is detected, where the hexadecimal digits of a text that is not one of records are looked into. Room for half as many calls as there are bytes or characters, and one more, is always enough; but for any room there are data with six bytes (or twelve characters) for each call for which it is not. What is read is not nested deeper than there is room for; conversely data shown as a single object without contents can need any depth.", "quantifier": "every input, every masking setting, every size of the stack", "why_tests_cant": "the data concerned are as deep as the stack is large", "anchors": ["src/emv/tlv_parsing/ber_tlv.rs:parse", "src/emv/tlv_parsing/ingenico_tlv.rs:parse", "src/emv/tlv_parsing/auto_tlv.rs:parse", "src/emv/tlv_parsing/ber_tlv.rs:get_child_block"]}
{"id": "C110", "title": "What is shown of a value can be given to the program again", "statement": "Under Raw a value is shown in columns of hex digits with readable text beside them. The columns with the hex digits, copied at whatever level they are shown, denote the value: given to the option named after the tag they are shown decoded as before, and those of a template, given as BER-TLV data or with the format to be detected, as its contents were shown. Only the service code cannot be given back so, as it is given in decimal. The whole lines, with the text, denote the value exactly if no byte of it is the code of a hex digit, or only one is and all bytes on the lines below consist of that digit twice; otherwise digits of the text are taken for digits of the value, and a list of two cardholder verification rules is refused.", "quantifier": "every value, tag, level and configuration", "why_tests_cant": "the bytes of a value, and what they look like as text, are unbounded", "anchors": ["src/util.rs:print_bytes_pretty", "src/util.rs:parse_hex_str", "src/emv/tlv_parsing/mod.rs:RawEmvTag::display_breakdown", "src/main.rs:main"]}
{"id": "C111", "title": "Which data look alike", "statement": "Two blocks, each given as BER-TLV data or as Ingenico records, are shown as the same text exactly if they hold the same data objects in the same order: the same tags with the same values, or with values that are masked in both. If they are sorted, only objects with the same tag need to be in the same order. How lengths are written, the case and padding of digits, separators, formats of records and records that are not EMV data make no difference to what the program does, and everything else does. If the format is detected, the texts are the same exactly if the formats are the same, too.", "quantifier": "every two well-formed inputs, every masking setting, nested at most 254 levels deep", "why_tests_cant": "unbounded inputs, and pairs of them", "anchors": ["src/emv/tlv_parsing/ber_tlv.rs:parse", "src/emv/tlv_parsing/ingenico_tlv.rs:parse", "src/emv/tlv_parsing/mod.rs:ProcessedEmvBlock::display_breakdown"]}
{"id": "C112", "title": "Red and yellow mean that something is wrong", "statement": "What is shown has something in red exactly if one of the results in it reports an error, and something in yellow exactly if one reports a warning: certain bits of Terminal Verification Results and of Card Verification Results, given alone or in Issuer Application Data, and CVM Results that tell of a failure, wherever in the data and at whatever level. Nothing else is ever red or yellow: not Issuer Action Codes, which have the same bits but are lists of what to check (as the changelog announces), and not what is masked.", "quantifier": "every operation, value and block of data, every masking setting, sorted or not", "why_tests_cant": "blocks are unbounded, and 2^40 values of each of the results", "anchors": ["src/emv/bitflag_values.rs:display_breakdown", "src/emv/tvr.rs", "src/emv/ccd/cvr.rs", "src/emv/cvm_results.rs:get_bit_display_information", "src/emv/iac/mod.rs", "CHANGELOG.md"]}
{"id": "C113", "title": "The check for misplaced use statements", "statement": "The check of the integrity workflow fails if and only if some Rust file has a use statement above the header for them. There are no false alarms, but it is FALSE that all are found: public and indented statements are not, none is if lines end as on Windows, and as soon as one Rust file cannot be read the check passes whatever the others hold, because every status of ripgrep other than 0 is taken for success. If all files can be read, it fails exactly if a line of a Rust file begins with use and a space and a later line is the header and nothing else.", "quantifier": "every set of files with every content", "why_tests_cant": "the check is only run on the files there are", "anchors": [".github/workflows/integrity.yml:misplaced-use-statements-check"]}
{"id": "C114", "title": "Which commits the list of changes tells of", "statement": "A commit is listed if and only if its message is a conventional one, unless it prepares a release or undoes another commit and notes no breaking change; it is listed once, under the heading for the word its message begins with, otherwise under Security if its body mentions that, otherwise under its type. The headings are in alphabetical order, none is empty, and the commits under each are in the order of the history, each with its description and the first seven digits of its hash. The commit the release script makes itself is never listed, whatever the tag, and the version in the list is the one the script writes into the manifest unless the tag begins with two v. The notes in the tag of a release are word for word what CHANGELOG.md tells of it, although they are written one commit later, and later lists tell the same of it. What the list does not do: a commit that fixes a matter of security is under Bug Fixes; a heading can be there twice (Security for commits that mention it and for commits with that type); and any type beginning with doc is documentation.", "quantifier": "every history of commits with every message, every tag", "why_tests_cant": "the configuration is only tried out on the commits there are", "anchors": ["cliff.toml:commit_parsers", "cliff.toml:body", "release.sh"]}
{"id": "C115", "title": "What the list of changes announces is so", "statement": "What CHANGELOG.md tells users of the program holds: options for operations, colour and masking characters are rejected without a value, and those for operations with an empty one, in every command line that is read up to there; a colour choice without anything to do leads to the help text and not to a panic (masking characters or a word about sorting to a rejection); -? is the same as --help wherever it stands; an object is read whatever its value is, and if its value does not consist of objects, it is kept as it is and shown as that of a tag that is not constructed; no text that is empty is taken for TLV data; and the tags whose values are decoded are those announced, no more and no fewer. Two announcements cannot be taken literally: the options about sorting need no value, and the amounts of a CVM List are also shown if they are not used, unless both are zero.", "quantifier": "every command line, value, data object and configuration", "why_tests_cant": "announcements are not executed, and are about all inputs", "anchors": ["CHANGELOG.md", "src/cli.rs:build_cli", "src/main.rs:main", "src/emv/tlv_parsing/ber_tlv.rs:parse", "src/emv/cvm_list.rs:display_breakdown", "src/emv/tlv_parsing/process_emv_tag.rs:process_emv_tag"]}
{"id": "C116", "title": "What git ignores, and what gets into a release", "statement": "Exactly these files are ignored: everything in target and install_integrations at the top, everything in a directory .idea, and everything whose name, or that of a directory it is in, is .env, TODO.md or tarpaulin-report.html or ends in .rs.bk, .lib, bindings.rs or .profraw. None of the files of the repository is among them. Private settings in a file .env do not get into a release, wherever it is, unless they are in the last commit already; files called prod.env, .env.local, .envrc or .ENV are not ignored. The release script refuses to begin exactly if a file differs from the last commit that is not both new and ignored, and nothing is changed then; if it begins and only ignored files are added from then on, its commit differs from the one before in Cargo.toml, Cargo.lock and CHANGELOG.md at most. The files of the build script are ignored if they are put into install_integrations or below it.", "quantifier": "every path, every state of the files, every environment of the build", "why_tests_cant": "paths and states of a directory are unbounded", "anchors": [".gitignore", "release.sh", "build.rs:main"]}
{"id": "C117", "title": "What the workflows guarantee", "statement": "The program for an operating system can be downloaded exactly if it was built there, whatever happens on the other one; nothing else can be downloaded, and no name is used twice; the workflow for artifacts succeeds exactly if both programs can be downloaded, and the build script writes no files then. The workflow for integrity succeeds exactly if every step of every job on every runner does, apart from the installation of Tarpaulin, which makes no difference; no readable file has then a line beginning with use above the header. What passes its lints passes those of the release script. The converse does not hold: a release can be announced as a success although the workflow fails on it, exactly if there are no errors but a warning other than of something unused.", "quantifier": "every combination of steps that succeed and fail, every set of files and remarks of the compiler", "why_tests_cant": "the steps cannot be made to fail in all combinations", "anchors": [".github/workflows/artifacts.yml", ".github/workflows/integrity.yml", "release.sh", "build.rs:main"]}
