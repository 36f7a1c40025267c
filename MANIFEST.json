{
 "claims": [
  {
   "property": "C01",
   "status": "proved",
   "theorems": [
    "MBus.C01_wired_accepts_exactly_telegrams"
   ],
   "note": ""
  },
  {
   "property": "C02",
   "status": "proved",
   "theorems": [
    "MBus.C02_wired_long_round_trip",
    "MBus.C02_wired_short_round_trip"
   ],
   "note": ""
  },
  {
   "property": "C03",
   "status": "proved",
   "theorems": [
    "MBus.C03_wired_long_detects_single_byte_change",
    "MBus.C03_wired_short_detects_single_byte_change"
   ],
   "note": ""
  },
  {
   "property": "C04",
   "status": "partial",
   "theorems": [
    "MBus.C04_wired_panics_iff",
    "MBus.C04_wired_never_panics_is_false",
    "MBus.C04_wired_never_panics_partial"
   ],
   "note": "False as stated with overflow checks on: exact panic set and negation proved; panic freedom proved for builds without overflow checks."
  },
  {
   "property": "C05",
   "status": "proved",
   "theorems": [
    "MBus.C05_function_codes",
    "MBus.C05_function_unknown",
    "MBus.C05_function_injective",
    "MBus.C05_function_flags"
   ],
   "note": ""
  },
  {
   "property": "C06",
   "status": "proved",
   "theorems": [
    "MBus.C06_address_classes",
    "MBus.C06_address_injective"
   ],
   "note": ""
  },
  {
   "property": "C07",
   "status": "proved",
   "theorems": [
    "MBus.C07_manufacturer_from_id",
    "MBus.C07_manufacturer_to_id",
    "MBus.C07_manufacturer_to_id_from_id",
    "MBus.C07_manufacturer_from_id_to_id",
    "MBus.C07_manufacturer_injective",
    "MBus.C07_manufacturer_rejects"
   ],
   "note": ""
  },
  {
   "property": "C08",
   "status": "proved",
   "theorems": [
    "MBus.C08_bcd_id_accepts",
    "MBus.C08_bcd_id_bound",
    "MBus.C08_bcd_id_reencode",
    "MBus.C08_bcd_id_roundtrip",
    "MBus.C08_bcd_id_injective",
    "MBus.C08_bcd_id_rejects"
   ],
   "note": ""
  },
  {
   "property": "C09",
   "status": "proved",
   "theorems": [
    "MBus.C09_device_type_roundtrip",
    "MBus.C09_device_type_injective",
    "MBus.C09_device_type_names",
    "MBus.C09_device_type_reserved"
   ],
   "note": ""
  },
  {
   "property": "C10",
   "status": "proved",
   "theorems": [
    "MBus.C10_configuration_field_decomposition",
    "MBus.C10_security_mode_bits",
    "MBus.C10_security_mode_names",
    "MBus.C10_no_encryption_iff",
    "MBus.C10_configuration_from_bytes"
   ],
   "note": ""
  },
  {
   "property": "C11",
   "status": "proved",
   "theorems": [
    "MBus.C11_crc_is_polynomial_remainder",
    "MBus.C11_crc_detects_bursts",
    "MBus.C11_crc_detects_two_bytes",
    "MBus.C11_crc_detects_one_byte",
    "MBus.C11_crc_detects_odd_flips",
    "MBus.C11_trailing_frame_crc_start"
   ],
   "note": ""
  },
  {
   "property": "C12",
   "status": "proved",
   "theorems": [
    "MBus.C12_wireless_accepts_exactly_telegrams",
    "MBus.C12_wireless_error_precedence"
   ],
   "note": ""
  },
  {
   "property": "C13",
   "status": "proved",
   "theorems": [
    "MBus.C13_wireless_never_panics",
    "MBus.C13_wireless_payload"
   ],
   "note": ""
  },
  {
   "property": "C14",
   "status": "proved",
   "theorems": [
    "MBus.C14_format_a_exists",
    "MBus.C14_format_a_roundtrip",
    "MBus.C14_format_a_roundtrip_exact"
   ],
   "note": ""
  },
  {
   "property": "C15",
   "status": "proved",
   "theorems": [
    "MBus.C15_strip_none_iff",
    "MBus.C15_strip_none_buffer",
    "MBus.C15_strip_some",
    "MBus.C15_stripped_is_subsequence",
    "MBus.C15_strip_never_panics"
   ],
   "note": ""
  },
  {
   "property": "C16",
   "status": "proved",
   "theorems": [
    "MBus.C16_accepts_iff",
    "MBus.C16_rejects_iff",
    "MBus.C16_never_panics",
    "MBus.C16_size"
   ],
   "note": ""
  },
  {
   "property": "C17",
   "status": "partial",
   "theorems": [
    "MBus.C17_storage_computed",
    "MBus.C17_storage_number_partial",
    "MBus.C17_fails"
   ],
   "note": "False of the code (shift 4i+5 instead of 4i+1): exact computed value proved, agreement iff all DIFE storage bits are zero, negation C17_fails."
  },
  {
   "property": "C18",
   "status": "proved",
   "theorems": [
    "MBus.C18_tariff_and_subunit",
    "MBus.C18_fields_fit_in_u64"
   ],
   "note": ""
  },
  {
   "property": "C19",
   "status": "partial",
   "theorems": [
    "MBus.C19_xml_numbers",
    "MBus.C19_agree_partial",
    "MBus.C19_fails"
   ],
   "note": "False of the code: the XML document and the library disagree on storage numbers with more than one DIFE (C19_fails). The XML numbers are proved correct for all DIFE chains, and the exact condition for agreement."
  },
  {
   "property": "C20",
   "status": "proved",
   "theorems": [
    "MBus.C20_accepts_iff",
    "MBus.C20_size",
    "MBus.C20_truncated_chain_accepted"
   ],
   "note": "Accepted strings characterised exactly. C20_truncated_chain_accepted records that a chain cut off by the end of the data is accepted."
  },
  {
   "property": "C21",
   "status": "partial",
   "theorems": [
    "MBus.C21_read_panics_iff",
    "MBus.C21_interpret_panics_iff",
    "MBus.C21_never_panics_partial",
    "MBus.C21_fails"
   ],
   "note": "False of the code: C21_fails gives panics in every build configuration (VIF 7D, eleventh VIFE, more than ten units or labels, plain text longer than nine). Exact panic sets proved (C21_read_panics_iff, C21_interpret_panics_iff) and freedom from panics for up to four VIFEs."
  },
  {
   "property": "C22",
   "status": "partial",
   "theorems": [
    "MBus.C22_primary_table_partial",
    "MBus.C22_primary_reported",
    "MBus.C22_duration_units_missing"
   ],
   "note": "Full table proved except the duration codes 70-77, whose unit is missing in the code (C22_duration_units_missing proves the negation)."
  },
  {
   "property": "C23",
   "status": "proved",
   "theorems": [
    "MBus.C23_integer_value",
    "MBus.C23_exact_up_to_48_bits",
    "MBus.C23_rounding_is_nearest",
    "MBus.C23_round_trip",
    "MBus.C23_representable",
    "MBus.C23_real32",
    "MBus.C23_real32_truncated"
   ],
   "note": ""
  },
  {
   "property": "C24",
   "status": "proved",
   "theorems": [
    "MBus.C24_bcd_value",
    "MBus.C24_round_trip"
   ],
   "note": ""
  },
  {
   "property": "C25",
   "status": "proved",
   "theorems": [
    "MBus.C25_date_g",
    "MBus.C25_date_g_truncated",
    "MBus.C25_round_trip"
   ],
   "note": ""
  },
  {
   "property": "C26",
   "status": "partial",
   "theorems": [
    "MBus.C26_type_f_partial",
    "MBus.C26_type_i_partial",
    "MBus.C26_year_correct_iff",
    "MBus.C26_year_fails",
    "MBus.C26_day_fails"
   ],
   "note": "False of the code: year taken from the first two bytes (C26_year_fails, C26_year_correct_iff), day 31 reported as every / day 0 as 0 (C26_day_fails); the other fields are proved for all inputs."
  },
  {
   "property": "C27",
   "status": "proved",
   "theorems": [
    "MBus.C27_calls",
    "MBus.C27_items",
    "MBus.C27_fused_after_error"
   ],
   "note": ""
  },
  {
   "property": "C28",
   "status": "proved",
   "theorems": [
    "MBus.C28_records_tile",
    "MBus.C28_records_tile_before_error"
   ],
   "note": ""
  },
  {
   "property": "C29",
   "status": "proved",
   "theorems": [
    "MBus.C29_raw_bytes"
   ],
   "note": ""
  },
  {
   "property": "C30",
   "status": "partial",
   "theorems": [
    "MBus.C30_local_partial",
    "MBus.C30_fails"
   ],
   "note": "False of the code for records cut off by the end of the data but accepted (C30_fails); proved for closed VIFE chains and complete data fields."
  },
  {
   "property": "C31",
   "status": "proved",
   "theorems": [
    "MBus.C31_truncated",
    "MBus.C31_text",
    "MBus.C31_bcd",
    "MBus.C31_binary",
    "MBus.C31_empty_integer",
    "MBus.C31_reserved",
    "MBus.C31_consumed"
   ],
   "note": "Reserved codes, sizes, text, BCD and integers for all inputs. E0 (a zero-byte integer) panics with overflow checks: C31_empty_integer. The value of 9-byte BCD fields (18 digits, two more roundings) is bounded, not characterised exactly."
  },
  {
   "property": "C32",
   "status": "proved",
   "theorems": [
    "MBus.C32_accepts_iff",
    "MBus.C32_rejects_iff",
    "MBus.C32_never_panics",
    "MBus.C32_empty",
    "MBus.C32_invalid_ci_iff"
   ],
   "note": ""
  },
  {
   "property": "C33",
   "status": "proved",
   "theorems": [
    "MBus.C33_long_header",
    "MBus.C33_short_header"
   ],
   "note": ""
  },
  {
   "property": "C34",
   "status": "proved",
   "theorems": [
    "MBus.C34_ell_size",
    "MBus.C34_ell_fields",
    "MBus.C34_nested",
    "MBus.C34_inner_fields_lost"
   ],
   "note": "C34_inner_fields_lost records that the fields of an extended link layer below another one are not reported."
  },
  {
   "property": "C35",
   "status": "proved",
   "theorems": [
    "MBus.C35_records",
    "MBus.C35_encrypted_long_hidden",
    "MBus.C35_encrypted_short_hidden",
    "MBus.C35_is_encrypted"
   ],
   "note": ""
  },
  {
   "property": "C36",
   "status": "partial",
   "theorems": [
    "MBus.C36_agree_iff",
    "MBus.C36_agree_wired_partial",
    "MBus.C36_agree_wireless_partial",
    "MBus.C36_fails_encrypted",
    "MBus.C36_fails_reversed"
   ],
   "note": "False of the code: C36_fails_encrypted, C36_fails_reversed. C36_agree_iff gives exactly the blocks on which the two agree; the _partial theorems prove agreement for all frames with such blocks."
  },
  {
   "property": "C37",
   "status": "proved",
   "theorems": [
    "MBus.C37_frame_delivered_wired",
    "MBus.C37_user_data_or_error_wired",
    "MBus.C37_wireless"
   ],
   "note": ""
  },
  {
   "property": "C38",
   "status": "proved",
   "theorems": [
    "MBus.C38_key_provider_first_wins",
    "MBus.C38_key_provider_capacity",
    "MBus.C38_key_provider_no_confusion"
   ],
   "note": ""
  },
  {
   "property": "C39",
   "status": "proved",
   "theorems": [
    "MBus.C39_decrypt_result",
    "MBus.C39_decrypt_error_leaves_output",
    "MBus.C39_decrypt_writes"
   ],
   "note": ""
  },
  {
   "property": "C40",
   "status": "proved",
   "theorems": [
    "MBus.C40_cbc_inverts_encryption"
   ],
   "note": ""
  },
  {
   "property": "C41",
   "status": "proved",
   "theorems": [
    "MBus.C41_iv_is_address_field",
    "MBus.C41_iv_injective"
   ],
   "note": ""
  },
  {
   "property": "C42",
   "status": "partial",
   "theorems": [
    "MBus.C42_covers_partial",
    "MBus.C42_label_partial",
    "MBus.C42_fails"
   ],
   "note": "False of the code for a single character followed by more bytes (C42_fails); proved for all other accepted byte strings."
  },
  {
   "property": "C43",
   "status": "proved",
   "theorems": [
    "MBus.C43_accepts_iff",
    "MBus.C43_empty_iff",
    "MBus.C43_position",
    "MBus.C43_total",
    "MBus.C43_compact_round_trip",
    "MBus.C43_hex_string",
    "MBus.C43_token_round_trip"
   ],
   "note": ""
  },
  {
   "property": "C44",
   "status": "proved",
   "theorems": [
    "MBus.C44_inverts",
    "MBus.C44_round_trip",
    "MBus.C44_lenient",
    "MBus.C44_collapse",
    "MBus.C44_agrees_with_strict",
    "MBus.C44_newline"
   ],
   "note": ""
  },
  {
   "property": "C45",
   "status": "proved",
   "theorems": [
    "MBus.C45_exact",
    "MBus.C45_none",
    "MBus.C45_denotes"
   ],
   "note": ""
  },
  {
   "property": "C46",
   "status": "proved",
   "theorems": [
    "MBus.C46_value",
    "MBus.C46_canonical",
    "MBus.C46_canonical_int"
   ],
   "note": ""
  },
  {
   "property": "C47",
   "status": "partial",
   "theorems": [
    "MBus.C47_canonical_iff_partial",
    "MBus.C47_fails"
   ],
   "note": "False of the code as stated (C47_fails: value 0 with an offset power of ten below the scale gets leading zeros); C47_canonical_iff_partial gives exactly when the text is canonical."
  },
  {
   "property": "C48",
   "status": "partial",
   "theorems": [
    "MBus.C48_last_correction",
    "MBus.C48_combinable_partial",
    "MBus.C48_fails"
   ],
   "note": "False of the code as stated (C48_fails: codes 78-7B after FD, FB, FF and FC are read as corrections); proved: the exact rule, and correctness for the other blocks."
  },
  {
   "property": "C49",
   "status": "proved",
   "theorems": [
    "MBus.C49_reversible",
    "MBus.C49_round_trip",
    "MBus.C49_no_markup",
    "MBus.C49_ampersand"
   ],
   "note": ""
  },
  {
   "property": "C50",
   "status": "partial",
   "theorems": [
    "MBus.C50_number_partial",
    "MBus.C50_shown_number_partial",
    "MBus.C50_byte_order_fails",
    "MBus.C50_kind_fails"
   ],
   "note": "Proved for integers and BCD of all widths with the same byte order; false for byte order CI 76 and for the kind of some codings (C50_byte_order_fails, C50_kind_fails)."
  },
  {
   "property": "C51",
   "status": "proved",
   "theorems": [
    "MBus.C51_wrap",
    "MBus.C51_control_fails",
    "MBus.C51_row",
    "MBus.C51_row_width",
    "MBus.C51_border_width",
    "MBus.C51_table",
    "MBus.C51_shown"
   ],
   "note": "unicode-width is a parameter: additive, at most 2 per character, printable ASCII and box characters 1 (SaneWidths). For control characters, which the real library gives no character width, C51_control_fails shows wrapping never breaks the line."
  },
  {
   "property": "C52",
   "status": "partial",
   "theorems": [
    "MBus.C52_shows",
    "MBus.C52_safe",
    "MBus.C52_faithful",
    "MBus.C52_old_partial",
    "MBus.C52_old_fails"
   ],
   "note": "Proved of src/output.rs; false of the second mermaid_escape, in src/mbus_data.rs (C52_old_fails), for which only quotation marks and brackets are proved absent (C52_old_partial)."
  },
  {
   "property": "C53",
   "status": "partial",
   "theorems": [
    "MBus.C53_no_key_partial",
    "MBus.C53_fails",
    "MBus.C53_key_unused"
   ],
   "note": "False for an extended link layer with a session number below an extended link layer I, whose ciphertext is shown as clear records (C53_fails). Proved for every other encrypted payload the library accepts; the effect of a key on clear telegrams is proved for all telegrams (C53_key_unused)."
  },
  {
   "property": "C54",
   "status": "partial",
   "theorems": [
    "MBus.C54_reported",
    "MBus.C54_no_error",
    "MBus.C54_offset_partial",
    "MBus.C54_fails"
   ],
   "note": "False of the code when fillers are skipped (C54_fails); proved: offset plus number of skipped bytes is the position of the failing record."
  },
  {
   "property": "C55",
   "status": "proved",
   "theorems": [
    "MBus.C55_wired_iff",
    "MBus.C55_parses_again",
    "MBus.C55_shows_plaintext"
   ],
   "note": "Exact characterisation, for every cipher whose blocks have 16 bytes; the cipher is a parameter."
  },
  {
   "property": "C56",
   "status": "partial",
   "theorems": [
    "MBus.C56_wireless_iff",
    "MBus.C56_no_crc_partial",
    "MBus.C56_crc",
    "MBus.C56_fails"
   ],
   "note": "False for frames that end in a correct CRC (C56_fails, C56_crc: the decrypted data appear two bytes too late); proved for frames without one, and the shown bytes are characterised exactly (C56_wireless_iff)."
  },
  {
   "property": "C57",
   "status": "partial",
   "theorems": [
    "MBus.C57_documented_contract_fails",
    "MBus.C57_strip_first_block_partial"
   ],
   "note": "The property is false of the code; C57_documented_contract_fails proves the negation with a frame whose second block is damaged. The _partial theorem proves what holds: a returned frame has an intact first block. Full behaviour on arbitrary input: C15_strip_some."
  },
  {
   "property": "C58",
   "status": "proved",
   "theorems": [
    "MBus.C58_dif_table",
    "MBus.C58_dif_reported"
   ],
   "note": ""
  },
  {
   "property": "C59",
   "status": "partial",
   "theorems": [
    "MBus.C59_main_table_partial",
    "MBus.C59_second_level_table",
    "MBus.C59_main_table_fails",
    "MBus.C59_second_level_read_twice"
   ],
   "note": "Proved for all codes but 2C-39, 3B-3F, 6F and 70, where the code deviates from the standard (C59_main_table_fails)."
  },
  {
   "property": "C60",
   "status": "partial",
   "theorems": [
    "MBus.C60_alternate_table_partial",
    "MBus.C60_alternate_table_fails"
   ],
   "note": "Proved for all codes but 00 and 01, where the code reports W^3/h (C60_alternate_table_fails)."
  },
  {
   "property": "C61",
   "status": "partial",
   "theorems": [
    "MBus.C61_orthogonal_table_partial",
    "MBus.C61_orthogonal_extension_table",
    "MBus.C61_orthogonal_table_fails",
    "MBus.C61_additive_constant_ambiguous"
   ],
   "note": "Proved for all codes but 2C, 6B, 6E, 6F (C61_orthogonal_table_fails); the table after FC is proved completely."
  },
  {
   "property": "C62",
   "status": "proved",
   "theorems": [
    "MBus.C62_contributions_add_up",
    "MBus.C62_codes",
    "MBus.C62_text_and_manufacturer_codes",
    "MBus.C62_orthogonal_codes",
    "MBus.C62_meanings_add_up"
   ],
   "note": "Contributions add up for every block; C62_meanings_add_up states it in terms of the standard's tables for the codes on which the tables agree."
  },
  {
   "property": "C63",
   "status": "partial",
   "theorems": [
    "MBus.C63_record_panics_iff",
    "MBus.C63_fails",
    "MBus.C63_never_panics_partial"
   ],
   "note": "False of the code (C63_fails, all build configurations); the exact panic set is proved (C63_record_panics_iff), and panic freedom for records with up to four VIFEs, VIF not 7C/7D/FC and no variable length data."
  },
  {
   "property": "C64",
   "status": "proved",
   "theorems": [
    "MBus.C64_date_coding"
   ],
   "note": ""
  },
  {
   "property": "C65",
   "status": "proved",
   "theorems": [
    "MBus.C65_decrypt_mode5",
    "MBus.C65_not_decrypted",
    "MBus.C65_written_length",
    "MBus.C65_variable_data_len",
    "MBus.C65_with_context"
   ],
   "note": ""
  },
  {
   "property": "C66",
   "status": "proved",
   "theorems": [
    "MBus.C66_status_text",
    "MBus.C66_status_injective"
   ],
   "note": ""
  },
  {
   "property": "C67",
   "status": "proved",
   "theorems": [
    "MBus.C67_direction"
   ],
   "note": ""
  },
  {
   "property": "C68",
   "status": "partial",
   "theorems": [
    "MBus.C68_fails",
    "MBus.C68_transport_encryption_partial"
   ],
   "note": "False of the code: C68_fails shows for every extended link layer II header that the payload is iterated. Proved: encryption announced by a transport header below an extended link layer I is respected."
  },
  {
   "property": "C69",
   "status": "partial",
   "theorems": [
    "MBus.C69_fails",
    "MBus.C69_bcd_reversed_partial"
   ],
   "note": "False of the code: C69_fails shows that binary integers and reals ignore the byte order. Proved for BCD."
  },
  {
   "property": "C70",
   "status": "partial",
   "theorems": [
    "MBus.C70_integers",
    "MBus.C70_bcd",
    "MBus.C70_variable_integers",
    "MBus.C70_variable_bcd_partial",
    "MBus.C70_long_bcd_fails",
    "MBus.C70_reals"
   ],
   "note": "Exact for all integers, fixed width BCD, variable binary numbers and reals; false for long variable BCD (C70_long_bcd_fails), proved up to 7 bytes. Reals are not brought into the unit shown beside them (C123_fails)."
  },
  {
   "property": "C71",
   "status": "proved",
   "theorems": [
    "MBus.C71_utf8",
    "MBus.C71_latin1",
    "MBus.C71_round_trip",
    "MBus.C71_latin1_fails"
   ],
   "note": "Both decodings for all bytes and the round trip of all UTF-8 texts. C71_latin1_fails records that a Latin-1 text whose bytes are valid UTF-8 is not reported as such."
  },
  {
   "property": "C72",
   "status": "partial",
   "theorems": [
    "MBus.C72_date",
    "MBus.C72_time",
    "MBus.C72_datetime",
    "MBus.C72_incomplete_date",
    "MBus.C72_incomplete_datetime",
    "MBus.C72_incomplete_time",
    "MBus.C72_every_second_fails",
    "MBus.C72_encoded_date_partial",
    "MBus.C72_century_fails"
   ],
   "note": "ISO text proved for every complete date and time value, components otherwise; the century is missing (C72_century_fails)."
  },
  {
   "property": "C73",
   "status": "proved",
   "theorems": [
    "MBus.C73_date",
    "MBus.C73_date_time",
    "MBus.C73_date_time_seconds",
    "MBus.C73_library_year_fails"
   ],
   "note": "Proved for all dates. C73_library_year_fails records that the library itself reports another year for the same bytes."
  },
  {
   "property": "C74",
   "status": "partial",
   "theorems": [
    "MBus.C74_primary",
    "MBus.C74_primary_known",
    "MBus.C74_correction",
    "MBus.C74_main_extension_partial",
    "MBus.C74_alternate_extension_partial",
    "MBus.C74_fails",
    "MBus.C74_first_vife_only",
    "MBus.C74_second_vife_fails",
    "MBus.C74_extension_correction_fails"
   ],
   "note": "Proved for the primary table, the correction factors, and both extension tables except 32-35, 6F and 00, 01, 23, 30, 31, 79; negations C74_fails, C74_second_vife_fails, C74_extension_correction_fails."
  },
  {
   "property": "C75",
   "status": "partial",
   "theorems": [
    "MBus.C75_well_formed_partial",
    "MBus.C75_wired_contents_partial",
    "MBus.C75_fixed_contents",
    "MBus.C75_fails",
    "MBus.C75_one_document",
    "MBus.C75_one_report"
   ],
   "note": "False for texts with U+FFFE/U+FFFF (C75_fails). Proved for all inputs, keys and ciphers: a document is well-formed exactly if it does not contain them."
  },
  {
   "property": "C76",
   "status": "partial",
   "theorems": [
    "MBus.C76_declared_encoding_partial",
    "MBus.C76_fails"
   ],
   "note": "False of the code (C76_fails): exactly the ASCII documents are in the declared encoding."
  },
  {
   "property": "C77",
   "status": "partial",
   "theorems": [
    "MBus.C77_wireless_partial",
    "MBus.C77_same_document_partial",
    "MBus.C77_fails"
   ],
   "note": "False of wired frames (C77_fails); proved for wireless telegrams."
  },
  {
   "property": "C78",
   "status": "partial",
   "theorems": [
    "MBus.C78_long_partial",
    "MBus.C78_short",
    "MBus.C78_fails",
    "MBus.C78_xml_long",
    "MBus.C78_xml_short"
   ],
   "note": "False under CI 76, where the byte order the header announces is applied to decrypted data only (C78_fails). Proved for CI 72 and for short headers for all ciphers, headers and data, and for the XML report for all of CI 72, 76, 7A, 5A."
  },
  {
   "property": "C79",
   "status": "partial",
   "theorems": [
    "MBus.C79_fixed_units_partial",
    "MBus.C79_fails"
   ],
   "note": "Proved for all codes but 0D and 0E, which the code exchanges (C79_fails)."
  },
  {
   "property": "C80",
   "status": "partial",
   "theorems": [
    "MBus.C80_primary",
    "MBus.C80_main_partial",
    "MBus.C80_alternate_partial",
    "MBus.C80_unknown",
    "MBus.C80_fails",
    "MBus.C80_primary_name",
    "MBus.C80_extension_name_partial",
    "MBus.C80_extension_bit"
   ],
   "note": "Proved for all primary VIFs, for FD except 3C-3F and 71, for FB except the codes the XML output has no unit for, 22-26, 30, 31 and 79; C80_fails is the negation."
  },
  {
   "property": "C81",
   "status": "proved",
   "theorems": [
    "MBus.C81_function",
    "MBus.C81_manufacturer_data",
    "MBus.C81_text",
    "MBus.C81_library_text",
    "MBus.C81_utf8",
    "MBus.C81_lossless",
    "MBus.C81_other_bytes"
   ],
   "note": ""
  },
  {
   "property": "C82",
   "status": "partial",
   "theorems": [
    "MBus.C82_medium_partial",
    "MBus.C82_unknown_medium",
    "MBus.C82_medium_fails",
    "MBus.C82_fixed_medium",
    "MBus.C82_signature"
   ],
   "note": "False for 31-33 and 38 (C82_medium_fails); proved for all other codes, for fixed data and for the signature."
  },
  {
   "property": "C83",
   "status": "proved",
   "theorems": [
    "MBus.C83_empty_iff",
    "MBus.C83_invalid_iff",
    "MBus.C83_no_key",
    "MBus.C83_security_error",
    "MBus.C83_ell_key"
   ],
   "note": ""
  },
  {
   "property": "C84",
   "status": "proved",
   "theorems": [
    "MBus.C84_raw",
    "MBus.C84_payload",
    "MBus.C84_decode_again",
    "MBus.C84_decode_text"
   ],
   "note": ""
  },
  {
   "property": "C85",
   "status": "proved",
   "theorems": [
    "MBus.C85_state",
    "MBus.C85_complete"
   ],
   "note": ""
  },
  {
   "property": "C86",
   "status": "partial",
   "theorems": [
    "MBus.C86_long",
    "MBus.C86_link",
    "MBus.C86_alternate_fails",
    "MBus.C86_alternates"
   ],
   "note": "False of the alternates: the link layer address is listed beside a long header even when it is the same meter (C86_alternate_fails); the identity shown and the condition for alternates are proved for all telegrams."
  },
  {
   "property": "C87",
   "status": "proved",
   "theorems": [
    "MBus.C87_long",
    "MBus.C87_short",
    "MBus.C87_ell",
    "MBus.C87_ell_receiver",
    "MBus.C87_ell_one"
   ],
   "note": ""
  },
  {
   "property": "C88",
   "status": "proved",
   "theorems": [
    "MBus.C88_registry",
    "MBus.C88_enrichment"
   ],
   "note": ""
  },
  {
   "property": "C89",
   "status": "proved",
   "theorems": [
    "MBus.C89_indices",
    "MBus.C89_bytes",
    "MBus.C89_shown",
    "MBus.C89_fields"
   ],
   "note": "Storage numbers are those of C17."
  },
  {
   "property": "C90",
   "status": "proved",
   "theorems": [
    "MBus.C90_data_records",
    "MBus.C90_empty",
    "MBus.C90_clear"
   ],
   "note": ""
  },
  {
   "property": "C91",
   "status": "partial",
   "theorems": [
    "MBus.C91_protection_partial",
    "MBus.C91_never_unknown",
    "MBus.C91_fails"
   ],
   "note": "False for a long header below an extended link layer of type I (C91_fails); proved for all other telegrams (C91_protection_partial) and never 'unknown'."
  },
  {
   "property": "C92",
   "status": "proved",
   "theorems": [
    "MBus.C92_rows",
    "MBus.C92_distinct",
    "MBus.C92_frame",
    "MBus.C92_record"
   ],
   "note": ""
  },
  {
   "property": "C93",
   "status": "proved",
   "theorems": [
    "MBus.C93_names",
    "MBus.C93_round_trip",
    "MBus.C93_unambiguous"
   ],
   "note": ""
  },
  {
   "property": "C94",
   "status": "proved",
   "theorems": [
    "MBus.C94_well_formed"
   ],
   "note": ""
  },
  {
   "property": "C95",
   "status": "proved",
   "theorems": [
    "MBus.C95_format_a"
   ],
   "note": ""
  },
  {
   "property": "C96",
   "status": "partial",
   "theorems": [
    "MBus.C96_records_partial",
    "MBus.C96_fields_partial",
    "MBus.C96_fails",
    "MBus.C96_fails_text_first",
    "MBus.C96_control"
   ],
   "note": "False of the code: C96_fails (DIF 7F), C96_fails_text_first. The _partial theorems prove it for all telegrams without these."
  },
  {
   "property": "C97",
   "status": "proved",
   "theorems": [
    "MBus.C97_long",
    "MBus.C97_short",
    "MBus.C97_link"
   ],
   "note": ""
  },
  {
   "property": "C98",
   "status": "proved",
   "theorems": [
    "MBus.C98_encrypted",
    "MBus.C98_rejects_iff",
    "MBus.C98_panics_only"
   ],
   "note": ""
  },
  {
   "property": "C99",
   "status": "partial",
   "theorems": [
    "MBus.C99_decrypted_iff",
    "MBus.C99_covers",
    "MBus.C99_wired",
    "MBus.C99_wireless_partial",
    "MBus.C99_fails"
   ],
   "note": "False of wireless telegrams that end in a CRC (C99_fails: encrypted bytes are shown as a record). Proved: selection of the view, coverage and wired telegrams in full, record segments as in C96 without global readout requests. Wireless telegrams, with or without the block CRCs of Format A: those without a further correct CRC before and after decryption that do not read as wired telegrams."
  },
  {
   "property": "C100",
   "status": "partial",
   "theorems": [
    "MBus.C100_fails_format_a",
    "MBus.C100_unambiguous_partial",
    "MBus.C100_fails",
    "MBus.C100_fails_long"
   ],
   "note": "False of the code (C100_fails, C100_fails_long); the ambiguous telegrams are confined to those beginning with E5 and those of 105 bytes beginning with 68 63 63. `C100_fails_format_a`: the detection of Format A checksums ignores the length field, so a wireless telegram without checksums whose first payload bytes happen to be the CRC of its header loses its reading."
  },
  {
   "property": "C101",
   "status": "partial",
   "theorems": [
    "MBus.C101_rejects_iff",
    "MBus.C101_fails"
   ],
   "note": "Refusal characterised exactly; freedom from panics is false (C101_fails, for every cipher and key), because the record parser panics on some records (C63)."
  },
  {
   "property": "C102",
   "status": "proved",
   "theorems": [
    "MBus.C102_shows",
    "MBus.C102_reads_back",
    "MBus.C102_injective",
    "MBus.C102_columns"
   ],
   "note": ""
  },
  {
   "property": "C103",
   "status": "partial",
   "theorems": [
    "MBus.C103_text_partial",
    "MBus.C103_rejects",
    "MBus.C103_kinds",
    "MBus.C103_fails_filler",
    "MBus.C103_fails_line"
   ],
   "note": "The dump, the order and content of the table and the refusal are proved for all telegrams. False in two points: C103_fails_filler (a filler stands below the heading of a record) and C103_fails_line (a unit text with a line end breaks the table)."
  },
  {
   "property": "C104",
   "status": "partial",
   "theorems": [
    "MBus.C104_number",
    "MBus.C104_integers_partial",
    "MBus.C104_bcd",
    "MBus.C104_fails",
    "MBus.C104_temporal",
    "MBus.C104_date",
    "MBus.C104_point",
    "MBus.C104_parts"
   ],
   "note": "Proved for BCD, temporal and manufacturer data without restriction and for integers below 2^53; false beyond (C104_fails)."
  },
  {
   "property": "C105",
   "status": "partial",
   "theorems": [
    "MBus.C105_integers_partial",
    "MBus.C105_bcd_partial",
    "MBus.C105_fails"
   ],
   "note": "Proved for integer and BCD records whose VIFEs add no constant; false with an additive correction (C105_fails)."
  },
  {
   "property": "C106",
   "status": "partial",
   "theorems": [
    "MBus.C106_records_partial",
    "MBus.C106_fails",
    "MBus.C106_fails_json",
    "MBus.C106_refused"
   ],
   "note": "Proved for all telegrams whose payload is clear or was decrypted; refusal characterised exactly. False if the payload stays encrypted (C106_fails: a panic) and for the JSON text of telegrams with a bad record (C106_fails_json)."
  },
  {
   "property": "C107",
   "status": "partial",
   "theorems": [
    "MBus.C107_protected_partial",
    "MBus.C107_fails",
    "MBus.C107_fails_json"
   ],
   "note": "Proved for telegrams whose transport header names a security mode; false for extended link layer encryption (C107_fails: ciphertext listed as a reading) and for the JSON text (C107_fails_json)."
  },
  {
   "property": "C108",
   "status": "partial",
   "theorems": [
    "MBus.C108_header_partial",
    "MBus.C108_fails_ell",
    "MBus.C108_fails_fixed"
   ],
   "note": "Proved for every header form, with the two named exceptions, which are shown to be real (C108_fails_ell, C108_fails_fixed)."
  },
  {
   "property": "C109",
   "status": "proved",
   "theorems": [
    "MBus.C109_columns",
    "MBus.C109_error"
   ],
   "note": ""
  },
  {
   "property": "C110",
   "status": "partial",
   "theorems": [
    "MBus.C110_integers_partial",
    "MBus.C110_rounded",
    "MBus.C110_bcd_partial",
    "MBus.C110_fails"
   ],
   "note": "Proved for all records without additive corrections; up to rounding to the nearest double for 64-bit integers. False with an additive correction (C110_fails)."
  },
  {
   "property": "C111",
   "status": "partial",
   "theorems": [
    "MBus.C111_diagram_partial",
    "MBus.C111_fails",
    "MBus.C111_records",
    "MBus.C111_fails_sealed",
    "MBus.C111_fails_line",
    "MBus.C111_text",
    "MBus.C111_frame",
    "MBus.C111_small",
    "MBus.C111_device",
    "MBus.C111_wireless"
   ],
   "note": "Proved with the subgraph of the device excepted, and without exception if there is a long header, no record, or a wireless frame. Edges to an undeclared subgraph, line breaks and drawn ciphertext are shown to be real (C111_fails, C111_fails_line, C111_fails_sealed). The text is read back by `readOld` if no label has a line break."
  },
  {
   "property": "C112",
   "status": "proved",
   "theorems": [
    "MBus.C112_json",
    "MBus.C112_one_meaning",
    "MBus.C112_read_back",
    "MBus.C112_determines",
    "MBus.C112_records"
   ],
   "note": "Assumes that the texts serde_json writes for finite 32-bit reals are JSON numbers (a parameter of the model). The YAML writer and the JavaScript values of the wasm package are not modelled."
  },
  {
   "property": "C113",
   "status": "proved",
   "theorems": [
    "MBus.C113_one_reading",
    "MBus.C113_csv",
    "MBus.C113_columns",
    "MBus.C113_determines",
    "MBus.C113_wide"
   ],
   "note": "The writer of the csv crate is modelled from its documentation; its source is not in the repository."
  },
  {
   "property": "C114",
   "status": "proved",
   "theorems": [
    "MBus.C114_annotated",
    "MBus.C114_names",
    "MBus.C114_determines",
    "MBus.C114_bytes"
   ],
   "note": ""
  },
  {
   "property": "C115",
   "status": "partial",
   "theorems": [
    "MBus.C115_cli_key",
    "MBus.C115_keys",
    "MBus.C115_same_key",
    "MBus.C115_keys_fails",
    "MBus.C115_same",
    "MBus.C115_unsupported",
    "MBus.C115_order_fails",
    "MBus.C115_bytes_or_text",
    "MBus.C115_parse_is_json",
    "MBus.C115_m_bus_parse",
    "MBus.C115_m_bus_parse_fails",
    "MBus.C115_decode",
    "MBus.C115_decode_fails"
   ],
   "note": "False for keys in other spellings, for calls with two mistakes and for the input text in JavaScript's object: `C115_keys_fails`, `C115_order_fails`, `C115_m_bus_parse_fails`, `C115_decode_fails`. For a supported format and a key of 32 digits all front ends agree."
  },
  {
   "property": "C116",
   "status": "partial",
   "theorems": [
    "MBus.C116_structured",
    "MBus.C116_yaml",
    "MBus.C116_xml_wireless",
    "MBus.C116_xml_long",
    "MBus.C116_xml_encrypted",
    "MBus.C116_xml_fixed",
    "MBus.C116_xml_other",
    "MBus.C116_xml_fails",
    "MBus.C116_annotated",
    "MBus.C116_annotated_partial",
    "MBus.C116_annotated_fails"
   ],
   "note": "True of JSON, CSV, Mermaid and tables of at least 32 columns. XML agrees for wireless telegrams and for wired telegrams with a long header that are not encrypted or come with a key; it refuses other wired telegrams and crashes on some ciphertexts: `C116_xml_fails`. Annotation accepts some telegrams the decoding refuses: `C116_annotated_fails`. YAML is true up to errors of its library, whose writer is not modelled (C116_yaml)."
  },
  {
   "property": "C117",
   "status": "partial",
   "theorems": [
    "MBus.C117_fails",
    "MBus.C117_decode_iff",
    "MBus.C117_rendering_partial"
   ],
   "note": "False: `C117_fails`. `C117_decode_iff` says which inputs crash the decoding. In every format, with and without a key, every crash comes from the wired parser or from the record parser on bytes of the telegram, of its decryption, or of the telegram with the decrypted data in place of the encrypted ones."
  },
  {
   "property": "C118",
   "status": "partial",
   "theorems": [
    "MBus.C118_input",
    "MBus.C118_security_iff",
    "MBus.C118_cause",
    "MBus.C118_position_fails",
    "MBus.C118_xml_fails"
   ],
   "note": "True of the structured formats. The position counts from the first character that is not white space (`C118_position_fails`), and every error of the XML output has the same code and layer (`C118_xml_fails`)."
  },
  {
   "property": "C119",
   "status": "partial",
   "theorems": [
    "MBus.C119_text",
    "MBus.C119_announced",
    "MBus.C119_older",
    "MBus.C119_older_fails"
   ],
   "note": "Proved for every name but the five of the older formats, given that no text of the YAML library begins with `Error [`. False for the older formats, which are silent about errors: `C119_older_fails`; their texts for what is not a telegram are fixed, `C119_older`."
  },
  {
   "property": "C120",
   "status": "proved",
   "theorems": [
    "MBus.C120_annotated",
    "MBus.C120_hexview"
   ],
   "note": ""
  },
  {
   "property": "C121",
   "status": "partial",
   "theorems": [
    "MBus.C121_term_partial",
    "MBus.C121_meaning_partial",
    "MBus.C121_determined_partial",
    "MBus.C121_primary",
    "MBus.C121_fails",
    "MBus.C121_year_fails"
   ],
   "note": "True of units with a UCUM symbol; the conversion does not cover months, years and litres. Reactive units are written with a text that is no UCUM term and a temperature in a product is no valid unit (`C121_fails`); a year is a different length in the structured output and in XML (`C121_year_fails`)."
  },
  {
   "property": "C122",
   "status": "proved",
   "theorems": [
    "MBus.C122_names",
    "MBus.C122_distinct"
   ],
   "note": ""
  },
  {
   "property": "C123",
   "status": "partial",
   "theorems": [
    "MBus.C123_aes_partial",
    "MBus.C123_aes_short_partial",
    "MBus.C123_sealed_tail_partial",
    "MBus.C123_carried_partial",
    "MBus.C123_clear_partial",
    "MBus.C123_tail_partial",
    "MBus.C123_sealed_partial",
    "MBus.C123_sealed_short_partial",
    "MBus.C123_fails"
   ],
   "note": "Proved for telegrams in the clear and encrypted with long and short headers, for readings with a number, text, 32-bit real, date or no data, of at most five codes, storage number 0 or 1, codes the library has as the standard has them, reals in the base units of their codes and BCD of up to 14 digits; also with data of the manufacturer at the end of the message, and below extended link layers, encrypted or not. `C123_fails`: a storage number above 1, energies in MWh and reals in kWh are shown wrong, and five combinable codes crash the decoding. Dates are shown with the two digits of the year that are sent (C72); dates with a time are missing, their year is wrong (C26)."
  },
  {
   "property": "C124",
   "status": "proved",
   "theorems": [
    "MBus.C124_sbox",
    "MBus.C124_cipher",
    "MBus.C124_decoded_long",
    "MBus.C124_decoded_short",
    "MBus.C124_report_long",
    "MBus.C124_report_short",
    "MBus.C124_view"
   ],
   "note": ""
  },
  {
   "property": "C125",
   "status": "partial",
   "theorems": [
    "MBus.C125_text_partial",
    "MBus.C125_plain_text_partial",
    "MBus.C125_format_a_partial",
    "MBus.C125_fails_plain_text",
    "MBus.C125_fails"
   ],
   "note": "false for plain text units (characters shown backwards) and for the second start byte of a long frame when it is not 0x68; proved for all other segments"
  },
  {
   "property": "C126",
   "status": "partial",
   "theorems": [
    "MBus.C126_wired_partial",
    "MBus.C126_one_defect",
    "MBus.C126_one_defect_short",
    "MBus.C126_fails_stop",
    "MBus.C126_fails_empty",
    "MBus.C126_fails_trailing",
    "MBus.C126_invalid_partial",
    "MBus.C126_fails_wireless",
    "MBus.C126_security"
   ],
   "note": "false for the stop byte of short frames, for long frames of length 0 and for wireless frames with a malformed manufacturer or identification; proved for all other inputs, and completely for refused keys"
  },
  {
   "property": "C127",
   "status": "proved",
   "theorems": [
    "MBus.C127_table",
    "MBus.C127_unique",
    "MBus.C127_digits",
    "MBus.C127_document"
   ],
   "note": ""
  },
  {
   "property": "C128",
   "status": "proved",
   "theorems": [
    "MBus.C128_success",
    "MBus.C128_failure",
    "MBus.C128_codes",
    "MBus.C128_output",
    "MBus.C128_file"
   ],
   "note": ""
  },
  {
   "property": "C129",
   "status": "partial",
   "theorems": [
    "MBus.C129_text",
    "MBus.C129_total",
    "MBus.C129_message_fails"
   ],
   "note": "Everything but the message is proved; C129_message_fails shows that the message is not in the text, because the message of a JavaScript error is not enumerable. That JSON.stringify writes the members name, code, layer and byteOffset in this order is an assumption of the model about JavaScript and wasm-bindgen."
  },
  {
   "property": "C130",
   "status": "proved",
   "theorems": [
    "MBus.C130_both_ends",
    "MBus.C130_end",
    "MBus.C130_size"
   ],
   "note": ""
  },
  {
   "property": "C131",
   "status": "partial",
   "theorems": [
    "MBus.C131_equal",
    "MBus.C131_shown",
    "MBus.C131_converse_partial",
    "MBus.C131_fails"
   ],
   "note": "The converse holds for bytes that are UTF-8 (C131_converse_partial) and fails for all others (C131_fails)."
  },
  {
   "property": "C132",
   "status": "proved",
   "theorems": [
    "MBus.C132_records",
    "MBus.C132_spellings",
    "MBus.C132_hex",
    "MBus.C132_refused"
   ],
   "note": ""
  },
  {
   "property": "C133",
   "status": "partial",
   "theorems": [
    "MBus.C133_reals_partial",
    "MBus.C133_carried_partial",
    "MBus.C133_clear_partial",
    "MBus.C133_aes_partial",
    "MBus.C133_aes_short_partial"
   ],
   "note": "Left out are the readings that are shown wrong (C123_fails)."
  },
  {
   "property": "C134",
   "status": "partial",
   "theorems": [
    "MBus.C134_carried_partial",
    "MBus.C134_clear_partial",
    "MBus.C134_aes_partial",
    "MBus.C134_aes_short_partial"
   ],
   "note": "Left out are the readings that are shown wrong (C123_fails)."
  },
  {
   "property": "C135",
   "status": "partial",
   "theorems": [
    "MBus.C135_integer",
    "MBus.C135_real",
    "MBus.C135_exact",
    "MBus.C135_exact_real",
    "MBus.C135_special",
    "MBus.C135_plain",
    "MBus.C135_fails"
   ],
   "note": "What is smaller than a millionth of the base unit is lost: all readings in 10^-12 A are shown as 0.000000 (C135_fails)."
  },
  {
   "property": "C136",
   "status": "partial",
   "theorems": [
    "MBus.C136_clear_partial",
    "MBus.C136_sealed_partial",
    "MBus.C136_sealed_short_partial",
    "MBus.C136_fails"
   ],
   "note": "Numbers in fields of variable length are shown as hexadecimal bytes, some codes after FB with another unit (GJ/h as J) and combinable codes other than one power of ten are ignored (C136_fails). Codes the XML table has no name for are left out."
  },
  {
   "property": "C137",
   "status": "proved",
   "theorems": [
    "MBus.C137_wired",
    "MBus.C137_wireless",
    "MBus.C137_json",
    "MBus.C137_records"
   ],
   "note": ""
  },
  {
   "property": "C138",
   "status": "partial",
   "theorems": [
    "MBus.C138_sent_partial",
    "MBus.C138_fails"
   ],
   "note": "False of integers that a double cannot hold (shown rounded) and of integers of more than eight bytes (only the low bytes are shown): C138_fails. The theorem says that the text is the number a double nearest to the sent one denotes, exactly the sent one up to 53 bits. Readings excluded in C123 and Format A framing (see C95, C125) are not covered."
  },
  {
   "property": "C139",
   "status": "proved",
   "theorems": [
    "MBus.C139_decoded",
    "MBus.C139_json",
    "MBus.C139_csv",
    "MBus.C139_one_meter"
   ],
   "note": ""
  },
  {
   "property": "C140",
   "status": "proved",
   "theorems": [
    "MBus.C140_json",
    "MBus.C140_display",
    "MBus.C140_special",
    "MBus.C140_older",
    "MBus.C140_shortest",
    "MBus.C140_distinct",
    "MBus.C140_distinct_display",
    "MBus.C140_environment",
    "MBus.C140_document"
   ],
   "note": ""
  },
  {
   "property": "C141",
   "status": "partial",
   "theorems": [
    "MBus.C141_carried_partial",
    "MBus.C141_layout",
    "MBus.C141_read",
    "MBus.C141_clear_partial",
    "MBus.C141_aes_partial",
    "MBus.C141_aes_short_partial",
    "MBus.C141_meter"
   ],
   "note": "The layout, reading back and the name of the meter are proved in full. For the readings the exceptions are those of C123 (codes the library gets wrong)."
  },
  {
   "property": "C142",
   "status": "partial",
   "theorems": [
    "MBus.C142_carried_partial",
    "MBus.C142_picture",
    "MBus.C142_read",
    "MBus.C142_clear_partial",
    "MBus.C142_aes_partial",
    "MBus.C142_aes_short_partial",
    "MBus.C142_meter"
   ],
   "note": "The picture, reading back and the name of the meter are proved in full. For the readings the exceptions are those of C123 (codes the library gets wrong)."
  },
  {
   "property": "C143",
   "status": "partial",
   "theorems": [
    "MBus.C143_decoded",
    "MBus.C143_json_partial",
    "MBus.C143_alarms",
    "MBus.C143_application_fails",
    "MBus.C143_csv",
    "MBus.C143_one_status"
   ],
   "note": "C143_application_fails: a meter that is busy, or whose application has failed, is shown as 'Counter binary signed' or 'Counter fixed date'. C143_json_partial needs an application without error; C143_alarms, C143_csv and C143_one_status hold for every status."
  },
  {
   "property": "C144",
   "status": "proved",
   "theorems": [
    "MBus.C144_unopened_json",
    "MBus.C144_unopened_csv",
    "MBus.C144_opened_json",
    "MBus.C144_opened_csv",
    "MBus.C144_opened_short_json"
   ],
   "note": ""
  },
  {
   "property": "C145",
   "status": "partial",
   "theorems": [
    "MBus.C145_decoded_partial",
    "MBus.C145_json_partial",
    "MBus.C145_csv_partial",
    "MBus.C145_framed",
    "MBus.C145_primary_fails",
    "MBus.C145_wireless_fails"
   ],
   "note": "C145_primary_fails: every SND_NKE (control field 40) is shown with 'PRM: false' although the bit is set. C145_wireless_fails: the services 46, 47, 48 and 06 have names in the library but are shown without one. The partial theorems exclude just these five control fields."
  },
  {
   "property": "C146",
   "status": "partial",
   "theorems": [
    "MBus.C146_json_partial",
    "MBus.C146_csv_partial",
    "MBus.C146_xml_partial",
    "MBus.C146_counters_fails",
    "MBus.C146_stored_fails",
    "MBus.C146_binary_fails",
    "MBus.C146_reversed_fails",
    "MBus.C146_older_partial",
    "MBus.C146_wide_partial"
   ],
   "note": "C146_counters_fails: for every such telegram the JSON text says 'complete' and has no records. C146_stored_fails: the report of stored counters calls them actual values unless bit 6 of the status is set; the status text of the same telegram says 'Counter fixed date' (bit 1). C146_binary_fails: binary counters 4660 and 22136 are shown as 1234 and 5678. C146_reversed_fails: with the CI field 77 the number 12345678 is shown as 78563412. The partial theorems cover BCD counters with the CI field 73; the XML theorem also excludes the unit codes 0D and 0E (C79)."
  },
  {
   "property": "C147",
   "status": "partial",
   "theorems": [
    "MBus.C147_decoded_partial",
    "MBus.C147_json_partial",
    "MBus.C147_one_ell",
    "MBus.C147_receiver_fails",
    "MBus.C147_both_fails",
    "MBus.C147_long_fails"
   ],
   "note": "C147_receiver_fails: the library reads the layout of type IV under the CI field of type III (8E), so a type III layer is shown with a session number and a CRC made of the six bytes that follow it. C147_both_fails: type IV (8F) is rejected. C147_long_fails: a type I layer before a long transport header is rejected, and neither of the two is shown. C147_json_partial covers types I, before data without a header or with a short one, and II."
  },
  {
   "property": "C148",
   "status": "proved",
   "theorems": [
    "MBus.C148_report",
    "MBus.C148_one_meter",
    "MBus.C148_one_header",
    "MBus.C148_same_report",
    "MBus.C148_readings"
   ],
   "note": ""
  },
  {
   "property": "C149",
   "status": "proved",
   "theorems": [
    "MBus.C149_decoded",
    "MBus.C149_json",
    "MBus.C149_csv",
    "MBus.C149_json_recover",
    "MBus.C149_csv_recover"
   ],
   "note": ""
  },
  {
   "property": "C150",
   "status": "partial",
   "theorems": [
    "MBus.C150_long_partial",
    "MBus.C150_short_partial",
    "MBus.C150_radio_partial",
    "MBus.C150_start_fails",
    "MBus.C150_fourth_fails",
    "MBus.C150_radio_fails",
    "MBus.C150_long_fails"
   ],
   "note": "False in general: the fourth byte of a long frame is ignored (C150_fourth_fails), a first byte E5 makes a single character of anything (C150_start_fails), a wired telegram of 105 bytes with one wrong byte is shown as the radio telegram of another meter (C150_long_fails), and a radio telegram with a wrong byte in a block after the first is shown with a wrong reading and no remark (C150_radio_fails). Proved for all other wrong bytes of long, control and short frames, apart from received bytes whose first twelve happen to carry a correct CRC, and for the first block of radio telegrams."
  },
  {
   "property": "C151",
   "status": "partial",
   "theorems": [
    "MBus.C151_decoded_partial",
    "MBus.C151_texts_partial",
    "MBus.C151_json_partial",
    "MBus.C151_csv_partial",
    "MBus.C151_fails"
   ],
   "note": "False for a telegram without checksums whose eleventh and twelfth byte happen to be the CRC of the first ten: it is read as something the meter did not send (C151_fails). Proved for all others that are not taken for telegrams of the wire (C100)."
  },
  {
   "property": "C152",
   "status": "proved",
   "theorems": [
    "MBus.C152_spelling",
    "MBus.C152_bytes"
   ],
   "note": ""
  },
  {
   "property": "C153",
   "status": "proved",
   "theorems": [
    "MBus.C153_decoded",
    "MBus.C153_free",
    "MBus.C153_json",
    "MBus.C153_csv",
    "MBus.C153_table"
   ],
   "note": ""
  },
  {
   "property": "C154",
   "status": "partial",
   "theorems": [
    "MBus.C154_warned_partial",
    "MBus.C154_warned_short_partial",
    "MBus.C154_fails"
   ],
   "note": "False: a wrong key gives a complete telegram with a volume and a pressure the meter never sent, in all front ends (C154_fails). Proved: for every key the data shown are reported as decrypted but not verified, and are those the meter encrypted if the key is right."
  },
  {
   "property": "C155",
   "status": "partial",
   "theorems": [
    "MBus.C155_blocks",
    "MBus.C155_shown_partial",
    "MBus.C155_one_framing",
    "MBus.C155_nothing",
    "MBus.C155_unused_partial",
    "MBus.C155_fails"
   ],
   "note": "False for telegrams that are wired and wireless at once: the annotated view of a telegram in the clear shows garbage as decrypted that depends on the key (C155_fails). Proved for all other telegrams in all formats; for all telegrams if the keys decrypt every block alike (C155_blocks), and for the decoded structure (C155_nothing)."
  },
  {
   "property": "C156",
   "status": "partial",
   "theorems": [
    "MBus.C156_parse_iff",
    "MBus.C156_annotate",
    "MBus.C156_telegrams_partial",
    "MBus.C156_fails"
   ],
   "note": "False for bytes given to parse_application_layer directly (C156_fails: unbounded recursion). Proved for all telegrams (C156_telegrams_partial), and the exact number of calls of the parser (C156_parse_iff)."
  },
  {
   "property": "C157",
   "status": "proved",
   "theorems": [
    "MBus.C157_joined",
    "MBus.C157_fillers",
    "MBus.C157_telegrams",
    "MBus.C157_cut_off",
    "MBus.C157_sealed"
   ],
   "note": ""
  },
  {
   "property": "C158",
   "status": "partial",
   "theorems": [
    "MBus.C158_data_partial",
    "MBus.C158_telegrams_partial",
    "MBus.C158_fails",
    "MBus.C158_sealed_partial"
   ],
   "note": "False of the last record if the cut is not noticed (C158_fails). Proved for all others, and for all records if the answer is marked partial."
  },
  {
   "property": "C159",
   "status": "proved",
   "theorems": [
    "MBus.C159_records",
    "MBus.C159_same"
   ],
   "note": ""
  },
  {
   "property": "C160",
   "status": "partial",
   "theorems": [
    "MBus.C160_data",
    "MBus.C160_telegrams_partial",
    "MBus.C160_fails"
   ],
   "note": "False of telegrams in the byte order of CI 76 that are decrypted (C160_fails): they are read in the other byte order, which decoding of the bytes alone does not know."
  },
  {
   "property": "C161",
   "status": "proved",
   "theorems": [
    "MBus.C161_telegram",
    "MBus.C161_hex",
    "MBus.C161_records"
   ],
   "note": ""
  },
  {
   "property": "C162",
   "status": "proved",
   "theorems": [
    "MBus.C162_frame",
    "MBus.C162_record",
    "MBus.C162_iterator",
    "MBus.C162_decode",
    "MBus.C162_hex",
    "MBus.C162_records",
    "MBus.C162_render",
    "MBus.C162_older",
    "MBus.C162_diagram",
    "MBus.C162_cli",
    "MBus.C162_javascript",
    "MBus.C162_python"
   ],
   "note": ""
  },
  {
   "property": "C163",
   "status": "proved",
   "theorems": [
    "MBus.C163_record",
    "MBus.C163_iterator",
    "MBus.C163_without",
    "MBus.C163_records",
    "MBus.C163_decode",
    "MBus.C163_render",
    "MBus.C163_xml",
    "MBus.C163_older"
   ],
   "note": ""
  },
  {
   "property": "C164",
   "status": "partial",
   "theorems": [
    "MBus.C164_xml",
    "MBus.C164_older",
    "MBus.C164_annotated_partial",
    "MBus.C164_hexview_partial",
    "MBus.C164_fails"
   ],
   "note": "false for the annotated views of bytes that are a wired and a wireless telegram at once (C164_fails); proved for all others and for all other outputs"
  },
  {
   "property": "C165",
   "status": "partial",
   "theorems": [
    "MBus.C165_summary_partial",
    "MBus.C165_csv_partial",
    "MBus.C165_json_partial",
    "MBus.C165_diagram_partial",
    "MBus.C165_device",
    "MBus.C165_fails"
   ],
   "note": "Missing: the control fields 46, 47, 48 and 06, which are not named although the library has names for them (C165_fails), and the PRM bit of 40 in diagrams of wireless telegrams, which is shown as false (as in C145_primary_fails)."
  },
  {
   "property": "C166",
   "status": "proved",
   "theorems": [
    "MBus.C166_unit",
    "MBus.C166_quantity",
    "MBus.C166_distinct",
    "MBus.C166_summary",
    "MBus.C166_text"
   ],
   "note": ""
  },
  {
   "property": "C167",
   "status": "partial",
   "theorems": [
    "MBus.C167_wide_partial",
    "MBus.C167_json_partial",
    "MBus.C167_csv_partial",
    "MBus.C167_older_partial",
    "MBus.C167_xml_partial",
    "MBus.C167_fails"
   ],
   "note": "Wired telegrams with the control field 53 (frame count bit clear) are control frames, whose data is not looked at: nothing in the output says that they are resets (C167_fails)"
  },
  {
   "property": "C168",
   "status": "proved",
   "theorems": [
    "MBus.C168_json",
    "MBus.C168_csv",
    "MBus.C168_older",
    "MBus.C168_xml",
    "MBus.C168_wide"
   ],
   "note": ""
  },
  {
   "property": "C169",
   "status": "partial",
   "theorems": [
    "MBus.C169_json",
    "MBus.C169_csv",
    "MBus.C169_header_partial",
    "MBus.C169_diagram_wired",
    "MBus.C169_diagram_wireless",
    "MBus.C169_fails"
   ],
   "note": "Partial because false of the code: the state of the application (busy, error, alarm) is shown in the words of the fixed data structure's status (C169_fails, as in C143)."
  }
 ]
}