{"id": "C01", "title": "Wired acceptance is exactly the telegram grammar", "statement": "WiredFrame::try_from(bytes) returns Ok exactly when the bytes are (a) anything starting with E5, (b) a five byte short frame 10 C A CS 16 with CS = C+A mod 256 and C a known function code, or (c) 68 L L x C A payload CS 16 with total length L+6, L>=2, CS the byte sum of C, A and payload modulo 256 and C a known function code; and the returned variant carries exactly the function, address and payload at those positions.", "quantifier": "every byte string of any length", "why_tests_cant": "the input space is all byte strings; tests sample a few telegrams", "anchors": ["crates/wired-mbus-link-layer/src/lib.rs: TryFrom<&[u8]> for WiredFrame, validate_checksum"]}
{"id": "C02", "title": "Wired encode/decode round trip", "statement": "For every known function, address byte and payload of at most 253 bytes, the long frame built from them parses back to a frame with the same function, address and payload; likewise for every short frame.", "quantifier": "every function code, address byte and payload of length 0..253", "why_tests_cant": "2^(8*253) payloads", "anchors": ["crates/wired-mbus-link-layer/src/lib.rs: TryFrom<&[u8]> for WiredFrame"]}
{"id": "C03", "title": "Wired frames detect any single corrupted byte of the protected area", "statement": "If a long frame is accepted and exactly one byte among C, A, payload or checksum is replaced by a different value, or one of the two length bytes, or the stop byte is replaced, the result is rejected.", "quantifier": "every accepted long frame, every position in the protected area, every different replacement byte", "why_tests_cant": "tests flip a few bytes of a few frames", "anchors": ["crates/wired-mbus-link-layer/src/lib.rs: validate_checksum, TryFrom<&[u8]> for WiredFrame"]}
{"id": "C04", "title": "Wired parser never panics", "statement": "WiredFrame::try_from returns Ok or Err for every byte string and never panics. (False with overflow checks on: the exact set of panicking inputs is those starting with 68 whose total length is 4 or 5.)", "quantifier": "every byte string, overflow checks on or off", "why_tests_cant": "panics hide at two input lengths no test tries", "anchors": ["crates/wired-mbus-link-layer/src/lib.rs: validate_checksum (data.len() - 2)"]}
{"id": "C05", "title": "Function codes", "statement": "Function::try_from(byte) succeeds for exactly the twelve codes 40 44 53 73 5A 7A 5B 7B 08 18 28 38, distinct codes give distinct functions, and the FCB/ACD/DFC flags equal bit 5 / bit 5 / bit 4 of the byte.", "quantifier": "all 256 bytes", "why_tests_cant": "a table error in an untested row is invisible", "anchors": ["crates/m-bus-core/src/lib.rs: TryFrom<u8> for Function"]}
{"id": "C06", "title": "Wired address classes", "statement": "An accepted frame's address is Uninitialized for 0, Secondary for 253, Broadcast with reply for 254, Broadcast without reply for 255 and Primary(byte) otherwise; different address bytes are reported differently.", "quantifier": "all 256 address bytes", "why_tests_cant": "table property over the whole byte range", "anchors": ["crates/wired-mbus-link-layer/src/lib.rs: Address::from"]}
{"id": "C07", "title": "Manufacturer code round trip", "statement": "ManufacturerCode::from_id succeeds exactly when each of the three 5-bit groups (with the top bit of the 16-bit id included in the first group) is in 1..=26; to_id is a left and right inverse on accepted ids and on three-letter upper-case codes; distinct accepted ids give distinct codes.", "quantifier": "all 65536 ids and all 26^3 codes", "why_tests_cant": "tests check a few manufacturers", "anchors": ["crates/m-bus-core/src/lib.rs: ManufacturerCode::from_id, to_id"]}
{"id": "C08", "title": "Identification number BCD round trip", "statement": "bcd_hex_digits_to_u32 succeeds exactly when all eight nibbles are decimal digits, the result is then the 8-digit decimal number they spell (least significant byte first), is below 100000000, and re-encoding it to BCD gives back the same four bytes; conversely every number below 10^8 survives encode then decode.", "quantifier": "all 2^32 four-byte inputs and all numbers below 10^8", "why_tests_cant": "2^32 inputs", "anchors": ["crates/m-bus-core/src/lib.rs: bcd_hex_digits_to_u32", "crates/m-bus-core/src/decryption.rs: decimal_to_bcd"]}
{"id": "C09", "title": "Device type byte round trip", "statement": "u8::from(DeviceType::from(b)) = b for every byte b, so distinct bytes are distinct device types.", "quantifier": "all 256 bytes", "why_tests_cant": "a wrong row is invisible unless that device is tested", "anchors": ["crates/m-bus-core/src/lib.rs: From<u8> for DeviceType, From<DeviceType> for u8"]}
{"id": "C10", "title": "Configuration field decomposition", "statement": "For every 16-bit configuration field the security mode, low byte and top three bits reassemble to the raw value; security_mode().to_bits() equals bits 8..12 and mode 0 is the only one reported as unencrypted.", "quantifier": "all 65536 configuration values", "why_tests_cant": "65536 values", "anchors": ["crates/m-bus-core/src/lib.rs: ConfigurationField, SecurityMode::from_bits, to_bits"]}
{"id": "C11", "title": "CRC-16/EN13757 detects single-byte and short burst errors", "statement": "If a block followed by its CRC validates, then replacing any single byte, any two adjacent bytes, any burst of up to 16 bits or any odd number of bits of the block and CRC makes it fail validation; the implemented bitwise CRC is the remainder of polynomial division by x^16+0x3D65.", "quantifier": "every block of every length, every position, every replacement", "why_tests_cant": "all block contents and all error patterns", "anchors": ["crates/wireless-mbus-link-layer/src/lib.rs: crc16_en13757"]}
{"id": "C12", "title": "Wireless acceptance characterisation", "statement": "WirelessFrame::try_from accepts exactly the byte strings of at least 11 bytes whose L field is length-1, whose manufacturer id is three letters and whose identification number is BCD; and the fields of the result are those bytes. Errors are EmptyData / TooShort / WrongLength in that order of precedence.", "quantifier": "every byte string", "why_tests_cant": "all byte strings", "anchors": ["crates/wireless-mbus-link-layer/src/lib.rs: TryFrom<&[u8]> for WirelessFrame, ManufacturerId::try_from"]}
{"id": "C13", "title": "Wireless payload and trailing CRC", "statement": "The payload of an accepted wireless frame is the bytes from offset 10 to the end, minus the last two bytes exactly when they are the CRC of everything before them (and the frame is at least 12 bytes); never panics.", "quantifier": "every byte string", "why_tests_cant": "all byte strings", "anchors": ["crates/wireless-mbus-link-layer/src/lib.rs: trailing_frame_crc_start, WirelessFrame::try_from"]}
{"id": "C14", "title": "Format A CRC stripping inverts Format A framing", "statement": "For every frame of at least 10 bytes, inserting the block CRCs of Format A (10-byte first block, 16-byte blocks after, last one shorter) and then stripping them gives back the frame with its L field set to length-1.", "quantifier": "every frame content and length", "why_tests_cant": "all frame lengths and contents", "anchors": ["crates/wireless-mbus-link-layer/src/lib.rs: strip_format_a_crcs"]}
{"id": "C15", "title": "Format A stripping is safe and faithful on any input", "statement": "strip_format_a_crcs never reads or writes out of bounds; it returns None exactly when the input is shorter than 12 bytes, the buffer is shorter than the input, or the first block CRC is wrong; otherwise the output is no longer than the input minus 2, keeps bytes 1..9 and is a subsequence of the input apart from the L field, and its L field is the output length minus one modulo 256.", "quantifier": "every input, every buffer size", "why_tests_cant": "all byte strings", "anchors": ["crates/wireless-mbus-link-layer/src/lib.rs: strip_format_a_crcs"]}
{"id": "C16", "title": "DIF/DIFE chain size", "statement": "A data information block consumes the DIF and its DIFEs: it is accepted exactly when the chain terminates within the data and has at most eleven DIFEs, and then the DIFEs are exactly the bytes linked by extension bits and the reported size is one plus their number; an unterminated chain is rejected as too short and a longer one as too long.", "quantifier": "every byte string", "why_tests_cant": "chains of every length", "anchors": ["crates/m-bus-application-layer/src/data_information.rs: DataInformationBlock::try_from, get_size"]}
{"id": "C17", "title": "Storage number follows EN 13757-3", "statement": "The storage number of a record is bit 6 of the DIF plus, for the i-th DIFE (from 0), its low nibble shifted left by 4*i+1. (False of the code: the shift is 4*i+5; proved exactly what the code computes, that it agrees with the standard when every DIFE storage nibble is zero and that it disagrees otherwise.)", "quantifier": "every DIF and DIFE chain", "why_tests_cant": "only chains with storage bits reveal it", "anchors": ["crates/m-bus-application-layer/src/data_information.rs: TryFrom<&DataInformationBlock> for DataInformation", "src/rscada_xml.rs: storage_number"]}
{"id": "C18", "title": "Tariff and subunit follow EN 13757-3", "statement": "Tariff is the concatenation of the 2-bit groups (bits 4..5) and subunit of the single bits (bit 6) of the DIFEs, least significant DIFE first, for every chain.", "quantifier": "every DIFE chain", "why_tests_cant": "all chains", "anchors": ["crates/m-bus-application-layer/src/data_information.rs", "src/rscada_xml.rs: tariff, device"]}
{"id": "C19", "title": "The library and the XML output agree on storage number, tariff and subunit", "statement": "For every record, the storage number / tariff / subunit in the structured output equals the one in the normalized XML output. (False for storage numbers.)", "quantifier": "every record header", "why_tests_cant": "two independent implementations, all inputs", "anchors": ["crates/m-bus-application-layer/src/data_information.rs", "src/rscada_xml.rs: storage_number, tariff, device"]}
{"id": "C20", "title": "VIF/VIFE block parsing consumes exactly the linked bytes", "statement": "When a value information block is parsed, its size is one plus the number of VIFEs plus (for plain text VIFs) one plus the text length; VIFEs are exactly the bytes linked by extension bits.", "quantifier": "every byte string", "why_tests_cant": "all chains", "anchors": ["crates/m-bus-application-layer/src/value_information.rs: ValueInformationBlock::try_from, get_size, extract_plaintext_vife"]}
{"id": "C21", "title": "Value information parsing never panics", "statement": "Parsing the value information of any record header returns Ok or Err. (False: VIF 7D, an eleventh VIFE, plain text longer than nine characters, more than ten labels or units all panic.)", "quantifier": "every byte string", "why_tests_cant": "specific byte patterns no test contains", "anchors": ["crates/m-bus-application-layer/src/value_information.rs: ValueInformationBlock::try_from, ValueInformation::try_from, consume_orthhogonal_vife"]}
{"id": "C22", "title": "Primary VIF table", "statement": "For every primary VIF (EN 13757-3 table 10) without extension the unit, quantity and power of ten reported are those of the standard: energy Wh 10^(n-3), J 10^n, volume m3 10^(n-6), mass kg 10^(n-3), power W 10^(n-3), J/h 10^n, volume flow, mass flow, temperatures, pressure, and so on.", "quantifier": "all 128 primary VIF codes", "why_tests_cant": "128 rows", "anchors": ["crates/m-bus-application-layer/src/value_information.rs: ValueInformation::try_from"]}
{"id": "C23", "title": "Fixed-size integers decode as two's complement", "statement": "For DIF codes 1,2,3,4,6,7 the value is the little-endian two's complement value of the 1,2,3,4,6,8 data bytes (the 8-byte one rounded to f64); it is rejected exactly when fewer bytes are available; encoding any in-range integer and decoding it gives the integer back.", "quantifier": "every data byte string, every integer in range", "why_tests_cant": "2^48 values", "anchors": ["crates/m-bus-application-layer/src/data_information.rs: integer_to_value_internal, DataFieldCoding::parse"]}
{"id": "C24", "title": "BCD decode", "statement": "For BCD codings the value is the decimal number spelled by the nibbles, rejected exactly when a nibble is not a digit or bytes are missing; lsb-order reverses the bytes.", "quantifier": "every data byte string", "why_tests_cant": "10^12 values", "anchors": ["crates/m-bus-application-layer/src/data_information.rs: bcd_to_value_internal, DataFieldCoding::parse"]}
{"id": "C25", "title": "Date type G", "statement": "A type G date decodes to day = bits 0..4, month = bits 8..11, year = the 7-bit year; encode then decode is the identity on valid dates; day 0 and year 127 mean 'every'; months outside 1..12 are reported invalid.", "quantifier": "all 65536 two-byte values", "why_tests_cant": "65536 values", "anchors": ["crates/m-bus-application-layer/src/data_information.rs: parse_single_or_every!, parse_year!, parse_month!, DataFieldCoding::parse"]}
{"id": "C26", "title": "Date and time types F and I", "statement": "A type F / type I value decodes to the date in its day/month bytes. (False: the year is taken from the minute/hour or second/minute bytes.)", "quantifier": "every 4- and 6-byte value", "why_tests_cant": "the test vectors happen to match", "anchors": ["crates/m-bus-application-layer/src/data_information.rs: DataFieldCoding::parse (DateTimeTypeF, DateTimeTypeI)", "src/rscada_xml.rs: date_f_decode, date_i_decode"]}
{"id": "C27", "title": "Record iteration terminates, makes progress and is fused", "statement": "Iterating the records of any byte string yields at most as many items as bytes, every yielded record consumed at least one byte, and after the first error or the end the iterator yields nothing more.", "quantifier": "every byte string", "why_tests_cant": "all inputs and all numbers of next() calls", "anchors": ["crates/m-bus-application-layer/src/lib.rs: Iterator for DataRecords"]}
{"id": "C28", "title": "Records tile the data", "statement": "When iteration ends without error, the raw bytes of the records, in order, interleaved only with skipped filler/reserved bytes, concatenate to exactly the input.", "quantifier": "every byte string", "why_tests_cant": "all inputs", "anchors": ["crates/m-bus-application-layer/src/lib.rs: Iterator for DataRecords", "crates/m-bus-application-layer/src/data_record.rs: DataRecord::parse"]}
{"id": "C29", "title": "A record's raw bytes are its header followed by its data", "statement": "For every parsed record, raw_bytes is a prefix of the parsed data, header_hex and data_hex concatenate to it, and the header part has the DIB+VIB size.", "quantifier": "every byte string", "why_tests_cant": "all inputs", "anchors": ["crates/m-bus-application-layer/src/data_record.rs: DataRecord::parse, data_record_header_hex, data_hex"]}
{"id": "C30", "title": "A record depends only on its own bytes", "statement": "Parsing a record followed by more bytes gives the same record as parsing it alone, provided it is not one of the codings that by definition extend to the end of the data.", "quantifier": "every record and every suffix", "why_tests_cant": "all suffixes", "anchors": ["crates/m-bus-application-layer/src/data_record.rs: DataRecord::parse"]}
{"id": "C31", "title": "Variable-length data", "statement": "For DIF code D the LVAR byte alone decides the number of following bytes consumed: 00-BF text of LVAR bytes, C0-C9 / D0-D9 positive / negative BCD of LVAR&0F bytes, E0-EF integer of LVAR&0F bytes, F0-F6 long integers; reserved LVARs are rejected.", "quantifier": "every LVAR and data", "why_tests_cant": "256 x all data", "anchors": ["crates/m-bus-application-layer/src/data_information.rs: DataFieldCoding::parse (VariableLength)"]}
{"id": "C32", "title": "Application layer dispatch", "statement": "UserDataBlock::try_from returns MissingControlInformation for empty input, InvalidControlInformation for unknown CI, and for CI 72/76, 7A, A0..AF, 78, 73/77, 50, 8C/8D/8E the corresponding structure whose variable data block is exactly the bytes after the header.", "quantifier": "every byte string", "why_tests_cant": "all byte strings", "anchors": ["crates/m-bus-application-layer/src/lib.rs: TryFrom<&[u8]> for UserDataBlock, ControlInformation::from"]}
{"id": "C33", "title": "Long and short TPL header fields", "statement": "Identification number, manufacturer, version, device type, access number, status and configuration of a parsed header are the header bytes at their standard positions; CI 76 reverses the identification bytes.", "quantifier": "every header", "why_tests_cant": "all header bytes", "anchors": ["crates/m-bus-application-layer/src/lib.rs: UserDataBlock::try_from"]}
{"id": "C34", "title": "Extended link layer", "statement": "ELL I/II/III headers take exactly 2/8/16 bytes after CI; their fields are those bytes; a nested ELL of any depth terminates.", "quantifier": "every byte string", "why_tests_cant": "all nestings", "anchors": ["crates/m-bus-application-layer/src/extended_link_layer.rs", "crates/m-bus-application-layer/src/lib.rs: UserDataBlock::try_from"]}
{"id": "C35", "title": "Encrypted payloads are never decoded as records through the user data block", "statement": "UserDataBlock::data_records() is None whenever the header's security mode is not 0, and otherwise iterates exactly the variable data block.", "quantifier": "every user data block", "why_tests_cant": "all blocks", "anchors": ["crates/m-bus-application-layer/src/lib.rs: UserDataBlock::data_records, is_encrypted"]}
{"id": "C36", "title": "MbusData and UserDataBlock agree on the records", "statement": "The records of MbusData equal those of its user data block. (False: MbusData exposes ciphertext as records and ignores the byte order of CI 76.)", "quantifier": "every frame", "why_tests_cant": "only encrypted or CI 76 frames show it", "anchors": ["src/mbus_data.rs: MbusData::try_from", "crates/m-bus-application-layer/src/lib.rs: data_records"]}
{"id": "C37", "title": "A valid link frame is always delivered", "statement": "MbusData::try_from fails only when the link layer frame is invalid; an application layer error never hides the frame, and exactly one of user_data and application_error is set for a long or wireless frame.", "quantifier": "every byte string", "why_tests_cant": "all application errors", "anchors": ["src/mbus_data.rs: MbusData::try_from"]}
{"id": "C38", "title": "Key provider behaves like a bounded first-wins map", "statement": "After any sequence of add_key calls, get_key returns the key of the first successful add for that (manufacturer, identification) and KeyNotFound if there was none; add_key fails exactly when N keys are stored and then changes nothing; distinct meters never share a slot.", "quantifier": "every sequence of operations and every capacity", "why_tests_cant": "all histories", "anchors": ["crates/m-bus-core/src/decryption.rs: StaticKeyProvider::add_key, compute_key_id, get_key"]}
{"id": "C39", "title": "Decryption length and frame conditions", "statement": "decrypt_into returns the data length, writes only the first that many output bytes, fails when the output is too short, leaves a trailing partial block unchanged, and for NoEncryption copies the data; unsupported modes are rejected; the key is looked up first.", "quantifier": "every payload, output buffer, key provider and cipher", "why_tests_cant": "all lengths and ciphers", "anchors": ["crates/m-bus-core/src/decryption.rs: decrypt_into, decrypt_aes_cbc_into"]}
{"id": "C40", "title": "CBC decryption inverts CBC encryption", "statement": "If the payload is the CBC encryption of a plaintext (whole blocks) under the key and the IV derived from the context, decrypting returns the plaintext, for any block cipher whose decryption inverts its encryption.", "quantifier": "every key, plaintext, context and block cipher", "why_tests_cant": "all keys and plaintexts", "anchors": ["crates/m-bus-core/src/decryption.rs: decrypt_aes_cbc_into, _derive_iv"]}
{"id": "C41", "title": "Derived IV equals the frame's address field", "statement": "The mode 5 IV is the manufacturer id and BCD identification number exactly as in the header, version, device type and eight copies of the access number; contexts differing in any of these give different IVs.", "quantifier": "every header", "why_tests_cant": "all headers", "anchors": ["crates/m-bus-core/src/decryption.rs: _derive_iv, decimal_to_bcd"]}
{"id": "C42", "title": "Annotation covers every byte exactly once", "statement": "annotate_frame returns contiguous segments from 0 to the input length. (False: for a single character followed by more bytes only the first byte is covered; proved for all other frames.)", "quantifier": "every byte string accepted by annotate_frame", "why_tests_cant": "all frames", "anchors": ["src/annotate.rs: annotate_frame, annotate_application_layer, annotate_data_records"]}
{"id": "C43", "title": "Strict hex parser", "statement": "decode_hex_bytes inverts upper- or lower-case hex printing in compact form and in tokens separated by any mix of whitespace, ':' and '-', with optional 0x prefixes; it rejects odd digit counts, incomplete tokens and non-hex characters; and it never returns an empty vector.", "quantifier": "every string", "why_tests_cant": "all strings", "anchors": ["src/output.rs: decode_hex_bytes, push_hex_token, hex_string"]}
{"id": "C44", "title": "Legacy hex parser never fails but silently maps garbage to zero", "statement": "clean_and_convert inverts hex printing; for any invalid pair it yields 0 without an error (so distinct inputs collapse).", "quantifier": "every string", "why_tests_cant": "all strings", "anchors": ["src/mbus_data.rs: clean_and_convert"]}
{"id": "C45", "title": "Exact decimal rendering of signed integers", "statement": "signed_le_decimal(bytes) is the decimal representation, without leading zeros and with '-' exactly for negative values, of the little-endian two's complement integer, for any number of bytes.", "quantifier": "every non-empty byte string", "why_tests_cant": "64-byte integers", "anchors": ["src/output.rs: signed_le_decimal"]}
{"id": "C46", "title": "Scaled decimal is numerically exact", "statement": "scaled_decimal(significand, scale, offset) denotes exactly significand*10^scale (+10^offset); without an offset the result is in canonical form (no redundant zeros, no '-0').", "quantifier": "every significand, scale and offset", "why_tests_cant": "all digit strings and exponents", "anchors": ["src/output.rs: scaled_decimal, add_signed_decimal_integers, apply_power10"]}
{"id": "C47", "title": "Scaled decimal is canonical with an additive offset", "statement": "With an additive offset the rendered number also has no redundant leading zeros. (False: 0 at scale 2 with offset -3 renders 000.001.)", "quantifier": "every significand, scale and offset", "why_tests_cant": "needs a zero or small value with mixed exponents", "anchors": ["src/output.rs: add_abs, apply_power10"]}
{"id": "C48", "title": "Additive correction applies only to correction VIFEs", "statement": "A record's value is offset by 10^(n-3) only if an orthogonal VIFE 78..7B is present. (False: the first VIFE after FB/FD, which selects the quantity, is also taken as a correction.)", "quantifier": "every VIB", "why_tests_cant": "only FB 78..7B records show it", "anchors": ["src/output.rs: record_offset_power10"]}
{"id": "C49", "title": "XML text encoding is safe and reversible", "statement": "xml_encode output contains no raw '<', '>', '\"', no '&' that does not start one of four entities and no control characters; decoding the entities gives back the input for texts without control characters.", "quantifier": "every string", "why_tests_cant": "all strings", "anchors": ["src/rscada_xml.rs: xml_encode"]}
{"id": "C50", "title": "XML integer and BCD decode agree with the structured output", "statement": "For integers of up to 8 bytes and for BCD data that the library accepts, the XML decoder computes the same number as the library's record parser.", "quantifier": "every data byte string", "why_tests_cant": "two implementations, all inputs", "anchors": ["src/rscada_xml.rs: int_decode, bcd_decode", "crates/m-bus-application-layer/src/data_information.rs"]}
{"id": "C51", "title": "Table rendering respects the column width", "statement": "A table is refused below 32 columns; otherwise no line is wider than asked for. Every line of a wrapped cell fits its column, the wrapped lines concatenate to the original text, all lines of a box have the same display width, and every record's reading, function, coding and raw bytes appear whole in a cell. Widths are those of a width function that is additive and at most two per character.", "quantifier": "every text and width", "why_tests_cant": "all texts", "anchors": ["src/output.rs: wrap_display, push_row, push_border, box_table"]}
{"id": "C52", "title": "Mermaid escaping cannot break out of a label", "statement": "The label made from any text contains no double quote, '<', '>' or newline, displays as the text (newlines as blanks), and is shared only by texts that differ in newlines and blanks. (False of the older rendering in mbus_data, which keeps '<', '>' and newlines and confuses '[' with '#91;'.)", "quantifier": "every string", "why_tests_cant": "all strings", "anchors": ["src/output.rs: mermaid_escape", "src/mbus_data.rs: mermaid_escape"]}
{"id": "C53", "title": "Encrypted frames without a key expose no records", "statement": "decode_bytes without a key on a frame whose payload is encrypted yields no records, decode state partial and protection encrypted; on a clear frame a supplied key changes nothing but key_supplied and one diagnostic.", "quantifier": "every frame and key", "why_tests_cant": "all frames", "anchors": ["src/output.rs: decode_bytes, prepare_security, security_fields, build_output"]}
{"id": "C54", "title": "Record error offset points at the failing record", "statement": "The offset reported when record decoding fails is the byte offset at which the failing record starts. (False when fillers are skipped: they are not counted.)", "quantifier": "every record data", "why_tests_cant": "needs fillers before the bad record", "anchors": ["src/output.rs: collect_records"]}
{"id": "C55", "title": "Decrypted hex view of a wired frame is a valid frame", "statement": "The display bytes built for a decrypted wired frame parse as a wired frame again with the same function and address, and its payload is the original header followed by the decrypted data.", "quantifier": "every frame, key and cipher", "why_tests_cant": "all frames and keys", "anchors": ["src/mbus_data.rs: decrypted_wired_hexview_data"]}
{"id": "C56", "title": "Decrypted hex view of a wireless frame keeps the header", "statement": "The display bytes built for a decrypted wireless frame are the original header bytes followed by the decrypted data. (False when the frame carries a valid trailing CRC: the splice is shifted by two bytes.)", "quantifier": "every frame, key and cipher", "why_tests_cant": "needs a trailing CRC", "anchors": ["src/mbus_data.rs: decrypted_wireless_hexview_data"]}
{"id": "C57", "title": "Format A stripping rejects frames with a bad block CRC", "statement": "strip_format_a_crcs returns None if the frame doesn't have valid Format A CRCs, as its documentation says. (False: only the first block's CRC is enforced; a damaged later block is copied with its CRC bytes and a frame is returned.)", "quantifier": "every input", "why_tests_cant": "needs a frame with a corrupted later block", "anchors": ["crates/wireless-mbus-link-layer/src/lib.rs: strip_format_a_crcs"]}
{"id": "C58", "title": "DIF function and coding tables", "statement": "For every DIF value the reported function is the one selected by bits 4..5 (instantaneous, maximum, minimum, during error) and the coding the one selected by the low nibble in EN 13757-3; 0F, 1F, 2F and 7F are the special functions and every other code ending in F is reserved.", "quantifier": "every DIF byte; every accepted data information block", "why_tests_cant": "a test samples a few DIFs; the table has 256 entries and must be applied for every chain", "anchors": ["crates/m-bus-application-layer/src/data_information.rs: DataInformation::try_from"]}
{"id": "C59", "title": "Extension table FD", "statement": "The units, quantity and power of ten reported for a value information block with VIF FD and one code byte are those of the first extension table of EN 13757-3 (linear VIF extension); codes without a meaning are reported as reserved.", "quantifier": "all 128 codes of the table, with and without extension bit, and every following byte", "why_tests_cant": "samples of a few codes leave wrong units in the others unnoticed", "anchors": ["crates/m-bus-application-layer/src/value_information.rs: ValueInformation::try_from, MainVIFExtension"]}
{"id": "C60", "title": "Extension table FB", "statement": "The units, quantity and power of ten reported for a value information block with VIF FB and one code byte are those of the alternate extension table of EN 13757-3; codes without a meaning are reported as reserved.", "quantifier": "all 128 codes of the table", "why_tests_cant": "samples of a few codes leave wrong units in the others unnoticed", "anchors": ["crates/m-bus-application-layer/src/value_information.rs: ValueInformation::try_from, AlternateVIFExtension"]}
{"id": "C61", "title": "Combinable VIFE tables", "statement": "A combinable VIFE contributes the label, unit or power of ten EN 13757-3 assigns to it, in the base table and in the table after FC; additive correction constants contribute to the offset.", "quantifier": "all 128 codes of both tables", "why_tests_cant": "samples of a few codes leave wrong units in the others unnoticed", "anchors": ["crates/m-bus-application-layer/src/value_information.rs: consume_orthhogonal_vife"]}
{"id": "C62", "title": "Codes of a value information block add up", "statement": "The value information of a block consists of the labels and units of all its codes in order, and its power of ten is the sum of the powers of ten of all its codes.", "quantifier": "every value information block with any number and order of codes", "why_tests_cant": "the number of combinations of codes is not testable", "anchors": ["crates/m-bus-application-layer/src/value_information.rs: ValueInformation::try_from"]}
{"id": "C63", "title": "Parsing data records never panics", "statement": "Iterating the data records of any byte string returns items or errors and never panics.", "quantifier": "every byte string, every build configuration", "why_tests_cant": "panics sit in rare combinations of VIFs, VIFE chains and lengths", "anchors": ["crates/m-bus-application-layer/src/data_record.rs: DataRecord::parse", "crates/m-bus-application-layer/src/value_information.rs", "crates/m-bus-application-layer/src/data_information.rs: DataFieldCoding::parse"]}
{"id": "C64", "title": "Dates are recognised by their value information", "statement": "The data of a record is decoded as a date, or date and time, exactly when the value information says so, and otherwise by the data field of the DIF.", "quantifier": "every parsed record", "why_tests_cant": "all combinations of DIF codings and labels, including labels added by VIFEs", "anchors": ["crates/m-bus-application-layer/src/data_record.rs: ProcessedDataRecordHeader::try_from"]}
{"id": "C65", "title": "Decrypting a parsed block gives the plain text", "statement": "If the payload after a long header with security mode 5 is AES-128-CBC encrypted with the meter key and the EN 13757-7 initialisation vector formed from the header bytes, decrypting the parsed block yields the plain bytes; blocks that are not encrypted or have no address yield an error and leave the buffer untouched; the short header variant with context behaves like a long header with that address.", "quantifier": "every header, key, plain text and block cipher", "why_tests_cant": "all keys, addresses and payload lengths", "anchors": ["crates/m-bus-application-layer/src/lib.rs: UserDataBlock::decrypt_variable_data, decrypt_variable_data_with_context"]}
{"id": "C66", "title": "Status text lists exactly the set flags", "statement": "The text of a status byte is the names of its set flags in order of their bits separated by commas, 'No Error(s)' exactly for 0, and different bytes have different texts.", "quantifier": "every status byte", "why_tests_cant": "all combinations of flags", "anchors": ["crates/m-bus-application-layer/src/lib.rs: StatusField Display"]}
{"id": "C67", "title": "Direction of decoded blocks", "statement": "Every CI field the user data parser decodes is one sent by a meter, except the application reset, which is one sent to a meter.", "quantifier": "every byte string that parses", "why_tests_cant": "all CI fields", "anchors": ["crates/m-bus-application-layer/src/lib.rs: Direction, ControlInformation, UserDataBlock::try_from"]}
{"id": "C68", "title": "Payloads encrypted at the extended link layer are not decoded", "statement": "A payload encrypted according to its extended link layer is not offered as data records. (False: the session number's encryption bits are ignored and the ciphertext is iterated.)", "quantifier": "every frame with extended link layer II or III", "why_tests_cant": "needs frames with every session number", "anchors": ["crates/m-bus-application-layer/src/lib.rs: UserDataBlock::try_from, data_records", "crates/m-bus-application-layer/src/extended_link_layer.rs: ExtendedLinkLayer::parse"]}
{"id": "C69", "title": "The byte order of CI 76 applies to all values", "statement": "Under CI 76 every multi-byte value is read most significant byte first. (False: only BCD values are.)", "quantifier": "every data field under CI 76", "why_tests_cant": "all codings", "anchors": ["crates/m-bus-application-layer/src/data_information.rs: DataFieldCoding::parse"]}
{"id": "C70", "title": "Structured values are exact", "statement": "In the structured output an integer or BCD value appears with exactly the encoded number: as JSON integer when small enough, otherwise as decimal text; reals carry exactly the encoded bits and infinities and NaN are named. (False for 8 and 9 byte variable length BCD: rounded.)", "quantifier": "every record with an integer, BCD or real coding", "why_tests_cant": "all values of all widths; loss appears only above 2^53", "anchors": ["src/output.rs: value_output, exact_significand, exact_variable_significand, finite_number"]}
{"id": "C71", "title": "Text values are the transmitted text", "statement": "A text value is the transmitted bytes in reading order, decoded as UTF-8 if they are valid UTF-8 and as Latin-1 otherwise, so every UTF-8 text round-trips.", "quantifier": "every text", "why_tests_cant": "all strings", "anchors": ["src/output.rs: value_output", "crates/m-bus-application-layer/src/data_information.rs: TextUnit"]}
{"id": "C72", "title": "Dates are reported as ISO text of the calendar date", "statement": "A complete date, time or date and time is reported as its ISO 8601 text; an incomplete one by its components. (False of the year: the two-digit year is printed as four digits without century.)", "quantifier": "every record with a date coding", "why_tests_cant": "all dates", "anchors": ["src/output.rs: temporal_value, temporal_iso, component_json"]}
{"id": "C73", "title": "XML dates and times", "statement": "In the XML document a type G date, type F date and time and type I date, time and seconds is shown as the ISO 8601 text of exactly the encoded calendar date; encodings that are not dates are shown as invalid.", "quantifier": "every date and time", "why_tests_cant": "all dates, and all bit patterns that are no date", "anchors": ["src/rscada_xml.rs: date_g_decode, date_f_decode, date_i_decode"]}
{"id": "C74", "title": "XML units are the library's units", "statement": "The unit, and power of ten, the XML document shows for a record is the one the library reports for the same value information. (False for some codes of both extension tables and for corrections after an extension or in a second VIFE.)", "quantifier": "every VIF and VIFE", "why_tests_cant": "two independent tables of several hundred entries have to agree", "anchors": ["src/rscada_xml.rs: vib_unit_normalize, vif_unit_normalize", "crates/m-bus-application-layer/src/value_information.rs"]}
{"id": "C75", "title": "The XML document is well-formed", "statement": "Every document is well-formed XML: a declaration and one root element, with matching tags, escaped texts and allowed characters only, containing the identification of the device and one numbered element per record the library can parse. (False for texts with U+FFFE or U+FFFF.)", "quantifier": "every frame, key and cipher", "why_tests_cant": "texts of the telegram are copied into the document; all of them must be escaped", "anchors": ["src/rscada_xml.rs: render_from_bytes, render_variable, render_fixed, xml_encode"]}
{"id": "C76", "title": "The XML document is in the encoding it declares", "statement": "Reading the bytes of the document in the encoding named in its declaration gives the document's text. (False: it declares ISO-8859-1, and is UTF-8; units like \u00b0C come out wrong.)", "quantifier": "every document", "why_tests_cant": "needs documents with characters outside ASCII", "anchors": ["src/rscada_xml.rs: XML_PROCESSING_INSTRUCTION"]}
{"id": "C77", "title": "XML without a key shows no encrypted data", "statement": "Without a key the document of a frame with encrypted data contains no records, and does not depend on the encrypted data. (False of wired frames: the ciphertext is shown as records.)", "quantifier": "every frame with encrypted data", "why_tests_cant": "all ciphertexts", "anchors": ["src/rscada_xml.rs: render_from_bytes, render_wireless"]}
{"id": "C78", "title": "Encryption does not change the decoded values", "statement": "A frame whose data are encrypted and the same frame in clear give the same records when the key is supplied. (False under CI 76: the byte order is applied only to decrypted data.)", "quantifier": "every header, data and cipher", "why_tests_cant": "all headers and data; needs CI 76", "anchors": ["src/output.rs: decode_bytes, build_wired_output", "src/rscada_xml.rs: render_with_optional_decryption"]}
{"id": "C79", "title": "Units of fixed data", "statement": "The unit the XML document shows for a counter of the fixed data structure is the one EN 13757-3 assigns to its 6 bit code. (False for two codes, which are exchanged.)", "quantifier": "all 64 codes", "why_tests_cant": "samples of a few codes leave wrong units in the others unnoticed", "anchors": ["src/rscada_xml.rs: fixed_unit"]}
{"id": "C80", "title": "XML units and quantities are those of the standard", "statement": "For every primary VIF and every code of the FD and FB extension tables the XML document shows the quantity, unit and power of ten EN 13757-3 assigns to it. (False for some codes of the extension tables: unknown units, J instead of J/h, a wrong power of ten.)", "quantifier": "every VIF, and every VIFE of both extension tables", "why_tests_cant": "several hundred table entries; samples leave wrong ones unnoticed", "anchors": ["src/rscada_xml.rs: vib_unit_normalize, VIF_TABLE"]}
{"id": "C81", "title": "XML functions and texts", "statement": "The XML document names the function of a record by bits 4 and 5 of its DIF, shows variable length text in reading order, made of exactly the bytes of the library's text value (a text in UTF-8 as it is, and as in the library's JSON; a text without a replacement character has lost nothing), and other variable length and manufacturer specific data as hexadecimal bytes.", "quantifier": "every parsed record", "why_tests_cant": "all DIFs, lengths and texts", "anchors": ["src/rscada_xml.rs: normalize_record, function_string, variable_value_decode"]}
{"id": "C82", "title": "XML media and signature", "statement": "The XML document names the medium of a device as the library's device type, or the medium code of fixed data, and shows the configuration field as four hexadecimal digits. (False for four device types shown as reserved.)", "quantifier": "every medium code and configuration field", "why_tests_cant": "256 medium codes and 65536 configuration fields", "anchors": ["src/rscada_xml.rs: medium_lookup, fixed_medium, render_variable"]}
{"id": "C83", "title": "Decode errors name what is wrong", "statement": "Decoding reports 'empty input' exactly for no bytes, 'invalid frame' exactly for bytes that are neither a wired nor a wireless telegram, and errors about security only if a key was supplied for an encrypted telegram.", "quantifier": "every byte string and option", "why_tests_cant": "all byte strings that are not telegrams, and all ways two parsers can fail", "anchors": ["src/output.rs: decode_bytes, OutputError"]}
{"id": "C84", "title": "The output reproduces the input", "statement": "The structured output shows exactly the bytes of the input in hexadecimal, with their number, and the bytes without link layer checksums; decoding what it shows again gives the same output, and its payload is the application data of the telegram.", "quantifier": "every decoded telegram", "why_tests_cant": "all byte strings", "anchors": ["src/output.rs: RawOutput, build_output, hex_string"]}
{"id": "C85", "title": "Complete means complete", "statement": "The decode state is 'complete' exactly if there is no diagnostic of severity warning or error, and then every record of the telegram is shown; otherwise it is 'partial'.", "quantifier": "every decoded telegram", "why_tests_cant": "all causes of an incomplete decoding", "anchors": ["src/output.rs: build_output"]}
{"id": "C86", "title": "Meter identity", "statement": "The identification number, manufacturer, version and device type shown for a meter are those of the telegram's long header, or of its wireless link layer if it has none, and the alternates are the other addresses in the telegram. (False of the alternates: the address of the link layer is listed even when it is the same.)", "quantifier": "every decoded telegram with an address", "why_tests_cant": "all addresses", "anchors": ["src/output.rs: meter_and_transport, identity_from_long, identity_from_wireless"]}
{"id": "C87", "title": "Transport fields", "statement": "The access number, status and configuration shown for a telegram are the bytes of its header, and the extended link layer fields those of its extended link layer.", "quantifier": "every decoded telegram", "why_tests_cant": "all header bytes", "anchors": ["src/output.rs: meter_and_transport, TransportOutput"]}
{"id": "C88", "title": "Manufacturer details come from the registry", "statement": "The manufacturer details shown are the registry entry of the manufacturer code of the meter; they are shown only if asked for, and whenever the code is registered; every code in the registry is found and appears once.", "quantifier": "every decoded telegram, every registry entry", "why_tests_cant": "several hundred entries, looked up by binary or linear search", "anchors": ["src/output.rs: enrichment_for", "src/manufacturers.rs: lookup_manufacturer"]}
{"id": "C89", "title": "Every record of a clear telegram is shown", "statement": "The structured output of an unencrypted telegram lists, numbered from 0 without gaps, one entry for each parsed record, with exactly the record's header and data bytes in hexadecimal, its tariff and subunit, and the function its DIF names; together the entries reproduce the application data up to the first error.", "quantifier": "every decoded telegram without encryption", "why_tests_cant": "all record sequences", "anchors": ["src/output.rs: record_outputs, record_output, build_output"]}
{"id": "C90", "title": "Records decode the same without a telegram", "statement": "Decoding data records on their own gives the records a complete telegram with these data gives, and an error exactly if the telegram would be decoded partially.", "quantifier": "every byte string of records and every telegram carrying them", "why_tests_cant": "relates two entry points on all inputs", "anchors": ["src/output.rs: decode_data_records, decode_bytes"]}
{"id": "C91", "title": "Payload protection is reported", "statement": "The structured output reports a telegram as encrypted exactly if its header says so, and never as unknown. (False: a long header below an extended link layer of type I is reported as cleartext whatever its security mode.)", "quantifier": "every decoded telegram", "why_tests_cant": "all headers and nestings", "anchors": ["src/output.rs: build_output, security_fields"]}
{"id": "C92", "title": "CSV columns", "statement": "The CSV header and row have the same number of columns, 18 for the telegram and 11 for each record; no two columns have the same name, and below each name is the value of the field it names.", "quantifier": "every decoded telegram", "why_tests_cant": "all numbers of records", "anchors": ["src/output.rs: render_csv, csv_frame_row, csv_record_values"]}
{"id": "C93", "title": "Names of formats", "statement": "A format name is recognised in any letter case and with surrounding whitespace, nothing else is recognised, and the name a format is displayed with is recognised as that format.", "quantifier": "every text", "why_tests_cant": "all texts", "anchors": ["src/output.rs: OutputFormat::from_str, OutputFormat::as_str"]}
{"id": "C94", "title": "Diagrams are well formed", "statement": "The Mermaid diagram of every decoded telegram is a well-formed flowchart: subgraphs are closed, no two nodes or subgraphs share an identifier, links, classes and styles refer only to declared ones, no label can end early, every node has one class; and every record has a node whose label displays its reading.", "quantifier": "every decoded telegram", "why_tests_cant": "all numbers of records and all texts", "anchors": ["src/output.rs: render_mermaid, mermaid_escape"]}
{"id": "C95", "title": "Annotation of Format A telegrams", "statement": "In the annotation of a wireless telegram with block CRCs (Format A) every byte of the link frame carries the same label as in the annotation of the frame without CRCs, and every other byte is labelled as CRC.", "quantifier": "every link frame, its Format A framing, every position", "why_tests_cant": "all lengths, all segments cut by a CRC", "anchors": ["src/annotate.rs: annotate_wireless_format_a, build_format_a_offset_map"]}
{"id": "C96", "title": "Annotation agrees with the parsed records", "statement": "The segments that carry the number i in the annotation of a telegram consist of exactly the bytes of the i-th record the library reports, and those marked as DIF, DIFE, VIF, VIFE, plain text unit and data of exactly these fields. (False: a global readout request, DIF 7F, is a record of the library but has no number in the annotation; and if plain text units are expected before the VIFEs, the annotation mixes them up.)", "quantifier": "every annotated telegram with an unprotected payload", "why_tests_cant": "relates two independent parsers on all record sequences", "anchors": ["src/annotate.rs: annotate_data_records", "src/mbus_data.rs: MbusData", "crates/m-bus-application-layer/src/lib.rs: DataRecords"]}
{"id": "C97", "title": "Annotation agrees with the headers", "statement": "The bytes marked as identification number, manufacturer, version, device type, access number, status, configuration and CRC in an annotation are those from which the library reads these fields.", "quantifier": "every annotated telegram with a transport header, every wireless telegram", "why_tests_cant": "relates two independent parsers on all headers", "anchors": ["src/annotate.rs: annotate_long_tpl_header, annotate_application_layer, annotate_wireless_inner"]}
{"id": "C98", "title": "Annotation of protected and of invalid telegrams", "statement": "The payload of a telegram is annotated as encrypted, and no record in it, exactly if its transport header names a security mode; a telegram is refused exactly if it is neither a wired nor, with or without block CRCs, a wireless telegram; the annotation aborts only where the parser does.", "quantifier": "every byte string", "why_tests_cant": "all headers, all byte strings", "anchors": ["src/annotate.rs: annotate_frame, is_long_tpl_encrypted, is_short_tpl_encrypted"]}
{"id": "C99", "title": "The annotated view shows the decrypted telegram and its records", "statement": "With a key that decrypts the telegram the annotated view shows the decrypted bytes, says so, and keeps the original bytes and segments; otherwise it shows the telegram as it is. Every byte shown is in exactly one segment, nothing is shown as encrypted after decryption, and the record segments are those of the records of the decrypted data.", "quantifier": "every telegram, key, cipher and display text of data", "why_tests_cant": "all telegrams and keys; the agreement is between three passes over the bytes", "anchors": ["src/mbus_data.rs: render_annotated_bytes, decrypted_hexview_data, replace_encrypted_payload_segments"]}
{"id": "C100", "title": "The framing of a telegram is unambiguous", "statement": "No byte string is accepted both as a wired and as a wireless telegram, so that trying wired first cannot misread a wireless telegram. (False for wireless telegrams with L = E5, which are taken for the single character, and for long frames of 105 bytes.)", "quantifier": "every byte string", "why_tests_cant": "two independent grammars over all byte strings", "anchors": ["src/output.rs: decode_bytes", "src/mbus_data.rs: decrypted_hexview_data", "src/annotate.rs: annotate_frame", "crates/wired-mbus-link-layer/src/lib.rs: WiredFrame", "crates/wireless-mbus-link-layer/src/lib.rs: WirelessFrame"]}
{"id": "C101", "title": "A key never makes an accepted telegram unviewable", "statement": "The annotated view is refused exactly for telegrams that cannot be annotated without a key, and it never panics. (The second part is false: decrypted records that make the record parser panic make the view panic.)", "quantifier": "every telegram, key and cipher", "why_tests_cant": "all keys, right and wrong", "anchors": ["src/mbus_data.rs: render_annotated_bytes"]}
{"id": "C102", "title": "Coloured CSV shows the CSV", "statement": "The highlighted CSV shows exactly the text that was given to it: without the markup and with the character references read back it is the text, no character of the text can be taken for markup, and every field carries the class of its column, also after quoted fields with commas, quotes or line ends.", "quantifier": "every text", "why_tests_cant": "all texts, all fields, all quotations", "anchors": ["wasm/src/highlight.rs: highlight_source, highlight_csv, push_csv_field, push_escaped_html"]}
{"id": "C103", "title": "The annotation as text lists every byte and segment", "statement": "The text of an annotation has a dump with every byte at its place, and a table with one line for each segment, in order, with its range, bytes, kind and description, below the heading of its layer and record; it is made exactly for the telegrams that can be annotated. (False in two points: a filler stands below the heading of the record before it, and a unit text with a line end breaks the table.)", "quantifier": "every byte string", "why_tests_cant": "all lengths, all sequences of segments", "anchors": ["src/annotate.rs: render_annotations, annotate_and_render"]}
{"id": "C104", "title": "The text of a value determines the value", "statement": "Two integers shown alike in the older outputs are equal, and so are two BCD values, dates, times or manufacturer blocks; a date of type G is shown as day, month name and year, points of time as the date followed by hours, minutes and seconds, parts left open as Every and parts without meaning as Invalid. (False for 64-bit integers of 2^53 and more, which are shown rounded.)", "quantifier": "every pair of values of a type", "why_tests_cant": "all pairs of values, all dates", "anchors": ["crates/m-bus-application-layer/src/data_information.rs: DataType, Data", "src/mbus_data.rs: record_summaries"]}
{"id": "C105", "title": "The text of a reading states the reading", "statement": "The text of a record in the older outputs reads as the same number that the structured output gives for it. (False if a VIFE adds a constant: the text shows the exponent of the constant, or nothing.)", "quantifier": "every record with an integer or BCD value", "why_tests_cant": "all records, all chains of VIFEs", "anchors": ["crates/m-bus-application-layer/src/value_information.rs: ValueInformation", "src/mbus_data.rs: record_summaries", "src/output.rs: record_output"]}
{"id": "C106", "title": "The older outputs show the records of the structured output", "statement": "Whenever the structured output exists, the older outputs (json-legacy, yaml-legacy, csv-wide) exist, list the same records in the same order (with the same bytes, storage number, function and coding, and alike a number, a unit and a quantity or none), and say alike whether the payload was encrypted and whether it was decrypted; they report a parse error exactly for input that is no telegram. (False if the payload stays encrypted: the older outputs then parse the ciphertext and may panic; and the JSON text drops all records if one is bad.)", "quantifier": "every byte string, key, cipher and text of real numbers", "why_tests_cant": "two separate pipelines with separate buffers over all telegrams and keys", "anchors": ["src/mbus_data.rs: parse_frame_output, finalize_summary, record_summaries, build_output", "src/output.rs: decode_bytes"]}
{"id": "C107", "title": "The older outputs show nothing of a protected payload but its bytes", "statement": "If the payload is encrypted and no key was given, the summary and csv-wide list no record, say that the payload is encrypted, and give exactly the encrypted bytes. (False for encryption in the extended link layer, and for the JSON and YAML text of the frame.)", "quantifier": "every encrypted telegram", "why_tests_cant": "all headers, all payloads", "anchors": ["src/mbus_data.rs: user_data_is_encrypted, finalize_summary, variable_data_block, build_output"]}
{"id": "C108", "title": "The older outputs show the header of the structured output", "statement": "Address, identification number, manufacturer with registered name, version, device type, access number, status and security mode are the same in the older outputs and in the structured output. (False for telegrams whose only header is an extended link layer, and for the fixed data structure in wireless telegrams.)", "quantifier": "every telegram for which both outputs exist", "why_tests_cant": "two independent traversals of all header forms", "anchors": ["src/mbus_data.rs: apply_user_data_summary, summarize_wired, summarize_wireless", "src/output.rs: meter_and_transport"]}
{"id": "C109", "title": "The columns of csv-wide", "statement": "The header row and the data row of csv-wide have the same number of columns, no two columns have the same name, and the columns of record i hold the text and the data information of record i.", "quantifier": "every input text that is a telegram", "why_tests_cant": "all numbers of records", "anchors": ["src/mbus_data.rs: parse_to_csv"]}
{"id": "C110", "title": "The value and exponent of the older outputs are the number of the structured output", "statement": "In the older outputs, value times ten to the power of exponent is the number the structured output states for the same record. (False for records with an additive correction, which the older outputs leave out, and for 64-bit integers beyond the precision of a double, where value is the nearest double.)", "quantifier": "every record with an integer or BCD value", "why_tests_cant": "two number pipelines, one over doubles and one over decimals, over all values and exponents", "anchors": ["src/mbus_data.rs: record_summaries", "src/output.rs: record_output, value_output"]}
{"id": "C111", "title": "The older diagram is a diagram of the telegram", "statement": "In the text of parse_to_mermaid every subgraph is closed before the next is opened, no identifier is declared twice, no label contains a quotation mark or a bracket, edges and styles refer to declared nodes, and if the payload is not encrypted the labels of the records are, in order, the texts csv-wide shows. The text reads back, line by line, as these nodes, edges, subgraphs and styles. The nodes of a frame name its kind, function and address, and the nodes of a device its identification number, manufacturer, version, device type, access number and status. (False: the records of a wired frame without a long header are connected to a subgraph that is not declared; line breaks in texts are kept; the ciphertext of encrypted telegrams is drawn as readings.)", "quantifier": "every byte string and text of real numbers", "why_tests_cant": "all telegrams, all numbers of records and texts", "anchors": ["src/mbus_data.rs: parse_to_mermaid, mermaid_escape, mermaid_centered_chains"]}
{"id": "C112", "title": "The JSON is valid JSON and shows every field", "statement": "The JSON of a decoded telegram, indented or compact, is a JSON text by RFC 8259 in which no object has two members of the same name. Whoever reads it by that standard finds every field of the decoded telegram and of every one of its records at its documented place with its value, finds optional fields only when they are present, and finds no further elements in the lists. Hence two telegrams with the same JSON are the same bytes. The same holds for the list of records decoded from a record area.", "quantifier": "every telegram that decodes, every key and option, indented and compact JSON", "why_tests_cant": "all telegrams, all manufacturer texts with control characters, quotes and backslashes, all optional fields", "anchors": ["src/output.rs: render_bytes, DecodedOutput, FrameOutput, TransportOutput, RecordOutput, ValueOutput, RawOutput, Diagnostic, decode_data_records"]}
{"id": "C113", "title": "The CSV text reads back", "statement": "The CSV text of a decoded telegram, and the older wide CSV, is a CSV text by RFC 4180 with exactly one reading: a row of column names and a row with as many values. Whoever reads it finds below each documented column name the value of that field, whatever quotes, commas or line breaks the manufacturer put into the texts. Hence two telegrams with the same CSV text are the same bytes.", "quantifier": "every telegram that decodes, every key and option; for the wide CSV every text", "why_tests_cant": "all telegrams, all texts with quotes, separators and line breaks, any number of records", "anchors": ["src/output.rs: render_csv", "src/mbus_data.rs: parse_to_csv"]}
{"id": "C114", "title": "The JSON of the annotated view", "statement": "The text of the annotated output is JSON by RFC 8259 with no name used twice in an object. Whoever reads it finds the schema version, whether the view is decrypted, every byte, and of every segment its start, end, kind, layer, group and tooltip, and no further bytes or segments; the original telegram is there exactly if the view is of a decrypted one. Different kinds and layers have different names, and two views with the same text are the same. The older annotated output shows the same segments.", "quantifier": "every annotated view, every telegram", "why_tests_cant": "all telegrams, all tooltips, any number of segments", "anchors": ["src/mbus_data.rs: render_annotated_bytes", "src/annotate.rs: ByteSegment, SegmentKind, Layer"]}
{"id": "C115", "title": "Every front end gives the same answer", "statement": "The command line, the JavaScript package and the Python package give the same text or the same error for the same telegram, format, key, width and enrichment. A key is accepted in the same spellings everywhere. In Python a telegram given as bytes and the same telegram given as text have the same answer, and parse returns what the JSON rendering says. The older m_bus_parse gives the text of render with a table of 100 columns, and m_bus_decode of the JavaScript package an object that says what its JSON rendering says. (False of the object: it also repeats the input text.)", "quantifier": "every input text, format name, key text, width and option", "why_tests_cant": "all texts, all keys, all telegrams through three front ends", "anchors": ["cli/src/main.rs: run, parse_key", "python/src/lib.rs: render, parse, m_bus_parse, extract_key, extract_bytes", "wasm/src/lib.rs: m_bus_render, m_bus_decode, parse_key", "src/output.rs: render_hex, render_bytes"]}
{"id": "C116", "title": "Every output format accepts the same telegrams", "statement": "A telegram that decodes is rendered in every format, and what does not decode is refused in every format.", "quantifier": "every byte string, every format, every key", "why_tests_cant": "all telegrams in all formats", "anchors": ["src/output.rs: render_bytes", "src/rscada_xml.rs: render_from_bytes", "src/annotate.rs: annotate_frame"]}
{"id": "C117", "title": "No rendering crashes", "statement": "Rendering any bytes in any format with any options returns a text or an error.", "quantifier": "every byte string, every format, every option", "why_tests_cant": "all byte strings, in all formats", "anchors": ["src/output.rs: render_bytes, decode_bytes"]}
{"id": "C118", "title": "Error codes name the cause", "statement": "The code and layer of an error tell what is wrong: a text without bytes, a text that is no spelling of bytes with the position of the mistake, bytes that are no telegram, an encrypted telegram that the given key cannot decrypt, or a table that is too narrow. Data are reported as not decryptable exactly if they are encrypted, a key is given and no decryption under that key exists.", "quantifier": "every input text and byte string, format and option", "why_tests_cant": "all texts, all telegrams, all keys", "anchors": ["src/output.rs: OutputError, code, layer, byte_offset, render_hex, render_bytes, prepare_security", "src/output.rs: decode_hex_bytes"]}
{"id": "C119", "title": "A caller of serialize_mbus_data can tell a result from an error", "statement": "serialize_mbus_data returns the same text as rendering with the given key, with manufacturer data and 100 columns, or a text that begins with `Error [`, followed by the code of the error; it returns such a text exactly if the format is unknown or the rendering fails.", "quantifier": "every input text, format name and key", "why_tests_cant": "all telegrams in all formats: a rendering might begin like an error", "anchors": ["src/mbus_data.rs: serialize_mbus_data, parse_to_json, parse_to_yaml, parse_to_csv", "src/output.rs: render_hex, OutputError"]}
{"id": "C120", "title": "The older annotated outputs show every segment", "statement": "The text of annotated-legacy and of hexview-legacy is valid JSON that lists every segment of the telegram with all its fields, for hexview-legacy together with the decrypted bytes if the key decrypts the telegram; for what cannot be annotated it is an object with the message.", "quantifier": "every input text and key", "why_tests_cant": "all telegrams and keys, all texts inside the JSON", "anchors": ["src/mbus_data.rs: parse_to_annotated, parse_to_hexview, annotated_segments_to_json", "src/annotate.rs: ByteSegment"]}
{"id": "C121", "title": "Units of the structured output are UCUM terms", "statement": "The unit of a record in the structured output is a valid UCUM term with exactly one reading: the units and exponents of the record's value, standing for the same number of base units as the M-Bus standard gives.", "quantifier": "every record, every list of units and exponents, every primary VIF", "why_tests_cant": "every combination of units and exponents the VIFEs can build", "anchors": ["src/output.rs: unit_output, ucum_component", "crates/m-bus-application-layer/src/value_information.rs: Unit, UnitName"]}
{"id": "C122", "title": "Quantities of the structured output are named", "statement": "The quantities of a record are the names of the labels of its value, in order; different labels have different names, except that a date with a time has one name with and without seconds.", "quantifier": "every record and every label", "why_tests_cant": "all labels and all lists of labels", "anchors": ["src/output.rs: quantity_name, sentence_case_identifier"]}
{"id": "C123", "title": "What a meter sends is what is shown", "statement": "If a meter sends readings (kind of value, storage number, tariff, subunit, quantity and unit codes, and a number, a text, a real or a date) encoded by EN 13757-3, in a telegram in the clear or encrypted with the key given, the structured output shows exactly these readings, in order, each with its kind, numbers, quantities, unit and exact value.", "quantifier": "every list of readings, every encoding of each (binary, BCD, variable length, any number of DIFEs, fillers between records), every telegram that carries them, wired or wireless, encrypted in mode 5 or 7 or not", "why_tests_cant": "the whole path from the radio telegram to the output, for every combination of codes, field kinds and values", "anchors": ["src/output.rs: decode_bytes, record_output", "crates/m-bus-application-layer/src/data_record.rs: DataRecord", "crates/m-bus-application-layer/src/lib.rs: DataRecords", "crates/m-bus-application-layer/src/value_information.rs: ValueInformation"]}
{"id": "C124", "title": "Telegrams sealed with AES-128 are read with their key", "statement": "A telegram with a long header of CI 72, or a wireless one with a short header, whose data the meter encrypted with AES-128 as FIPS 197 defines it, chained as EN 13757-7 prescribes for security modes 5 and 7, decodes with that key to the same records, meter and state as the same telegram sent in the clear; the XML report, unless a text has U+FFFE or U+FFFF (C75), lists the records of the plain data and the decrypted view shows the plain bytes. The cipher is the one of the standard, not a parameter.", "quantifier": "every key of 16 bytes, every meter address and access number, every plaintext of whole blocks with an optional clear partial block, every telegram that carries them", "why_tests_cant": "2^128 keys and all plaintexts; tests have one telegram with one key", "anchors": ["crates/m-bus-core/src/decryption.rs: decrypt_into, decrypt_aes_cbc_into", "src/output.rs: decode_bytes", "src/rscada_xml.rs: render_from_bytes"]}
{"id": "C125", "title": "The text of an annotation states the bytes it marks", "statement": "The text of every segment of an annotated telegram says what the marked bytes are: link and transport header fields, DIF and VIF show exactly the marked bytes, in hexadecimal or decimal as the field is usually written; DIFE and VIFE say how many bytes are marked; control and address fields name the message and address of the marked byte; a plain text unit shows its characters in reading order; CRCs show the two CRC bytes. Bytes of a telegram in Format A have the text of the field they belong to.", "quantifier": "every byte string the annotation accepts, every segment of the result", "why_tests_cant": "the position of every field depends on all fields before it, and the text is built from byte offsets separately from the segment's limits; tests look at a few telegrams", "anchors": ["src/annotate.rs: annotate_frame, annotate_data_records, annotate_wireless_format_a"]}
{"id": "C126", "title": "The message of a refusal names the defect", "statement": "The message with which bytes are refused names a defect the bytes really have: for bytes that are no telegram, a defect as a wired telegram (start byte, checksum with the byte sent and the sum, length fields, stop byte, unknown C field, a length no telegram has) and one as a wireless telegram (too short, or the length its L field gives and the actual one); for encrypted data that are not decrypted with the given key, the cause (protection by the extended link layer, the name of the mode, no data, no address of the meter). A telegram with a single wrong field is refused for this field.", "quantifier": "every byte string, key and build configuration; every telegram and every wrong value of one field", "why_tests_cant": "the checks of the parser are made in one order and the defects come in all combinations; tests check a few errors by their variant, not that the message is true of the bytes", "anchors": ["crates/wired-mbus-link-layer/src/lib.rs: WiredFrame::try_from, validate_checksum", "crates/wireless-mbus-link-layer/src/lib.rs: WirelessFrame::try_from", "crates/m-bus-core/src/lib.rs: FrameError", "crates/m-bus-core/src/decryption.rs: DecryptionError", "src/output.rs: decode_bytes, prepare_security, OutputError"]}
{"id": "C127", "title": "The XML output names the product of the device", "statement": "Every XML document, except that of a fixed data structure and the malformed ones of C75, begins with the identification number, the manufacturer, the version, the product name and the medium of the device of the telegram (of its header if that identifies a device, otherwise of the radio frame). The product name is that of the known device with this manufacturer, version, medium and, for three manufacturers, first two digits of the identification number; it is empty for every other device, and no two entries of the table are about one device.", "quantifier": "every byte string, key and build configuration; every manufacturer, version, medium and identification number", "why_tests_cant": "the name depends on four fields with ranges and overlapping cases; tests see the devices of the sample telegrams", "anchors": ["src/rscada_xml.rs: product_name, render_variable_header, render_wireless_variable, render_from_bytes"]}
{"id": "C128", "title": "The exit status, output and complaints of the command line program", "statement": "The program parse ends with status 0 exactly if there is an input (--data or a readable --file), the format is known, the key is absent or 32 hexadecimal digits, and the rendering succeeds; it then prints exactly the rendering and complains about nothing. It ends with status 1 exactly if the file cannot be read, no input is given, the format is unknown, the key is no key or the rendering refuses; it then prints nothing, and its complaint is `error: [code] message` with the documented code of that cause. Something is printed exactly if the status is 0. A file holding the telegram with white space around it gives the same process as --data.", "quantifier": "every combination of options, every content of files, every input text, cipher and build configuration", "why_tests_cant": "scripts act on the status and on the code for inputs nobody has tried; tests run the program on a few files", "anchors": ["cli/src/main.rs: main, run, parse_key", "src/output.rs: OutputError::code, decode_hex_bytes"]}
{"id": "C129", "title": "Errors returned as text in the JavaScript package", "statement": "m_bus_parse and m_bus_parse_with_key return the rendering or the text of the error. A rendering never begins as an error does, so the two can be told apart; the text of an error is an object with the name MbusParserError, the documented code, the layer and, for a wrong digit, the byte offset. (The message of the error is not part of the text: refusals with different messages give the same text.)", "quantifier": "every input text, format name, key text, cipher and build configuration; every YAML library whose texts do not begin as an error", "why_tests_cant": "the caller only has the text to tell a result from an error; tests check a few inputs", "anchors": ["wasm/src/lib.rs: m_bus_parse, m_bus_parse_with_key, error_to_js", "src/output.rs: OutputError::code, OutputError::layer, OutputError::byte_offset"]}
{"id": "C130", "title": "The DIF extensions can be read from both ends", "statement": "For every sequence of calls of next and next_back on the iterator over DIF extensions: the bytes answered to next in order, the bytes not yet given, and the bytes answered to next_back in reverse order make up the bytes of the field; a call is answered with nothing exactly if as many calls as there are bytes went before; the size announced is the exact number of bytes still to come.", "quantifier": "every sequence of calls, every field", "why_tests_cant": "an iterator with two ends is a state machine over all interleavings of calls", "anchors": ["crates/m-bus-application-layer/src/data_information.rs: DataInformationFieldExtensions, next, next_back, size_hint"]}
{"id": "C131", "title": "Comparing a text of a telegram with a string", "statement": "A text of a telegram equals a string exactly if its bytes, last one first, are the UTF-8 of the string; a text that equals a string is shown as this string. A text shown as a string equals it. (False for bytes that are not UTF-8: they are shown as Latin-1 and equal no string.)", "quantifier": "every byte string and every string", "why_tests_cant": "equality and display are two pieces of code that must agree for all bytes", "anchors": ["crates/m-bus-application-layer/src/data_information.rs: TextUnit, eq, fmt, decode_text_unit"]}
{"id": "C132", "title": "The records the Python package returns are those of the telegram", "statement": "parse_records and parse_application_layer, given a block of data records as bytes or as hexadecimal text in any spelling, return the records that parse returns for every telegram carrying that block in the clear, as the same JSON value; they raise an error with the code application.records_invalid exactly if that telegram is decoded partially. Nothing, and what is neither text nor bytes, is refused. decode_data_records_hex returns the same records and fails with the same errors.", "quantifier": "every block of records, every spelling, every telegram that carries the block, every key and build configuration", "why_tests_cant": "two entry points must agree for every block of records and every telegram around it", "anchors": ["python/src/lib.rs: parse_records, parse_application_layer, records_json, extract_bytes, parse", "src/output.rs: decode_data_records, decode_bytes"]}
{"id": "C133", "title": "The readings a meter sends are the records of the JSON text in every front end", "statement": "For every telegram a meter sends with readings encoded as EN 13757-3 says, in the clear or encrypted with AES-128 in mode 5 or 7 under the given key, and typed in any accepted spelling, the command line program ends with status 0, nothing on stderr and a JSON text on stdout, and the JavaScript and Python functions return a JSON text, which has one reading as JSON: decode_state is complete, and records has exactly the readings in their order, each with its function, storage number, tariff and subunit, quantities and unit, and the value as sent, in the base unit.", "quantifier": "every list of readings, every encoding of them, every telegram around them, every key, every spelling, every option of the front ends", "why_tests_cant": "this is the whole way from the meter to the user; tests take single telegrams through it", "anchors": ["cli/src/main.rs: main, run", "wasm/src/lib.rs: m_bus_render", "python/src/lib.rs: parse, render", "src/output.rs: decode_bytes, render_bytes", "crates/m-bus-application-layer/src/data_information.rs: DataInformation"]}
{"id": "C134", "title": "The readings a meter sends are the cells of the CSV text in every front end", "statement": "For every telegram a meter sends with readings encoded as EN 13757-3 says, in the clear or encrypted with AES-128 in mode 5 or 7 under the given key, and typed in any accepted spelling, the command line program ends with status 0 and nothing on stderr, and it and the JavaScript and Python functions give a CSV text that reads, by RFC 4180 and in one way only, as a row of distinct names and a row of values: eleven for each reading, and below the names record_<i>_function, _storage_number, _tariff, _subunit, _quantities, _value_type, _value and _unit are those of the i-th reading, its value as sent, in the base unit.", "quantifier": "every list of readings, every encoding of them, every telegram around them, every key, every spelling, every option of the front ends", "why_tests_cant": "this is the whole way from the meter to a spreadsheet; tests take single telegrams through it", "anchors": ["cli/src/main.rs: main, run", "wasm/src/lib.rs: m_bus_render", "python/src/lib.rs: render", "src/output.rs: decode_bytes, render_bytes, render_csv, value_display"]}
{"id": "C135", "title": "The numbers of the XML output are the numbers meant, to six decimals", "statement": "A number in the XML output is written with a point and exactly six decimals. It is the number the bytes of the record stand for (an integer, or a finite 32-bit real), times the factor of its unit and times ten to the correction of its VIFEs (or plus it), up to half a millionth for the six decimals and one part in 2^50 for the rounding of the f64 arithmetic. If the number meant has no more than six decimals, is made of an integer of at most 2^53 or a real, and the numbers it is computed from are not above 10^9, it is shown exactly. Infinite reals and reals that are not numbers are shown as inf, -inf and NaN.", "quantifier": "every integer and every 32-bit real a record can hold, every unit factor, every correction", "why_tests_cant": "2^64 integers and 2^32 reals times all units; rounding errors appear at single values", "anchors": ["src/rscada_xml.rs: render_variable_record, variable_value_decode, vib_unit_normalize, vif_unit_normalize, int_decode, bcd_decode"]}
{"id": "C136", "title": "What a meter sends is in the XML report", "statement": "The XML report of a telegram, wired or wireless, unencrypted or encrypted with the key given, has one DataRecord element for each reading the meter sent, numbered from 0 in the order sent. The element holds the function of the reading (instantaneous, maximum, minimum, error), its storage number, its tariff and device (absent only if both are 0), the name of its quantity and a value. Numbers and unit together are the amount that was sent: binary, BCD and real values, in any of the library's units, with a power of ten as combinable code, are shown with six decimals, exactly where six decimals suffice. Texts are shown with blanks for control characters, dates as year, month and day, dates with a time (type F, and type I with seconds) as that date and time.", "quantifier": "every list of readings, every way a meter can encode them in data records (field types, numbers of DIFEs, idle fillers), every telegram that carries them", "why_tests_cant": "the encodings and values are unbounded, and the report goes through its own decoder, tables and number formatting, apart from that of the other outputs", "anchors": ["src/rscada_xml.rs: render_from_bytes, render_wireless, render_with_optional_decryption, render_variable, normalize_record, variable_value_decode, vib_unit_normalize"]}
{"id": "C137", "title": "The older JSON output shows frame, application layer, records and summary", "statement": "Whatever the input and the key, a text that the output format json-legacy returns is JSON in which no object has two members of one name; for an input that is no telegram it is the empty object. For a telegram the object has the frame (type, function with its flags, address; manufacturer, identification number and device of a wireless frame), the application layer of the payload or null, the list of records with their codings, units, labels, values and bytes, and the summary that csv-wide prints. If the structured output of the same telegram is complete, both lists of records have one element for each of its records, in its order and made of its bytes.", "quantifier": "every input text, key, number formatting and build configuration; every wired telegram and every wireless telegram with or without CRCs", "why_tests_cant": "the frames, payloads and records are unbounded and every field has its own serialisation; a field written under a wrong name or two fields under one name escape a test of other fields", "anchors": ["src/mbus_data.rs: parse_to_json, build_output, parse_frame_output", "crates/m-bus-application-layer/src/data_record.rs: DataRecord", "crates/m-bus-application-layer/src/lib.rs: UserDataBlock", "crates/m-bus-application-layer/src/data_information.rs: DataType, Data", "crates/m-bus-application-layer/src/value_information.rs: ValueInformation", "crates/m-bus-core/src/lib.rs: ConfigurationField, ManufacturerCode", "crates/wired-mbus-link-layer/src/lib.rs: WiredFrame", "crates/wireless-mbus-link-layer/src/lib.rs: WirelessFrame"]}
{"id": "C138", "title": "The text of a value in the annotation states the value the meter sent", "statement": "A telegram whose unencrypted data are records a meter encoded from its readings can be annotated; the data field of every reading is marked by exactly one segment (none for a field without data), and the text of this segment states the content of the field: the number the meter sent in decimal digits, its text, its date as day, name of the month and year, and for a real the text of the very real that was sent.", "quantifier": "every wired telegram and every wireless telegram without Format A CRCs, with any clear header, any list of readings in any of the codings, with idle fillers anywhere, and every build configuration", "why_tests_cant": "the claim quantifies over all values of all codings and all positions in messages of any length; tests look at one value of a few codings", "anchors": ["src/annotate.rs: annotate_frame, annotate_data_records", "crates/m-bus-application-layer/src/data_information.rs: Data (Display), DataType (Display), DataInformation"]}
{"id": "C139", "title": "The meter that sends is the meter the user reads", "statement": "Whenever the library decodes a telegram from a meter - with the meter's address in a long transport header, or in the link layer of a wireless frame without such a header - the JSON and CSV texts of the command line program, JavaScript and Python name exactly that meter: the eight digits of its identification number, the three letters of its manufacturer, and in JSON its version and its device type by code and by name. No JSON text names two different meters.", "quantifier": "every identification number of eight digits, every manufacturer of three letters, every version and device type, any data (also encrypted or damaged) after the header, wired and wireless frames with or without Format A CRCs, any spelling of the telegram and of the key, and every build configuration", "why_tests_cant": "there are more than 10^17 addresses and the claim spans the whole way from the digits typed to the text printed; tests look at a few telegrams", "anchors": ["src/output.rs: decode_bytes, identity_from_wireless, identity_from_long, meter_and_transport, render_bytes", "crates/m-bus-core/src/lib.rs: ManufacturerCode, IdentificationNumber, DeviceType, bcd_hex_digits_to_u32", "crates/wireless-mbus-link-layer/src/lib.rs: ManufacturerId", "crates/m-bus-application-layer/src/lib.rs: LongTplHeader"]}
{"id": "C140", "title": "The text of a real reads back as the real", "statement": "Every finite 32-bit real a meter sends is written in the JSON document as a number of JSON that, read as binary64 with rounding to nearest even, is exactly that real, and the text of its Display is a plain decimal number that reads back too. No number with fewer decimal places would, of those with as many places none is nearer, and different reals have different texts. Integers in the older JSON document read back as well if they are numbers of binary64. In the JSON of every decoded telegram the value of a record that is a real is such a number.", "quantifier": "all 2^32 bit patterns, every integer that is a number of binary64, every choice of the library between plain and exponent notation, of the sign of an exponent and of the last digit half way between two numbers; every telegram that decodes", "why_tests_cant": "reading back is a statement about every binary64 number next to the text, and there are 2^32 texts; tests print a few values", "anchors": ["src/output.rs: value_output, finite_number", "crates/m-bus-application-layer/src/data_information.rs: DataType", "src/mbus_data.rs: parse_to_json"]}
{"id": "C141", "title": "The table shows what the meter sent", "statement": "The table of a decoded telegram is a title, a box with the facts about the telegram, the records in order, each with its number, reading, function, storage number, tariff, subunit, coding and bytes, and the diagnostics, and nothing else; the table can be read back up to blanks and line breaks inside cells. For a telegram with readings, in clear or encrypted with AES-128 and with the key given, the command line program, JavaScript and Python print a table with exactly the readings the meter sent, each with its quantities, value, unit, function and place, at every width from 32 columns, and the table names the meter.", "quantifier": "every telegram, list of readings, key, width of at least 32 columns and every spelling of the hexadecimal text", "why_tests_cant": "readings, widths and wrapped cells are unbounded; tests look for a few words in one table", "anchors": ["src/output.rs: render_table, key_value_box, box_table, push_border, push_row, reading, record_hex", "cli/src/main.rs: main, run", "wasm/src/lib.rs: m_bus_render", "python/src/lib.rs: render"]}
{"id": "C142", "title": "The diagram shows what the meter sent", "statement": "The Mermaid diagram of a decoded telegram has exactly these parts: subgraphs for the frame, the meter if it is known, the security and the records if there are any, with the number of records in the heading; in them one node for each fact and each record, in order, with the text of the fact or the reading; links from each node to the next and between the subgraphs; a node with the number and first code of the diagnostics; and a class for every node, the records taking eight in turn. The diagram can be read back but for newlines, which it shows as blanks. For a telegram with readings, in clear or encrypted with AES-128 and with the key given, the command line program, JavaScript and Python give a diagram whose records are exactly the readings the meter sent, each with its quantities, value and unit, and which names the meter.", "quantifier": "every telegram, list of readings, key and every spelling of the hexadecimal text", "why_tests_cant": "texts of records and their number are unbounded; tests look for a few words in one diagram", "anchors": ["src/output.rs: render_mermaid, mermaid_escape, reading", "cli/src/main.rs: main, run", "wasm/src/lib.rs: m_bus_render", "python/src/lib.rs: render"]}
{"id": "C143", "title": "What the meter says about itself is in the JSON and CSV texts", "statement": "The header a meter sends (access number, status byte, configuration field), in a long or short transport header and also after an extended link layer of type I, is in the JSON and CSV texts of the command line program, JavaScript and Python: one access number, one status with its code, the configuration word, each with the place it comes from; the text of the status lists exactly the states the meter reports (application busy or failed, low power, permanent and temporary error, the flags of its manufacturer). The reader can recover the access number and the whole status. (False of the states of the application: busy and failed are shown as properties of counters.)", "quantifier": "every telegram with a transport header, every status and configuration, key and spelling of the text", "why_tests_cant": "2^32 headers, in telegrams of any content and with any key; tests look at a status of 0", "anchors": ["src/output.rs: meter_and_transport, add_short_transport, render_csv", "crates/m-bus-application-layer/src/lib.rs: StatusField", "cli/src/main.rs: main, run", "wasm/src/lib.rs: m_bus_render", "python/src/lib.rs: render, parse"]}
{"id": "C144", "title": "The JSON and CSV texts tell how a telegram is protected and what became of its data", "statement": "For a telegram with a transport header the JSON texts of all front ends tell whether it is encrypted, the code and the name of its security mode, whether a key was given, and whether the data needed no key, miss one, or were decrypted; they give the encrypted payload exactly if it is encrypted and the plain data exactly if they were decrypted, and these are the data the meter encrypted with AES-128 in mode 5 or 7; there is exactly one remark about security, of the right severity and code, or none for a clear telegram without key. The CSV texts give the name of the mode and what became of the data.", "quantifier": "every telegram with a transport header of any security mode, every payload, key and spelling of the text", "why_tests_cant": "all modes, payloads and keys; tests look at two modes and one key", "anchors": ["src/output.rs: build_output, prepare_security, security_fields, render_csv", "crates/m-bus-core/src/lib.rs: SecurityMode", "cli/src/main.rs: main, run", "wasm/src/lib.rs: m_bus_render", "python/src/lib.rs: render, parse"]}
{"id": "C145", "title": "The JSON and CSV texts tell how a telegram is framed and give its bytes back", "statement": "For every telegram accepted, the JSON and CSV texts of the command line program, JavaScript and Python tell whether it is wired or wireless, the kind of frame, the service named by its control field with the bits set in it, the address of a wired frame, the control field of a wireless frame, and in hexadecimal the bytes of the telegram, of the frame without the checksums of Format A, and of the payload; whether checksums were removed is told correctly. (False of the service in two respects: the PRM bit of SND_NKE is shown as not set, and the wireless services SND_IR, ACC_NR, ACC_DMD and CNF_IR are not named.)", "quantifier": "every telegram accepted, of every framing, every control and address field, key and spelling of the text", "why_tests_cant": "all framings, control fields, addresses and payloads; tests look at a few frames of one or two kinds", "anchors": ["src/output.rs: build_wired_output, build_wireless_output, frame_function_name, build_output, render_csv", "crates/m-bus-core/src/lib.rs: Function", "crates/wired-mbus-link-layer/src/lib.rs: Address", "cli/src/main.rs: main, run", "wasm/src/lib.rs: m_bus_render", "python/src/lib.rs: render, parse"]}
{"id": "C146", "title": "What a meter with the fixed data structure sends is in the JSON, CSV and XML texts", "statement": "For every telegram with the fixed data structure (CI field 73 or 77), the JSON and CSV texts show the identification number, the access number, the status with its words, and the two counters; the XML report shows the identification number, the medium, the access number, the status and the two counters, each with its unit, and whether they are actual values or were stored at the key date; the older JSON shows the number, the access number, the status, the units with the medium as one number and the two counters, and csv-wide the number, the access number and the status, without any column for the counters. (False in four respects: the JSON texts show no counters although they call themselves complete; the XML report takes the mark of stored values from another bit of the status than the words of the status; counters in binary code are read as BCD; with the CI field 77, where the high byte comes first, the bytes are not reversed.)", "quantifier": "every meter with the fixed data structure: number, access number, status, medium, units and counters; wired and wireless telegrams, every key and spelling of the text", "why_tests_cant": "all numbers, status bytes, media, units and counters; tests decode one such telegram", "anchors": ["crates/m-bus-application-layer/src/lib.rs: UserDataBlock::try_from, FixedDataStructure, StatusField", "src/output.rs: meter_and_transport, build_output, render_csv", "src/rscada_xml.rs: render_from_bytes, render_fixed, fixed_medium, fixed_unit", "cli/src/main.rs: main, run", "wasm/src/lib.rs: m_bus_render", "python/src/lib.rs: render, parse"]}
{"id": "C147", "title": "The extended link layer a sender adds is in the JSON texts", "statement": "For every telegram with an extended link layer (types I to IV of EN 13757-4, CI fields 8C to 8F), the JSON texts of the command line program, JavaScript and Python show its communication control field, its access number, the manufacturer and address of the receiver, the session number and the CRC of the payload as sent, and no such part the layer does not have; so a reader knows the whole layer. (False of type III, where the next six bytes of the data are shown as a session and its CRC; of type IV, which is not known; and of type I before a long transport header, where nothing is shown.)", "quantifier": "every extended link layer, whatever follows it, wired and wireless telegrams, every key and spelling of the text", "why_tests_cant": "all types, fields and following data; tests parse one or two extended link layers", "anchors": ["crates/m-bus-application-layer/src/extended_link_layer.rs: ExtendedLinkLayer::parse", "crates/m-bus-application-layer/src/lib.rs: UserDataBlock::try_from, ControlInformation", "src/output.rs: meter_and_transport, ell_output, build_output", "cli/src/main.rs: main, run", "wasm/src/lib.rs: m_bus_render", "python/src/lib.rs: render, parse"]}
{"id": "C148", "title": "What a meter says about itself is in the XML report", "statement": "The XML report of every telegram of a meter, clear or protected, with a key or without, names the meter - its identification number, the three letters of its manufacturer, its version, the product known under these and its medium - and then holds exactly what it says about itself: the access number, the status byte and the configuration word of its long or short transport header, or the access number of its extended link layer, or nothing. No text is a report about two different meters, headers or lists of records. The report is the one with the readings of C136: the command line program, JavaScript and Python print one report with the meter, its header and exactly the readings sent. (For the telegrams whose report is not XML, see C75.)", "quantifier": "every meter, header, telegram (wired and wireless), key and spelling of the text", "why_tests_cant": "all identification numbers, makers, versions, media, headers and payloads; tests compare some recorded telegrams", "anchors": ["src/rscada_xml.rs: render_from_bytes, render_wireless, render_variable_header, render_wireless_variable, medium_lookup", "src/output.rs: render_bytes", "cli/src/main.rs: run", "wasm/src/lib.rs: m_bus_render", "python/src/lib.rs: render"]}
{"id": "C149", "title": "Nothing of the data of a telegram is lost in the JSON and CSV texts", "statement": "For every telegram that is decoded, wired or wireless, unencrypted or encrypted in AES mode 5 or 7 and given with its key, with any data whatever (records of any coding, manufacturer specific data, garbage), the records in the JSON and CSV texts of the command line program, JavaScript and Python spell out, byte for byte and in order, all data apart from the filler bytes between records if the state is complete, and all data before a remainder that is not empty if the state is partial; nothing is shown twice, changed or invented. So a reader of a complete text can reconstruct the data: no two different data without filler bytes have the same text.", "quantifier": "every telegram, data block, key and spelling of the text", "why_tests_cant": "all byte sequences as data; tests compare the hex columns of some recorded telegrams", "anchors": ["src/output.rs: decode_bytes, build_output, render_bytes, render_csv, prepare_security, decrypt_user_data", "crates/m-bus-core/src/decryption.rs: decrypt_aes_cbc_into", "crates/m-bus-application-layer/src/lib.rs: DataRecords::next", "cli/src/main.rs: run", "wasm/src/lib.rs: m_bus_render", "python/src/lib.rs: render, parse"]}
{"id": "C150", "title": "A telegram damaged on its way is turned away", "statement": "If a telegram is received, or typed, with a wrong byte, then the command line program, JavaScript and Python do not answer with a text in any of the formats table, JSON, YAML, CSV, Mermaid and XML: the command line program prints nothing to its output and does not end with status 0, JavaScript and Python return no text. This holds for any one wrong byte of a wired telegram and for any one wrong byte, or two adjacent ones, of a radio telegram with block checksums.", "quantifier": "every wired telegram and every radio telegram in frame format A, every place and value of the wrong bytes, every spelling, key, format and option", "why_tests_cant": "all telegrams and all damages; tests change one byte of one frame and look at one error", "anchors": ["src/output.rs: decode_bytes, render_bytes, render_hex", "crates/wired-mbus-link-layer/src/lib.rs: WiredFrame", "crates/wireless-mbus-link-layer/src/lib.rs: strip_format_a_crcs, WirelessFrame", "cli/src/main.rs: run", "wasm/src/lib.rs: m_bus_render", "python/src/lib.rs: render"]}
{"id": "C151", "title": "It makes no difference whether a radio telegram is given with or without its checksums", "statement": "Receivers hand radio telegrams on with the checksums of their blocks (frame format A) or without. Whichever form is given to the command line program, JavaScript or Python, with any key, width and option, in any spelling: the texts in the formats table, Mermaid and XML are the same, the JSON texts say the same but for the member raw, the CSV texts have the same columns and the same cells but for frame_hex, and where the one form is refused so is the other, with the same message and status.", "quantifier": "every radio telegram, its two forms, every spelling, key and option", "why_tests_cant": "all telegrams in both forms with all keys; tests compare the two forms of one or two telegrams", "anchors": ["src/output.rs: decode_bytes, build_output, render_bytes, render_csv", "src/rscada_xml.rs: render_from_bytes", "crates/wireless-mbus-link-layer/src/lib.rs: strip_format_a_crcs", "cli/src/main.rs: run", "wasm/src/lib.rs: m_bus_render", "python/src/lib.rs: render"]}
{"id": "C152", "title": "How a telegram and its key are typed makes no difference", "statement": "Two texts that spell the same bytes (pairs of digits, or byte tokens with or without 0x, with white space, colons or hyphens between them, in small or large letters, with white space around), given with two spellings of the same key or both without a key, get exactly the same answer from the command line program, whether as argument or in a file, from JavaScript and from Python, in every format and with every option: the same text, message and status. Only the object of the JavaScript package repeats the text as it was typed. Python gives the same answer to the bytes themselves.", "quantifier": "all byte sequences, all pairs of spellings of them and of keys, all names of formats and options", "why_tests_cant": "the spellings of a telegram are without number; tests try a few on one telegram", "anchors": ["src/output.rs: decode_hex, decode_hex_bytes, render_hex", "cli/src/main.rs: run", "wasm/src/lib.rs: m_bus_render, m_bus_decode", "python/src/lib.rs: render, parse"]}
{"id": "C153", "title": "Switching off the manufacturer's details changes nothing else", "statement": "With the details of the manufacturer switched off (--no-enrichment, or the option of the JavaScript and Python packages), every telegram and key, good or bad, gets the same answer as with them, with the same errors and status, but for the details: the Mermaid, XML and annotated texts are identical; the JSON text says the same but has no member enrichment; the CSV text has the same columns and cells, but the columns manufacturer_name and manufacturer_website are empty; the table lacks at most the three rows with details. JavaScript shows the details unless told otherwise.", "quantifier": "all inputs, texts or bytes, all keys and widths, all front ends", "why_tests_cant": "tests look at the details of one telegram and never compare the two answers", "anchors": ["src/output.rs: build_output, render_bytes, render_csv, render_table", "cli/src/main.rs: run", "wasm/src/lib.rs: decode_options, m_bus_render", "python/src/lib.rs: render"]}
{"id": "C154", "title": "A wrong key is noticed", "statement": "If the key given is not the one the meter encrypted its data with, no front end shows readings the meter did not send; the data are tested for the mark 2F 2F with which EN 13757-7 lets them begin. (False: the mark is not tested; there are keys with which all front ends show a complete telegram with readings the meter never sent.) What holds: whatever the key, the JSON texts report that the data were decrypted without verification and show the data the key gives, so that a user can look for the mark; with the key of the meter these are the data the meter encrypted.", "quantifier": "every telegram encrypted in mode 5 or 7 with a long header or, wireless, with a short header, every pair of keys and every payload", "why_tests_cant": "all pairs of keys; a test tries one", "anchors": ["src/output.rs: prepare_security, build_output", "crates/m-bus-core/src/decryption.rs: decrypt_into, decrypt_aes_cbc_into"]}
{"id": "C155", "title": "The answers tell nothing of a key but the data it decrypts", "statement": "Two keys with which the same decrypted data are shown, or none, or with which the telegram is refused, get the same answers: no byte of a key, and nothing else that depends on it, is found in any text, error or object, in any format of any front end. In particular a key for a telegram that is not encrypted might as well be another one. (False for bytes that are a wired and a wireless telegram at once: the annotated view says that it decrypted a telegram which is in the clear, and shows bytes that depend on the key.)", "quantifier": "every pair of keys of 16 bytes in any spelling, every telegram in any spelling, encrypted or not, valid or not, every front end and format, also the older ones, and every build", "why_tests_cant": "all pairs of keys and all telegrams; a test compares two keys for one telegram", "anchors": ["src/output.rs: prepare_security, decode_bytes, render_bytes", "src/mbus_data.rs: render_annotated_bytes, serialize_mbus_data", "crates/m-bus-core/src/decryption.rs: decrypt_into"]}
{"id": "C156", "title": "No telegram exhausts the stack", "statement": "Extended link layers may be nested in a telegram, and the parser of the application layer and the annotation call themselves for each of them. A stack with room for 85 nested calls is enough for every wired or wireless telegram, with or without checksums, and some telegrams need all of them. (False of bytes given to the parser of the application layer directly, which need not come from a telegram: however large the stack is, there are bytes on which the program is aborted for lack of stack.)", "quantifier": "every telegram accepted by the link layer, every stack size", "why_tests_cant": "needs the deepest of all telegrams; a test tries one nesting", "anchors": ["crates/m-bus-application-layer/src/lib.rs: parse_application_layer, UserDataBlock", "src/annotate.rs: annotate_application_layer"]}
{"id": "C157", "title": "Records stand for themselves: data put together show the records of the parts", "statement": "Take data that are read completely and that a filler byte behind them does not change. Whatever data follow them, the records of the whole are the records of the first part followed by those of the second, with their numbers going on; if the second part cannot be read, the whole cannot, for the same reason. Any number of fillers may stand between the parts. The same holds for the records of unencrypted telegrams, where damage in the second part changes nothing of the records of the first. (Of data that end in the middle of a chain of VIFEs it is false: two parts that are read alone are refused together.)", "quantifier": "all data of any length, all fillers, all telegrams, both build modes", "why_tests_cant": "ranges over pairs of data; a test tries some pairs", "anchors": ["crates/m-bus-application-layer/src/lib.rs: DataRecords", "crates/m-bus-application-layer/src/data_record.rs: DataRecord", "src/output.rs: decode_data_records"]}
{"id": "C158", "title": "Data that are cut off show nothing the whole does not", "statement": "If the data of an unencrypted telegram are those of another one cut off at any point, the records shown of it are the first ones shown of the other. Proved: every record but the last; and every record if the answer says that the data could be read only partially. The same holds of data given without a telegram. (False of the last record if the cut is not noticed: data that end within a chain of VIFEs are shown as a record of another quantity.)", "quantifier": "all telegrams, all data and all points at which they are cut off, both build modes", "why_tests_cant": "every cut of every telegram; a test tries a few", "anchors": ["crates/m-bus-application-layer/src/lib.rs: DataRecords", "crates/m-bus-application-layer/src/data_record.rs: DataRecord", "src/output.rs: decode_data_records, decode_bytes"]}
{"id": "C159", "title": "Encrypted data show the records they show alone", "statement": "A telegram carries data in the clear or encrypted with AES-128 in mode 5 or 7, under a long or a short transport header, also below any number of extended link layers of type I. Decoding it with its key shows exactly the records that the data show when they are given alone: it is complete with these records if they can be read, partial if they cannot, and crashes only if they crash. Two telegrams that carry the same data show the same records, however each of them is encrypted.", "quantifier": "all telegrams, all keys, all data of any length that fit a telegram, both build modes", "why_tests_cant": "ranges over all keys, data and header combinations", "anchors": ["src/output.rs: decode_bytes, decode_data_records", "crates/m-bus-core/src/decryption.rs: EncryptedPayload", "crates/m-bus-application-layer/src/lib.rs: UserDataBlock"]}
{"id": "C160", "title": "A record can be read again from the bytes shown for it", "statement": "Every record shown, of data given alone or of a telegram, wired or wireless, encrypted or not, complete or not, comes with the bytes it was read from: given alone to the record decoder, they show the same record, with the same value, unit, quantities, function, storage number, tariff and subunit, and nothing else. The bytes shown for all records, one behind the other without the fillers, show the same records in the same order.", "quantifier": "all byte strings given as data; all telegrams, keys and options with which decoding succeeds; all records of the answer", "why_tests_cant": "A record may look at bytes beyond those shown for it, or show fewer bytes than it was read from; only all record contents, positions and what follows them settle that it does not.", "anchors": ["src/output.rs: decode_bytes, decode_data_records, record_output", "crates/m-bus-application-layer/src/data_record.rs: DataRecord::parse", "crates/m-bus-application-layer/src/lib.rs: DataRecords::next"]}
{"id": "C161", "title": "The JSON keeps to its schema", "statement": "Every JSON document of a decoded telegram is one of version 3: its objects have the documented members in the documented order, each at most once, all that are always there and no others; the members have the documented types; words come from the documented lists (decode state, protocol, kind of frame, sources, kind of header, protection, state of decryption, codes of diagnostics, kinds of values, codings, functions); bytes are pairs of upper case digits; a value of kind decimal is a decimal number, a complete date, time or date with time is written as such, an incomplete one as an object of its parts; a decrypted telegram shows its decrypted payload, one in the clear none. The lists of records alone keep to the schema of records.", "quantifier": "all byte strings, hexadecimal inputs, keys and options with which decoding succeeds; indented and compact JSON; all values anyone reads from the JSON by RFC 8259", "why_tests_cant": "Which members are present and which words they hold depends on headers, encryption, errors and every data field of every record; consumers written against the schema need it of all documents.", "anchors": ["src/output.rs: DecodedOutput, FrameOutput, MeterOutput, TransportOutput, SecurityOutput, RecordOutput, ValueOutput, RawOutput, Diagnostic, EnrichmentOutput, build_output, value_output, record_output, render_bytes", "python/src/lib.rs: parse, parse_records"]}
{"id": "C162", "title": "A build with overflow checks gives the same answers as one without, or crashes", "statement": "Whatever a build of the library with overflow checks (a debug build) answers, unless it crashes, a build without them (a release build) answers the same: the same frame, the same record or the same error, the same decoded output, the same text in each of the formats, older ones included, the same exit status and texts of the command line program, and the same results and errors of the JavaScript and Python packages. The iterator over records returns the same items call by call up to the call that crashes.", "quantifier": "all byte sequences, all texts, all keys, options, formats and widths, all files, all numbers of calls of the iterator, with and without the feature plaintext-before-extension", "why_tests_cant": "Tests run in a debug build and users run a release build: a test cannot show that for every input what was tested is what is used. Wrapped subtractions in a release build could go on with a wrong index and give an answer no test has seen.", "anchors": ["crates/wired-mbus-link-layer/src/lib.rs: validate_checksum", "crates/m-bus-application-layer/src/data_information.rs: integer_to_value_internal", "src/annotate.rs: render_annotations", "src/output.rs: decode_bytes, render_bytes", "src/mbus_data.rs: serialize_mbus_data, parse_to_mermaid", "cli/src/main.rs: main, run", "wasm/src/lib.rs: m_bus_render, m_bus_decode", "python/src/lib.rs: render, parse"]}
{"id": "C163", "title": "The feature plaintext-before-extension matters only for units in plain text", "statement": "Two builds that differ only in the cargo feature plaintext-before-extension parse the same record, or give the same error, from any data that do not begin with the header of a unit in plain text (DIF and DIFEs followed by the VIF 7C or FC). The records of data, given alone or in a telegram, encrypted or not, are decoded to the same output, and to the same JSON, YAML, CSV, table and diagram texts, if one of the builds could read all records and shows none whose header has a unit in plain text. If such a telegram is not encrypted, its XML document and the older JSON, YAML and wide CSV are the same as well. Data without the bytes 7C and FC give the same records and errors whatever they are.", "quantifier": "all byte sequences, all keys and options, both settings of overflow checks, all states of the iterator", "why_tests_cant": "The feature is chosen when the library is built, and a test suite is compiled with one setting: no test run compares the two, and none covers all the telegrams that do not use plain text.", "anchors": ["crates/m-bus-application-layer/src/value_information.rs: ValueInformationBlock", "crates/m-bus-application-layer/src/data_record.rs: DataRecord", "src/output.rs: decode_bytes, decode_data_records, render_bytes", "src/rscada_xml.rs: render_from_bytes", "src/mbus_data.rs: parse_frame_output, serialize_mbus_data"]}
{"id": "C164", "title": "A key that a telegram does not need changes nothing", "statement": "If a telegram is answered without a key and not said to be encrypted, then giving a key (any bytes, of any length at the level of bytes) changes nothing in the XML document, in the older JSON, YAML and wide CSV, in the older annotated segments, and in the annotated view and the older view of the bytes. For the annotated views the bytes must not be a wired and a wireless telegram at once: there is a telegram in the clear of which they show, with a key, bytes said to be decrypted. (For the decoded answer itself see C53: only the report of the unused key is added.)", "quantifier": "every build, block cipher, telegram that needs no key, two optional keys, all options and texts of values", "why_tests_cant": "A user keeps one key per meter and gives it with every telegram; whether some telegram in the clear is spoilt by it depends on all telegrams, all keys and every way in which an output decides on its own whether to decrypt.", "anchors": ["src/rscada_xml.rs: render_from_bytes, render_with_optional_decryption, render_wireless", "src/mbus_data.rs: parse_frame_output, decrypt_variable_data_with_key, decrypted_hexview_data, render_annotated_bytes, parse_to_hexview", "src/output.rs: security_fields, render_bytes"]}
{"id": "C165", "title": "The older outputs show how a telegram is framed", "statement": "For every telegram, the summary of json-legacy and csv-wide shows the kind of frame (LongFrame, ShortFrame, ControlFrame, SingleCharacter, Wireless), the service named by the control field with its bits, and the address of a wired frame, in the columns FrameType, Function and Address and under summary.frame_type, summary.function and summary.address; the older diagram shows the same on its labels, and the device type of the meter by its code.", "quantifier": "every telegram, every key, every block cipher, every control field and address, every device type", "why_tests_cant": "The control field, the address and the device type are bytes: tests look at the few that occur in sample telegrams.", "anchors": ["src/mbus_data.rs: parse_frame_output, summarize_wired, summarize_wireless, parse_to_csv, parse_to_json, parse_to_mermaid", "crates/m-bus-core/src/lib.rs: Function, DeviceType"]}
{"id": "C166", "title": "The older outputs write units and quantities readably", "statement": "In json-legacy, csv-wide and the older diagrams every unit of a record is written as its symbol followed by its exponent in superscript (nothing for 1, after a caret beyond 19), whatever the unit and the exponent; every quantity is written as its identifier, different quantities differently; and the text of a record is the value with its power of ten, then the unit in brackets and the quantities in parentheses.", "quantifier": "every unit, every exponent, every quantity, every record", "why_tests_cant": "Units combine with any exponent and any number of factors; tests show a few units.", "anchors": ["crates/m-bus-application-layer/src/value_information.rs: Unit, UnitName, ValueLabel, ValueInformation", "src/mbus_data.rs: record_summaries, parse_to_mermaid"]}
{"id": "C167", "title": "A telegram that resets a meter is shown as one, without readings", "statement": "For every telegram carrying an application reset (CI field 50 and one byte), wired or wireless, typed in any spelling, with or without a key, all front ends answer well: the JSON says decode_state complete and header_kind application_reset and has no record, no access number and no status, the CSV has record_count 0; over a wired line neither shows a meter. The only diagnostic says that a given key was not used. The older JSON shows by name which data the meter shall send and the byte itself, and no records; csv-wide shows no meter and no record of a reset on a wired line. There is no XML report of a reset on a wired line.", "quantifier": "all telegrams carrying an application reset with any byte and any further bytes, all spellings, keys and front ends; false of the control field 53", "why_tests_cant": "The byte, the framing and what follows are arbitrary; tests use a handful of resets", "anchors": ["src/output.rs: meter_and_transport, build_output", "crates/m-bus-application-layer/src/lib.rs: ApplicationResetSubcode, UserDataBlock", "src/mbus_data.rs: parse_to_json", "src/rscada_xml.rs: render_from_bytes", "crates/wired-mbus-link-layer/src/lib.rs: WiredFrame"]}
{"id": "C168", "title": "A telegram without application data shows nothing but its frame", "statement": "For every wired telegram whose data the decoder does not look at (the single character, a short frame, a frame with the control field 53 whatever its data), typed in any spelling, with or without a key, all front ends answer well: the JSON says decode_state complete and has no header_kind, record, access number, status or meter, the CSV has record_count 0 and no meter, and the only diagnostic says that a given key was not used. The older JSON has null for user_data and data_records and no record or meter in its summary; csv-wide has only the columns of the frame, and nothing in those of the meter. There is no XML report.", "quantifier": "all wired telegrams other than long frames, all spellings, keys and front ends", "why_tests_cant": "The address, the service and the data of such frames are arbitrary; tests use a few of them", "anchors": ["src/output.rs: decode_bytes, meter_and_transport, build_output", "src/mbus_data.rs: MbusData, parse_to_json", "src/rscada_xml.rs: render_from_bytes", "crates/wired-mbus-link-layer/src/lib.rs: WiredFrame"]}
{"id": "C169", "title": "The older outputs name the meter that sends and show its access number and alarms", "statement": "For every readable telegram of a meter (a long header on any link, or a short header or none of its own on the wireless link), json-legacy and csv-wide show the meter's number as eight digits, its maker as three letters, its version and its device type; and when the telegram has a transport header, the access number that was sent and the words for exactly the alarms that were sent. The older diagram of a wired telegram with a long header, and of any wireless telegram, names the meter with these four things (the wireless one that of the link layer).", "quantifier": "all meters, headers, links, readable telegrams, keys and numbers", "why_tests_cant": "Numbers, makers, versions, devices and status bytes are arbitrary, and the older outputs read the header with code of their own; tests look at a few telegrams", "anchors": ["src/mbus_data.rs: apply_user_data_summary, parse_to_csv, parse_to_json, serialize_mbus_data", "crates/m-bus-application-layer/src/lib.rs: StatusField, LongTplHeader, ShortTplHeader"]}
