# Formal model of m-bus-parser in Lean 4

Target: the Rust sources in `/repo` (maebli/m-bus-parser at the pinned commit). Nothing of it is
built or run; the model is a hand translation, function by function, and every definition cites
the file and lines it models.

## Layout

* `lean/Verif/Model/*.lean`  – the model: executable total functions, one file per Rust source area.
* `lean/Verif/Spec/*.lean`   – small specifications, independent of the model (telegram grammar,
  EN 13757 tables, encoders, two's complement, decimal values, XML grammar ...).
* `lean/Verif/Lemmas/*.lean` – helper lemmas.
* `lean/Verif/Props/*.lean`  – the property theorems `Cnn_*` with non-vacuity examples beside them.
* `properties.jsonl`, `MANIFEST.json`, `seeded/LOG.jsonl` – property list, claims, mutation log.

To audit a claim read, in this order: its line in `properties.jsonl`, the theorem statement in
`Props`, the names of `Spec` it uses, and the cited lines of the `Model` definitions.

## Modelling conventions

* Byte = `UInt8` (wrapping arithmetic as in Rust `wrapping_add` / sums of checksums), slices =
  `List UInt8`, `u16` = `UInt16`, integers that cannot overflow = `Nat`/`Int`; where they can,
  the overflow is modelled.
* A Rust computation returns `Res ε α = ok a | err e | panic`. `panic` stands for every Rust panic:
  index out of range, arithmetic overflow with overflow checks, `unreachable!`, `ArrayVec::push`
  on a full vector. Overflow panics depend on the build profile: `Cfg.overflowChecks` is a parameter
  and theorems quantify over it.
* Cargo feature `plaintext-before-extension` is `Cfg.plaintextFirst`, also quantified over. The
  features `std` and `decryption` are taken as enabled.
* `&mut` arguments and iterators are state passing: `next : State -> Option Item x State`.
* `f64` results: every integer value is modelled as the exact integer the Rust code holds right
  before `as f64`; a rounding function to 53 bits is used only where the claim is about the
  rounded value. 32-bit reals are kept as their bit pattern.
* AES is a parameter (an arbitrary block function); the CBC mode around it is modelled. Theorems
  hold for every block function, with the only assumption, where stated, that blocks have 16 bytes
  or that encryption and decryption are inverse. `Spec/Aes` defines AES-128 as FIPS 197 does, C124
  proves these assumptions of it, and with it decodes the encrypted telegram of the project's tests.
* Text is `List Char`; `String::from_utf8` is Lean's UTF-8 decoder, proved against the encoder where
  a claim depends on it. Texts are compared character by character, not as bytes, except where the
  claim is about bytes (C76).

## What is not modelled, or only as a parameter

Parameters (the theorems hold for every value of them, with the assumptions they state):

* the AES block cipher; in the theorems before C135, except the ones of C81 that name `stdXml`, also `String::from_utf8_lossy` (modelled in `Model/Utf8Lossy`);
  the Unicode width tables of `unicode-width`;
  the shortest formatting of reals in the theorems before C140 (`Model/RealText` says which decimal number the libraries choose and how they lay out its digits, from their documented contract; what differs between versions of `serde_json` stays a parameter, `RealStyle`); in the theorems before C135 also the arithmetic and `{:.6}` formatting of the
  numbers of the XML output, which `Model/XmlFloat` models exactly (with powers of ten rounded as the compiler
  library computes them, and exponents without limit, since the numbers lie between 10^-63 and 10^60); the text of decoded data inside annotation tooltips in the theorems before C138, which puts in the modelled `Display` of decoded data.

From their documented contract rather than from their source: `str::trim`, `from_str_radix`,
`replace`, `chunks`, `splice`, `ArrayVec`, `iter` adaptors, integer formatting.

Not modelled:

* `serde_yaml` and `prettytable` (the values handed to them are modelled; the YAML text is an
  arbitrary function of the value), `syntect`. The text writers of `serde_json` and of the `csv`
  crate are modelled from their documented contract in `Model/JsonText` and `Model/CsvText`.
* `defmt` formatting, the argument parser of the command line tool, JavaScript and Python object
  conversion, file input and terminal width.
* stack depth, except for C156 (`Model/Stack`), which counts the nested calls of the two functions that call themselves.
  Memory and run time are not modelled.

## What is modelled, by file

| file | modelled in | not modelled |
|------|-------------|--------------|
| `crates/m-bus-core/src/lib.rs` | `Model/Core`, `Model/Messages`, `Model/LegacyJson` (`Serialize`) | |
| `crates/m-bus-core/src/decryption.rs` | `Model/Decryption`, `Model/Security`, `Model/Messages` | AES itself (a parameter; `Spec/Aes`) |
| `crates/wired-mbus-link-layer/src/lib.rs` | `Model/Wired`, `Model/Messages` | – |
| `crates/wireless-mbus-link-layer/src/lib.rs` | `Model/Wireless` | – |
| `crates/m-bus-application-layer/src/data_information.rs` | `Model/DataInfo`, `Model/F64`, `Model/Display`, `Model/RecordOutput`, `Model/Api` | `defmt` |
| `crates/m-bus-application-layer/src/value_information.rs` | `Model/ValueInfo`, `Model/Display`, `Model/Names` | `defmt` |
| `crates/m-bus-application-layer/src/data_record.rs`, `variable_user_data.rs` | `Model/Record` | `Display` of errors |
| `crates/m-bus-application-layer/src/extended_link_layer.rs`, `lib.rs` | `Model/UserData`, `Model/Names` | `defmt` |
| `src/mbus_data.rs` | `Model/MbusData`, `Model/Hex`, `Model/Hexview`, `Model/Legacy`, `Model/LegacyDiagram`, `Model/LegacyJson`, `Model/CsvText`, `Model/Serialize` | `prettytable` text; the YAML text of the older entry points and, in their JSON text, the digits of finite numbers (parameters); `parse_to_table` (test builds only) |
| `src/output.rs` | `Model/Output`, `Model/RecordOutput`, `Model/Decimal`, `Model/Render`, `Model/Names`, `Model/Hex`, `Model/JsonText`, `Model/Frontend`, `Model/Messages` | YAML text |
| `src/rscada_xml.rs` | `Model/Xml`, `Model/XmlProduct`, `Model/XmlFloat` | – |
| `src/annotate.rs` | `Model/Annotate`, `Model/AnnotateText`, `Model/AnnotatedJson` | – |
| `src/manufacturers.rs` | `Model/Manufacturers` | – |
| `wasm/src/highlight.rs`, `wasm/src/lib.rs`, `cli/src/main.rs`, `python/src/lib.rs` | `Model/Highlight`, `Model/Frontend`, `Model/Api` | `syntect`, object conversion, argument parsing |

## Trusted base

* Lean 4.33.0 kernel.
* The axioms listed per theorem at the end of this file: at most `propext`, `Classical.choice` and
  `Quot.sound`. No own axioms, no `sorry`, no `native_decide`/`bv_decide`.
* The translation from Rust to the model (checked by reading, cited line by line).
* The reading of EN 13757 in `Spec` (tables, encodings), which is ours.

## Comparison of the model with the project's test data

The model is executable, so it was run on the data the project's own tests compare with the program.
This is a test of the translation, not a proof of anything.

* `tests/rscada/test-frames` (73 telegrams with the XML expected of them, compared byte by byte by
  `tests/rscada_xml.rs`). The model, with the parameters `{:.6}` and `from_utf8_lossy` instantiated by
  floating point arithmetic, gives the expected text for every telegram except the four (twelve without
  the feature `plaintext-before-extension`) that the project's test lists as known mismatches, and it
  deviates on exactly those. The program is `validation/xml_diff.lean.txt`; run it with
  `lake env lean --run` in `lean`.
* the assertions of the tests in `src/mbus_data.rs`, `src/output.rs` and `tests/output_contract.rs` about
  the text of outputs (the wide CSV text in full; table, JSON, CSV, Mermaid, hex view, with and without
  key, with AES of `Spec/Aes`): all met, `validation/output_checks.lean.txt`.
* `tests/wmbusmeters/test_vectors.json`: identification, manufacturer, version, medium, access number and
  status of the JSON output are those expected, in every telegram whose transport header the project's
  test compares.
* the assertions of the unit tests in `crates`, `src/annotate.rs`, `wasm`, `python` and `cli` and of
  `tests/application_layer_frames.rs`, `tests/test_other_meters.rs` and `tests/test_wireless.rs` (225
  assertions, each with and without overflow checks and the feature `plaintext-before-extension`): all met,
  `validation/unit_tests.lean.txt`. The syntax highlighting of formats other than CSV and the web page are left out.

## Plan per property

"Model" says what is modelled, "proof" how it is proved.

| id | property | model | proof | status |
|----|----------|-------|-------|--------|
| C01 | Wired acceptance is exactly the telegram grammar | `WiredFrame.tryFrom`; grammar `Spec.WiredTelegram` | case split on the parser, list arithmetic | proved |
| C02 | Wired encode/decode round trip | encoder in Spec, parse | rewriting | proved |
| C03 | Wired frames detect any single corrupted byte of the protected area | single-position update of an accepted frame | cancellation of byte sums | proved |
| C04 | Wired parser never panics | `panic` outcome | exact characterisation, negation with a witness | partial |
| C05 | Function codes | full tables over a finite domain | kernel evaluation over the whole domain lifted to ∀ | proved |
| C06 | Wired address classes | full tables over a finite domain | kernel evaluation over the whole domain lifted to ∀ | proved |
| C07 | Manufacturer code round trip | `fromId`/`toId` | arithmetic on 5-bit fields | proved |
| C08 | Identification number BCD round trip | nibbles | arithmetic | proved |
| C09 | Device type byte round trip | full tables over a finite domain | kernel evaluation over the whole domain lifted to ∀ | proved |
| C10 | Configuration field decomposition | full tables over a finite domain | kernel evaluation over the whole domain lifted to ∀ | proved |
| C11 | CRC-16/EN13757 detects single-byte and short burst errors | bitwise CRC, polynomial remainder spec over GF(2) | linearity and injectivity of the step | proved |
| C12 | Wireless acceptance characterisation | wireless parser | case split | proved |
| C13 | Wireless payload and trailing CRC | wireless parser | case split | proved |
| C14 | Format A CRC stripping inverts Format A framing | strip loop with explicit buffer; encoder in Spec | induction on blocks and on the loop | proved |
| C15 | Format A stripping is safe and faithful on any input | strip loop with explicit buffer; encoder in Spec | induction on blocks and on the loop | proved |
| C16 | DIF/DIFE chain size | DIB parser, `DataInformation` loop | induction on the DIFE chain | proved |
| C17 | Storage number follows EN 13757-3 | storage number loop | induction; exact value and negation | partial |
| C18 | Tariff and subunit follow EN 13757-3 | DIB parser, `DataInformation` loop | induction on the DIFE chain | proved |
| C19 | The library and the XML output agree on storage number, tariff and subunit | DIB loops of the library and of the XML output | induction on both, comparison | partial |
| C20 | VIF/VIFE block parsing consumes exactly the linked bytes | VIB parser | induction on the VIFE chain | proved |
| C21 | Value information parsing never panics | VIB parser and interpreter with `ArrayVec` capacities | exact panic sets by induction, witnesses | partial |
| C22 | Primary VIF table | VIF tables; tables of EN 13757-3 in Spec | kernel evaluation over the whole table | partial |
| C23 | Fixed-size integers decode as two's complement | `DataFieldCoding.parse`; encodings in Spec | arithmetic; exact formula and negation for C26 | proved |
| C24 | BCD decode | `DataFieldCoding.parse`; encodings in Spec | arithmetic; exact formula and negation for C26 | proved |
| C25 | Date type G | `DataFieldCoding.parse`; encodings in Spec | arithmetic; exact formula and negation for C26 | proved |
| C26 | Date and time types F and I | `DataFieldCoding.parse`; encodings in Spec | arithmetic; exact formula and negation for C26 | partial |
| C27 | Record iteration terminates, makes progress and is fused | record iterator as state machine | well-founded induction on remaining bytes | proved |
| C28 | Records tile the data | record iterator as state machine | well-founded induction on remaining bytes | proved |
| C29 | A record's raw bytes are its header followed by its data | record iterator as state machine | well-founded induction on remaining bytes | proved |
| C30 | A record depends only on its own bytes | record parser on two inputs with a common prefix | locality lemma per field; witness | partial |
| C31 | Variable-length data | `DataFieldCoding.parse`; encodings in Spec | arithmetic; exact formula and negation for C26 | proved |
| C32 | Application layer dispatch | `UserDataBlock.tryFrom` including the recursion through the extended link layer | case split, strong induction | proved |
| C33 | Long and short TPL header fields | `UserDataBlock.tryFrom` including the recursion through the extended link layer | case split, strong induction | proved |
| C34 | Extended link layer | `UserDataBlock.tryFrom` including the recursion through the extended link layer | case split, strong induction | proved |
| C35 | Encrypted payloads are never decoded as records through the user data block | `UserDataBlock.tryFrom` including the recursion through the extended link layer | case split, strong induction | proved |
| C36 | MbusData and UserDataBlock agree on the records | `MbusData.tryFrom` | refinement; C36 witness | partial |
| C37 | A valid link frame is always delivered | `MbusData.tryFrom` | refinement; C36 witness | proved |
| C38 | Key provider behaves like a bounded first-wins map | operation sequences on the provider | refinement to a first-wins association list | proved |
| C39 | Decryption length and frame conditions | CBC around an abstract cipher | induction over blocks | proved |
| C40 | CBC decryption inverts CBC encryption | CBC around an abstract cipher | induction over blocks | proved |
| C41 | Derived IV equals the frame's address field | CBC around an abstract cipher | induction over blocks | proved |
| C42 | Annotation covers every byte exactly once | annotation segments | invariant "contiguous up to cursor" | partial |
| C43 | Strict hex parser | hex parsers over `List Char` | induction over tokens | proved |
| C44 | Legacy hex parser never fails but silently maps garbage to zero | hex parsers over `List Char` | induction over tokens | proved |
| C45 | Exact decimal rendering of signed integers | digit-list arithmetic | value function of digit lists, induction | proved |
| C46 | Scaled decimal is numerically exact | digit-list arithmetic | value function of digit lists, induction | proved |
| C47 | Scaled decimal is canonical with an additive offset | digit-list arithmetic | value function of digit lists, induction | partial |
| C48 | Additive correction applies only to correction VIFEs | scan for correction VIFEs | induction over the VIFE list; witness | partial |
| C49 | XML text encoding is safe and reversible | character-wise encoder; decoder in Spec | induction over characters | proved |
| C50 | XML integer and BCD decode agree with the structured output | two decoders | equality through the common spec | partial |
| C51 | Table rendering respects the column width | greedy wrapping, rows and borders; widths a parameter | induction over characters | proved |
| C52 | Mermaid escaping cannot break out of a label | two `mermaid_escape` functions; reader of labels in Spec | induction over characters; witness | partial |
| C53 | Encrypted frames without a key expose no records | decode pipeline | case split; C54 invariant of the record loop | partial |
| C54 | Record error offset points at the failing record | decode pipeline | case split; C54 invariant of the record loop | partial |
| C55 | Decrypted hex view of a wired frame is a valid frame | splice functions around the decrypted payload | list arithmetic and the parser theorems; C56 witness | proved |
| C56 | Decrypted hex view of a wireless frame keeps the header | splice functions around the decrypted payload | list arithmetic and the parser theorems; C56 witness | partial |
| C57 | Format A stripping rejects frames with a bad block CRC | Format A stripping | witness; first block from the loop | partial |
| C58 | DIF function and coding tables | DIF table | kernel evaluation over 256 values | proved |
| C59 | Extension table FD | VIF tables; tables of EN 13757-3 in Spec | kernel evaluation over the whole table | partial |
| C60 | Extension table FB | VIF tables; tables of EN 13757-3 in Spec | kernel evaluation over the whole table | partial |
| C61 | Combinable VIFE tables | VIF tables; tables of EN 13757-3 in Spec | kernel evaluation over the whole table | partial |
| C62 | Codes of a value information block add up | VIB interpreter | fold over the codes | proved |
| C63 | Parsing data records never panics | record parser `panic` outcome | exact panic set from C21, C31; witnesses | partial |
| C64 | Dates are recognised by their value information | date coding from VIB | case split over the tables | proved |
| C65 | Decrypting a parsed block gives the plain text | decryption of user data blocks | C40 with the header theorems | proved |
| C66 | Status text lists exactly the set flags | status flags; list of names in Spec | kernel evaluation over all status bytes | proved |
| C67 | Direction of decoded blocks | direction from CI | kernel evaluation over 256 values | proved |
| C68 | Payloads encrypted at the extended link layer are not decoded | `UserDataBlock.dataRecords` | witness families; partial by case split | partial |
| C69 | The byte order of CI 76 applies to all values | `UserDataBlock.dataRecords` | witness families; partial by case split | partial |
| C70 | Structured values are exact | structured values; exact value in Spec | arithmetic on digit lists and two's complement | partial |
| C71 | Text values are the transmitted text | text decoding; UTF-8 and Latin-1 in Spec | induction over bytes and characters | proved |
| C72 | Dates are reported as ISO text of the calendar date | ISO texts; calendar values in Spec | digit arithmetic over all field values | partial |
| C73 | XML dates and times | ISO texts; calendar values in Spec | digit arithmetic over all field values | proved |
| C74 | XML units are the library's units | XML unit tables; tables of Spec | kernel evaluation over the whole table | partial |
| C75 | The XML document is well-formed | XML document as text; XML grammar in Spec | each section derives from the grammar | partial |
| C76 | The XML document is in the encoding it declares | document bytes against the declared encoding | ASCII characterisation; witness | partial |
| C77 | XML without a key shows no encrypted data | XML pipeline on two ciphertexts | non-interference by case split | partial |
| C78 | Encryption does not change the decoded values | encrypt in Spec, decrypt in both pipelines | C40, C65 and the record theorems | partial |
| C79 | Units of fixed data | fixed unit table | kernel evaluation over all codes | partial |
| C80 | XML units and quantities are those of the standard | XML unit tables; tables of Spec | kernel evaluation over the whole table | partial |
| C81 | XML functions and texts | XML name tables, String::from_utf8_lossy with the UTF-8 decoder of Lean | kernel evaluation, digit arithmetic | proved |
| C82 | XML media and signature | XML name tables, String::from_utf8_lossy with the UTF-8 decoder of Lean | kernel evaluation, digit arithmetic | partial |
| C83 | Decode errors name what is wrong | decode pipeline | case split over its error and state outcomes | proved |
| C84 | The output reproduces the input | decode pipeline | case split over its error and state outcomes | proved |
| C85 | Complete means complete | decode pipeline | case split over its error and state outcomes | proved |
| C86 | Meter identity | sections of the structured output | case split with the header theorems | partial |
| C87 | Transport fields | sections of the structured output | case split with the header theorems | proved |
| C88 | Manufacturer details come from the registry | manufacturer table | kernel evaluation over the table, lookup lemma | proved |
| C89 | Every record of a clear telegram is shown | records of the structured output | induction over the iterator | proved |
| C90 | Records decode the same without a telegram | records of the structured output | induction over the iterator | proved |
| C91 | Payload protection is reported | protection field | case split; witness | partial |
| C92 | CSV columns | CSV columns, format names | list arithmetic, full tables | proved |
| C93 | Names of formats | CSV columns, format names | list arithmetic, full tables | proved |
| C94 | Diagrams are well formed | Mermaid text; grammar of lines in Spec | each emitted line derives from the grammar | proved |
| C95 | Annotation of Format A telegrams | annotation of Format A telegrams | offset mapping through the blocks | proved |
| C96 | Annotation agrees with the parsed records | annotation and record iterator | simulation of the two loops; witnesses | partial |
| C97 | Annotation agrees with the headers | annotation of headers, errors | case split with the parser theorems | proved |
| C98 | Annotation of protected and of invalid telegrams | annotation of headers, errors | case split with the parser theorems | proved |
| C99 | The annotated view shows the decrypted telegram and its records | view selection and replacement of segments | C55, C56, C96 composed | partial |
| C100 | The framing of a telegram is unambiguous | wired and wireless parser on the same bytes | arithmetic on the two grammars; witnesses | partial |
| C101 | A key never makes an accepted telegram unviewable | refusal of the view | case split; panic witness | partial |
| C102 | Coloured CSV shows the CSV | CSV highlighter as text transformation; HTML text reading in Spec | simulation of the field scanner | proved |
| C103 | The annotation as text lists every byte and segment | annotation table as text | induction over the segments; witnesses | partial |
| C104 | The text of a value determines the value | Display of values as text | injectivity of decimal and component texts; witness | partial |
| C105 | The text of a reading states the reading | Display of a record; reading of such a text in Spec | text read back and compared with the structured number; witnesses | partial |
| C106 | The older outputs show the records of the structured output | parse_frame_output and its summary | both pipelines reduced to the same record iterator and the same decryption; panic and JSON witnesses | partial |
| C107 | The older outputs show nothing of a protected payload but its bytes | summary of an encrypted frame | case split on the security context; witnesses | partial |
| C108 | The older outputs show the header of the structured output | summary header and meter_and_transport | case split over the block forms; witnesses | partial |
| C109 | The columns of csv-wide | rows before the CSV writer | list indexing, injectivity of the column names | proved |
| C110 | The value and exponent of the older outputs are the number of the structured output | record summary and record output of the same record | both equal the same rational number; nearest double; witness | partial |
| C111 | The older diagram is a diagram of the telegram | parse_to_mermaid as a list of lines | parts of a diagram composed; induction over the chunks of the chains; witnesses | partial |
| C112 | The JSON is valid JSON and shows every field | serde's derived serialisation into a document and serde_json's writers of documents as text; the texts of 32-bit reals are a parameter | the RFC 8259 grammar as an inductive relation; every written document is in it by induction over documents, the grammar gives a text at most one meaning; fields followed by path | proved |
| C113 | The CSV text reads back | the rows the two renderers hand to the csv writer and the writer's quoting, modelled from the csv crate's documentation | the RFC 4180 grammar as an inductive relation; every written text is in it and the grammar gives a text one reading | proved |
| C114 | The JSON of the annotated view | the derived serialisation of segments and the json! object of the view; object keys sorted as serde_json's default map does | as C112: the written document is in the grammar, the grammar is unambiguous, the fields are followed by path | proved |
| C115 | Every front end gives the same answer | `renderBytes`, `renderHex` and the three front ends without reading files and converting to foreign objects | unfolding, with C43 for the spellings and C112 for the JSON | partial |
| C116 | Every output format accepts the same telegrams | `renderBytes` over the models of decoding, XML and annotation | the outcome of each renderer is computed from the parsed telegram; case split on the kind of telegram | partial |
| C117 | No rendering crashes | `renderBytes` with an explicit panic value | the crashes of the decoding are characterised exactly; those of the other formats are traced to the same two causes | partial |
| C118 | Error codes name the cause | `Failure` with its code, layer and offset; free text messages are left out | C43 and C83 for texts and frames; the decryption is compared with the relation of C101 | partial |
| C119 | A caller of serialize_mbus_data can tell a result from an error | `serializeMbusData` over the model of `render_hex`; the messages of errors and the texts of the YAML library are parameters | the first character of every output: XML, JSON, CSV, Mermaid, the annotated text, and the table, whose first line is the wrapped title | partial |
| C120 | The older annotated outputs show every segment | `parseToAnnotated` and `parseToHexview` with the JSON writer | C112's reading of JSON texts and C101's account of what is refused | proved |
| C121 | Units of the structured output are UCUM terms | `unitOutput`, `ucumComponent`, `ucumSymbol` and `recordOutput` | a grammar of UCUM terms with their meaning in base units in Spec/Ucum.lean; the text is a term and the grammar is unambiguous | partial |
| C122 | Quantities of the structured output are named | `MBus.quantityName` with `sentenceLoop`, on the Debug names of the labels | all 174 labels against the table `quantityText` in Spec/Ucum.lean; distinctness by sorting the names | proved |
| C123 | What a meter sends is what is shown | `decodeBytes` with all parsers below it | an encoder on the side of the meter in Spec/Sent.lean, independent of the parser; each encoded record is parsed to a record that shows the reading, then induction over the message and C78's decryption | partial |
| C124 | Telegrams sealed with AES-128 are read with their key | AES-128 from FIPS 197 in Spec/Aes; the decryption model with it as block cipher | linearity of xtime, inverse S-box over all bytes, the two circulant matrices, induction over the rounds; then C78, C55 | proved |
| C125 | The text of an annotation states the bytes it marks | the annotation model with all texts; Spec/Tooltip says for every kind of segment what its text has to be | induction over the records and layers with the bytes of the part being read; Format A through the labels of C95; false for two kinds: plain text units are shown backwards, and the fourth byte of a long frame is called 0x68 whatever it is (C125_fails, C125_fails_plain_text) | partial |
| C126 | The message of a refusal names the defect | the texts of FrameError, the wireless FrameError, DecryptionError and OutputError (Model/Messages); Spec/Messages says which bytes have which defect | case analysis of the parsers; the causes of a refused key from the result of the decryption; false in three cases (C126_fails_stop: a wrong stop byte of a short frame is called a length mismatch; C126_fails_empty: a long frame of length 0 is said to have C field 0; C126_fails_wireless: a frame with a malformed manufacturer or identification is called too short); C126_fails_trailing: a telegram followed by a further byte is refused for its checksum | partial |
| C127 | The XML output names the product of the device | product_name as a chain of conditions (Model/XmlProduct); Spec/Product is a table of ranges of devices | per manufacturer, all versions and media by kernel computation; the documents by case analysis of the render functions and the grammar of C75 | proved |
| C128 | The exit status, output and complaints of the command line program | main and run as a function from options and files to status, standard output and standard error (Model/Api); Spec/Api lists the causes with their codes | case analysis of the options with C115, of the renderings with C118, of the first characters of every format with C116; trimming for files | proved |
| C129 | Errors returned as text in the JavaScript package | JSON.stringify of the error object as compact JSON of its enumerable members in order of their creation (Model/Api) | the first two characters of every format; the codes and layers are written without escapes; two telegrams for the message | partial |
| C130 | The DIF extensions can be read from both ends | the iterator as state passing on the remaining bytes, a run as a list of calls (Model/Api) | induction on the calls | proved |
| C131 | Comparing a text of a telegram with a string | eq as comparison with the reversed bytes (Model/Api), decode_text_unit (Model/RecordOutput) | reversal and uniqueness of UTF-8 decoding | partial |
| C132 | The records the Python package returns are those of the telegram | the functions up to json.loads (Model/Api), JSON texts read by the grammar of C112 | C90 for the records, C112 for the texts, C43 for the spellings | proved |
| C133 | The readings a meter sends are the records of the JSON text in every front end | all of it: hexadecimal text, key, frame, header, decryption with the AES of FIPS 197, records, output and JSON text; readings as in C123, JSON texts read by the grammar of C112 | C123 for the records, C112 for the text, C115 and C128 for the front ends, C43 for the spellings | partial |
| C134 | The readings a meter sends are the cells of the CSV text in every front end | as in C133, with the CSV text instead of the JSON text | C123 for the records, C92 and C113 for the text, C115 and C128 for the front ends, C43 for the spellings | partial |
| C135 | The numbers of the XML output are the numbers meant, to six decimals | the f64 arithmetic: conversion, product, sum and decimal literals with rounding to nearest even, and format!("{:.6}"); the size of an f64 is not limited, the numbers here lie between 10^-63 and 10^60 | relative errors of each operation, exactness of the rounding to six decimals on integers | partial |
| C136 | What a meter sends is in the XML report | the XML renderer from telegram bytes to document, with the f64 formatting of C135; and String::from_utf8_lossy (Model/Utf8Lossy) | an encoder specification (Spec/Sent) inverted by induction over the message; complete tables of the codes; number texts by C135; the document by C75 and C77 | partial |
| C137 | The older JSON output shows frame, application layer, records and summary | the derived and hand-written Serialize instances of all types in the document, serde_json::Value (members sorted by name) and its pretty printer; the text of finite f64 numbers is a parameter | the document as a value, member by member; the printer inverted by the JSON grammar (C110's infrastructure); the records by C106 | proved |
| C138 | The text of a value in the annotation states the value the meter sent | annotate_frame with the Display of decoded data as the text of data fields; the text of finite 32-bit reals is a parameter | an encoder for readings as the specification; induction over the message with the parse of one encoded record (C123); the coding theorems (C23, C25, C31, C104) for the texts | partial |
| C139 | The meter that sends is the meter the user reads | the whole way of a telegram: hex text, frame parser, headers, structured output, JSON and CSV writers and front ends | an encoder for addresses as the specification, inverted by the identity theorems (C86) for the structured output; composed with the JSON and CSV reading theorems (C112, C113) and the front ends (C115, C128) | proved |
| C140 | The text of a real reads back as the real | the choice of digits of the formatting libraries (the greatest power of ten with a multiple that reads back, the nearest such multiple) and the layout of the digits | the gaps of binary64 around a number of 53 bits give the interval of numbers that are read as it; the search ends at an exact multiple; texts have one value by a reader for numbers; composed with C112 for the document; C133_reals_partial composes it with C133 | proved |
| C141 | The table shows what the meter sent | render_table and its helpers as lists of lines; the width of characters is a parameter that is additive and at most two | each box is shown to be drawn as in a separate specification of boxes; a reader recovers column widths from the top rule, rows from the left bars and cells from the widths; composed with C123, C139, C115 and C128 | partial |
| C142 | The diagram shows what the meter sent | render_mermaid as a list of lines | the lines are the statements of a flowchart (C94), whose parts are computed group by group; every statement is determined by its text, because identifiers and class names are single words; composed with C123, C139, C115 and C128 | partial |
| C143 | What the meter says about itself is in the JSON and CSV texts | header fields and status text as in C66 and C87, the JSON and CSV texts as in C112 and C113 | the header bytes of a meter are parsed back (C87), the status text is computed for all 256 values, and composed with C112, C113, C115 and C128 | partial |
| C144 | The JSON and CSV texts tell how a telegram is protected and what became of its data | prepare_security and build_output as in C53 and C91, AES-128 as in C124 | the security context is computed from the header for each of the three outcomes; the diagnostics are split into those of the application layer and those about security; composed with C112, C113, C124, C115 and C128 | proved |
| C145 | The JSON and CSV texts tell how a telegram is framed and give its bytes back | wired and wireless frames as in C01 and C12, the JSON and CSV texts as in C112 and C113 | by cases on the framing; the words for the control and address fields are computed for all 256 values; composed with C112, C113, C115 and C128. C145_framed shows that the framings described are all there are | partial |
| C146 | What a meter with the fixed data structure sends is in the JSON, CSV and XML texts | the fixed data structure as in C32, the structured output as in C86 and C87, the XML report as in C75 | the sixteen bytes are computed from what the meter sends and read back by C32; composed with C75, C79, C82, C112, C113, C115 and C128 | partial |
| C147 | The extended link layer a sender adds is in the JSON texts | the user data block as in C32 and C34, the structured output as in C87, the JSON texts as in C112 | by cases on the type; composed with C87, C112, C115 and C128. C147_one_ell reads the layer back from the text | partial |
| C148 | What a meter says about itself is in the XML report | the XML text as in C75; a grammar of XML as a relation between text and tree | the payload of every constructor of the sender's specification is parsed (C32, C12), all paths of the renderer end in one of two functions whose text is a report (C75); uniqueness of the tree of a text by induction on its derivation (C75_one_document) | proved |
| C149 | Nothing of the data of a telegram is lost in the JSON and CSV texts | the decoding and JSON and CSV texts as in C89, C112 and C113 | the items of the iterator tile the data (C28), for clear and for decrypted data; the fields of the texts (C112, C92); the bytes spelled by a text of tokens are unique | proved |
| C150 | A telegram damaged on its way is turned away | the front ends as in C115, C116 and C128, both link layers | a damaged wired telegram is no wired telegram (C03), a damaged first block is no codeword (C11), so the bytes are no telegram at all and no front end answers; where other checks are missing, concrete telegrams whose damaged form is answered with wrong readings | partial |
| C151 | It makes no difference whether a radio telegram is given with or without its checksums | the front ends as in C115, C116 and C128, checksum stripping as in C14 | stripping gives back the form without checksums (C14) and leaves that form alone; so everything decoded is the same but for the copies of the bytes; then through the texts and the front ends | partial |
| C152 | How a telegram and its key are typed makes no difference | the strict hex parser as in C43, the front ends as in C115 and C128 | the hex parser reads exactly the bytes spelled (C43) and the front ends exactly the key spelled (C115); everything else depends on these | proved |
| C153 | Switching off the manufacturer's details changes nothing else | decoding and rendering as in C88, C112, C113 and C141; the front ends as in C115; the YAML text is not modelled | the decoded telegrams are compared case by case; texts are read back as in C112, C113 and C141 | proved |
| C154 | A wrong key is noticed | as in C124 and C144, with AES-128 of FIPS 197 | AES with a key is a permutation of blocks, so every cipher text is the encryption of some data under every key, and C144 applies; the witness for the negation was found by search and is checked by the kernel | partial |
| C155 | The answers tell nothing of a key but the data it decrypts | all front ends and formats with decryption of a block as a parameter | decryption uses the key only through the decrypted bytes written to the buffer, and what of it is shown determines them; both decryption routines are related to each other; the witness for the negation is a telegram that is wired and wireless at once, checked by the kernel with AES-128 | partial |
| C156 | No telegram exhausts the stack | the two functions that call themselves, with the number of nested calls the stack has room for; running out of it is a result of its own | induction on the room: the parser needs one call more than there are nested layers, which take three bytes each, and the link layers hand over at most 253 bytes | partial |
| C157 | Records stand for themselves: data put together show the records of the parts | the record iterator, the parsers of data and value information and the record output of the model | a record that is not changed by a filler has a closed chain of extensions and its full data field, so no byte behind it is looked at; then induction on the items; the shown hexadecimal text determines the bytes of each record | proved |
| C158 | Data that are cut off show nothing the whole does not | as in C89 and C157 | a record that is followed by something does not depend on what follows (C157), so only a record that ends where the data end can change; induction on the items | partial |
| C159 | Encrypted data show the records they show alone | decoding and decryption as in C90 and C124, with AES-128 of FIPS 197 | decryption gives back the data (C124), and the records shown are collected from them as from data given alone (C54, C90); the headers are parsed by induction on the extended link layers | proved |
| C160 | A record can be read again from the bytes shown for it | as in C89, C90 and C157 | a record that is followed by something does not depend on what follows (C157), and one at the end of the data is read from all that is left; induction on the items for all together; the byte order is that of the header only for decrypted data, the witness is checked by the kernel with AES-128 | partial |
| C161 | The JSON keeps to its schema | as in C112; the schema is a grammar of documents in Spec/JsonSchema.lean | the document of each structure by its fields; the values of records by the coding they were parsed with (reals come only from 32-bit reals, the parts of dates are below their bounds); C46 for decimals; a JSON text has one meaning (C112) | proved |
| C162 | A build with overflow checks gives the same answers as one without, or crashes | All of the model with its parameter for overflow checks on and off: frames, records, decode_bytes, the eight formats, the older formats and diagram, the command line program and the packages. | A relation between the two results, a crash or the same, is kept by sequencing, by mapping errors and by branching on the same condition; it holds of the two operations that depend on overflow checks and is carried through each function, by induction over the iterator, the annotated records and the nested link layers. | proved |
| C163 | The feature plaintext-before-extension matters only for units in plain text | `VIB.tryFrom` with its parameter for the feature, `DataRecord.parse`, the iterator, `decodeDataRecords`, `decodeBytes`, `renderBytes`; `Spec.PlainTextHeader`, `Spec.ShowsPlainText`. | The two readings of a value information block differ only if its first byte is 7C or FC. A record shown without such a byte is parsed to the same by the other build, so the relation that defines the items of the iterator carries over by induction. | proved |
| C164 | A key that a telegram does not need changes nothing | Model/Xml.lean, Model/Legacy.lean, Model/Hexview.lean, Model/Serialize.lean; `NeedsNoKey` in Spec/KeyUnused.lean speaks of the answer without a key only | the answer without a key determines that the block of user data is not encrypted (`clear_blocks`); each output then takes the branch it takes without a key; the counterexample is the telegram of C155 | partial |
| C165 | The older outputs show how a telegram is framed | wiredSummaryHead, wirelessSummaryHead, finalizeSummary, wideRow, olderDocument, mermaidOld; Function.display, Function.debug, DeviceType.debug. | The words are tables by byte (Spec/OlderLink.lean). Later steps of the summary keep the three fields; the tables are compared with the code for every control field that is read, every address byte and every device type; csv-wide and json-legacy are read with the readers of C113 and C137, the diagram with C111. | partial |
| C166 | The older outputs write units and quantities readably | MUnit.display, UnitName.display, superscripts, ValueLabel.debug, ValueInfo.display, recordDisplay, recordSummary, oldRecordLabel. | Spec/OlderUnit.lean gives the symbols, superscripts by their numbers in Unicode and identifiers derived from the words of the structured output. Units: all 39 exponents with superscripts, and a general argument beyond; quantities by cases; distinctness from the names of C122. | proved |
| C167 | A telegram that resets a meter is shown as one, without readings | decodeBytes with meterAndTransport, the renderers of JSON, CSV and XML, the older JSON, and the front ends | Every payload with this CI field and a byte is a reset block; its decoded output is computed, and C112, C113, C92, C137 carry it into the texts | partial |
| C168 | A telegram without application data shows nothing but its frame | decodeBytes, the renderers of JSON, CSV and XML, the older JSON, and the front ends | Such a frame is parsed without user data (C01), its decoded output is computed, and the theorems behind C167 carry it into the texts | proved |
| C169 | The older outputs name the meter that sends and show its access number and alarms | decodeBytes, parseFrameOutput, the older JSON and CSV as texts, mermaidOld and serializeMbusData | What the structured output says of the meter (C139) and the header (C143) equals the summary of the older outputs (C108); C137, C109 and C113 read it back from the texts; the diagram by C111 | partial |

## Where the code and the property disagree

Each entry is a theorem with a concrete witness about the model, so it can be checked against the
Rust code by hand. The property keeps its full statement; what holds is proved under the suffix
`_partial`.

* **C04** Wired parser never panics: False as stated with overflow checks on: exact panic set and negation proved; panic freedom proved for builds without overflow checks. Negation or witness: `C04_wired_never_panics_is_false`.
* **C17** Storage number follows EN 13757-3: False of the code (shift 4i+5 instead of 4i+1): exact computed value proved, agreement iff all DIFE storage bits are zero, negation C17_fails. Negation or witness: `C17_fails`.
* **C19** The library and the XML output agree on storage number, tariff and subunit: False of the code: the XML document and the library disagree on storage numbers with more than one DIFE (C19_fails). The XML numbers are proved correct for all DIFE chains, and the exact condition for agreement. Negation or witness: `C19_fails`.
* **C20** VIF/VIFE block parsing consumes exactly the linked bytes: Accepted strings characterised exactly. C20_truncated_chain_accepted records that a chain cut off by the end of the data is accepted. Negation or witness: `C20_truncated_chain_accepted`.
* **C21** Value information parsing never panics: False of the code: C21_fails gives panics in every build configuration (VIF 7D, eleventh VIFE, more than ten units or labels, plain text longer than nine). Exact panic sets proved (C21_read_panics_iff, C21_interpret_panics_iff) and freedom from panics for up to four VIFEs. Negation or witness: `C21_fails`.
* **C22** Primary VIF table: Full table proved except the duration codes 70-77, whose unit is missing in the code (C22_duration_units_missing proves the negation). Negation or witness: `C22_duration_units_missing`.
* **C26** Date and time types F and I: False of the code: year taken from the first two bytes (C26_year_fails, C26_year_correct_iff), day 31 reported as every / day 0 as 0 (C26_day_fails); the other fields are proved for all inputs. Negation or witness: `C26_year_fails`, `C26_day_fails`.
* **C30** A record depends only on its own bytes: False of the code for records cut off by the end of the data but accepted (C30_fails); proved for closed VIFE chains and complete data fields. Negation or witness: `C30_fails`.
* **C31** Variable-length data: Reserved codes, sizes, text, BCD and integers for all inputs. E0 (a zero-byte integer) panics with overflow checks: C31_empty_integer. The value of 9-byte BCD fields (18 digits, two more roundings) is bounded, not characterised exactly. Negation or witness: `C31_empty_integer`.
* **C34** Extended link layer: C34_inner_fields_lost records that the fields of an extended link layer below another one are not reported. Negation or witness: `C34_inner_fields_lost`.
* **C36** MbusData and UserDataBlock agree on the records: False of the code: C36_fails_encrypted, C36_fails_reversed. C36_agree_iff gives exactly the blocks on which the two agree; the _partial theorems prove agreement for all frames with such blocks. Negation or witness: `C36_fails_encrypted`, `C36_fails_reversed`.
* **C42** Annotation covers every byte exactly once: False of the code for a single character followed by more bytes (C42_fails); proved for all other accepted byte strings. Negation or witness: `C42_fails`.
* **C47** Scaled decimal is canonical with an additive offset: False of the code as stated (C47_fails: value 0 with an offset power of ten below the scale gets leading zeros); C47_canonical_iff_partial gives exactly when the text is canonical. Negation or witness: `C47_fails`.
* **C48** Additive correction applies only to correction VIFEs: False of the code as stated (C48_fails: codes 78-7B after FD, FB, FF and FC are read as corrections); proved: the exact rule, and correctness for the other blocks. Negation or witness: `C48_fails`.
* **C50** XML integer and BCD decode agree with the structured output: Proved for integers and BCD of all widths with the same byte order; false for byte order CI 76 and for the kind of some codings (C50_byte_order_fails, C50_kind_fails). Negation or witness: `C50_byte_order_fails`, `C50_kind_fails`.
* **C51** Table rendering respects the column width: unicode-width is a parameter: additive, at most 2 per character, printable ASCII and box characters 1 (SaneWidths). For control characters, which the real library gives no character width, C51_control_fails shows wrapping never breaks the line. Negation or witness: `C51_control_fails`.
* **C52** Mermaid escaping cannot break out of a label: Proved of src/output.rs; false of the second mermaid_escape, in src/mbus_data.rs (C52_old_fails), for which only quotation marks and brackets are proved absent (C52_old_partial). Negation or witness: `C52_old_fails`.
* **C53** Encrypted frames without a key expose no records: False for an extended link layer with a session number below an extended link layer I, whose ciphertext is shown as clear records (C53_fails). Proved for every other encrypted payload the library accepts; the effect of a key on clear telegrams is proved for all telegrams (C53_key_unused). Negation or witness: `C53_fails`.
* **C54** Record error offset points at the failing record: False of the code when fillers are skipped (C54_fails); proved: offset plus number of skipped bytes is the position of the failing record. Negation or witness: `C54_fails`.
* **C56** Decrypted hex view of a wireless frame keeps the header: False for frames that end in a correct CRC (C56_fails, C56_crc: the decrypted data appear two bytes too late); proved for frames without one, and the shown bytes are characterised exactly (C56_wireless_iff). Negation or witness: `C56_fails`.
* **C57** Format A stripping rejects frames with a bad block CRC: The property is false of the code; C57_documented_contract_fails proves the negation with a frame whose second block is damaged. The _partial theorem proves what holds: a returned frame has an intact first block. Full behaviour on arbitrary input: C15_strip_some. Negation or witness: `C57_documented_contract_fails`.
* **C59** Extension table FD: Proved for all codes but 2C-39, 3B-3F, 6F and 70, where the code deviates from the standard (C59_main_table_fails). Negation or witness: `C59_main_table_fails`, `C59_second_level_read_twice`.
* **C60** Extension table FB: Proved for all codes but 00 and 01, where the code reports W^3/h (C60_alternate_table_fails). Negation or witness: `C60_alternate_table_fails`.
* **C61** Combinable VIFE tables: Proved for all codes but 2C, 6B, 6E, 6F (C61_orthogonal_table_fails); the table after FC is proved completely. Negation or witness: `C61_orthogonal_table_fails`, `C61_additive_constant_ambiguous`.
* **C63** Parsing data records never panics: False of the code (C63_fails, all build configurations); the exact panic set is proved (C63_record_panics_iff), and panic freedom for records with up to four VIFEs, VIF not 7C/7D/FC and no variable length data. Negation or witness: `C63_fails`.
* **C68** Payloads encrypted at the extended link layer are not decoded: False of the code: C68_fails shows for every extended link layer II header that the payload is iterated. Proved: encryption announced by a transport header below an extended link layer I is respected. Negation or witness: `C68_fails`.
* **C69** The byte order of CI 76 applies to all values: False of the code: C69_fails shows that binary integers and reals ignore the byte order. Proved for BCD. Negation or witness: `C69_fails`.
* **C70** Structured values are exact: Exact for all integers, fixed width BCD, variable binary numbers and reals; false for long variable BCD (C70_long_bcd_fails), proved up to 7 bytes. Reals are not brought into the unit shown beside them (C123_fails). Negation or witness: `C70_long_bcd_fails`.
* **C71** Text values are the transmitted text: Both decodings for all bytes and the round trip of all UTF-8 texts. C71_latin1_fails records that a Latin-1 text whose bytes are valid UTF-8 is not reported as such. Negation or witness: `C71_latin1_fails`.
* **C72** Dates are reported as ISO text of the calendar date: ISO text proved for every complete date and time value, components otherwise; the century is missing (C72_century_fails). Negation or witness: `C72_every_second_fails`, `C72_century_fails`.
* **C73** XML dates and times: Proved for all dates. C73_library_year_fails records that the library itself reports another year for the same bytes. Negation or witness: `C73_library_year_fails`.
* **C74** XML units are the library's units: Proved for the primary table, the correction factors, and both extension tables except 32-35, 6F and 00, 01, 23, 30, 31, 79; negations C74_fails, C74_second_vife_fails, C74_extension_correction_fails. Negation or witness: `C74_fails`, `C74_second_vife_fails`, `C74_extension_correction_fails`.
* **C75** The XML document is well-formed: False for texts with U+FFFE/U+FFFF (C75_fails). Proved for all inputs, keys and ciphers: a document is well-formed exactly if it does not contain them. Negation or witness: `C75_fails`.
* **C76** The XML document is in the encoding it declares: False of the code (C76_fails): exactly the ASCII documents are in the declared encoding. Negation or witness: `C76_fails`.
* **C77** XML without a key shows no encrypted data: False of wired frames (C77_fails); proved for wireless telegrams. Negation or witness: `C77_fails`.
* **C78** Encryption does not change the decoded values: False under CI 76, where the byte order the header announces is applied to decrypted data only (C78_fails). Proved for CI 72 and for short headers for all ciphers, headers and data, and for the XML report for all of CI 72, 76, 7A, 5A. Negation or witness: `C78_fails`.
* **C79** Units of fixed data: Proved for all codes but 0D and 0E, which the code exchanges (C79_fails). Negation or witness: `C79_fails`.
* **C80** XML units and quantities are those of the standard: Proved for all primary VIFs, for FD except 3C-3F and 71, for FB except the codes the XML output has no unit for, 22-26, 30, 31 and 79; C80_fails is the negation. Negation or witness: `C80_fails`.
* **C82** XML media and signature: False for 31-33 and 38 (C82_medium_fails); proved for all other codes, for fixed data and for the signature. Negation or witness: `C82_medium_fails`.
* **C86** Meter identity: False of the alternates: the link layer address is listed beside a long header even when it is the same meter (C86_alternate_fails); the identity shown and the condition for alternates are proved for all telegrams. Negation or witness: `C86_alternate_fails`.
* **C91** Payload protection is reported: False for a long header below an extended link layer of type I (C91_fails); proved for all other telegrams (C91_protection_partial) and never 'unknown'. Negation or witness: `C91_fails`.
* **C93** Names of formats: see the theorem. Negation or witness: `C93_unambiguous`.
* **C96** Annotation agrees with the parsed records: False of the code: C96_fails (DIF 7F), C96_fails_text_first. The _partial theorems prove it for all telegrams without these. Negation or witness: `C96_fails`, `C96_fails_text_first`.
* **C99** The annotated view shows the decrypted telegram and its records: False of wireless telegrams that end in a CRC (C99_fails: encrypted bytes are shown as a record). Proved: selection of the view, coverage and wired telegrams in full, record segments as in C96 without global readout requests. Wireless telegrams, with or without the block CRCs of Format A: those without a further correct CRC before and after decryption that do not read as wired telegrams. Negation or witness: `C99_fails`.
* **C100** The framing of a telegram is unambiguous: False of the code (C100_fails, C100_fails_long); the ambiguous telegrams are confined to those beginning with E5 and those of 105 bytes beginning with 68 63 63. `C100_fails_format_a`: the detection of Format A checksums ignores the length field, so a wireless telegram without checksums whose first payload bytes happen to be the CRC of its header loses its reading. Negation or witness: `C100_fails_format_a`, `C100_unambiguous_partial`, `C100_fails`, `C100_fails_long`.
* **C101** A key never makes an accepted telegram unviewable: Refusal characterised exactly; freedom from panics is false (C101_fails, for every cipher and key), because the record parser panics on some records (C63). Negation or witness: `C101_fails`.
* **C103** The annotation as text lists every byte and segment: The dump, the order and content of the table and the refusal are proved for all telegrams. False in two points: C103_fails_filler (a filler stands below the heading of a record) and C103_fails_line (a unit text with a line end breaks the table). Negation or witness: `C103_fails_filler`, `C103_fails_line`.
* **C104** The text of a value determines the value: Proved for BCD, temporal and manufacturer data without restriction and for integers below 2^53; false beyond (C104_fails). Negation or witness: `C104_fails`.
* **C105** The text of a reading states the reading: Proved for integer and BCD records whose VIFEs add no constant; false with an additive correction (C105_fails). Negation or witness: `C105_fails`.
* **C106** The older outputs show the records of the structured output: Proved for all telegrams whose payload is clear or was decrypted; refusal characterised exactly. False if the payload stays encrypted (C106_fails: a panic) and for the JSON text of telegrams with a bad record (C106_fails_json). Negation or witness: `C106_fails`, `C106_fails_json`.
* **C107** The older outputs show nothing of a protected payload but its bytes: Proved for telegrams whose transport header names a security mode; false for extended link layer encryption (C107_fails: ciphertext listed as a reading) and for the JSON text (C107_fails_json). Negation or witness: `C107_fails`, `C107_fails_json`.
* **C108** The older outputs show the header of the structured output: Proved for every header form, with the two named exceptions, which are shown to be real (C108_fails_ell, C108_fails_fixed). Negation or witness: `C108_fails_ell`, `C108_fails_fixed`.
* **C110** The value and exponent of the older outputs are the number of the structured output: Proved for all records without additive corrections; up to rounding to the nearest double for 64-bit integers. False with an additive correction (C110_fails). Negation or witness: `C110_fails`.
* **C111** The older diagram is a diagram of the telegram: Proved with the subgraph of the device excepted, and without exception if there is a long header, no record, or a wireless frame. Edges to an undeclared subgraph, line breaks and drawn ciphertext are shown to be real (C111_fails, C111_fails_line, C111_fails_sealed). The text is read back by `readOld` if no label has a line break. Negation or witness: `C111_fails`, `C111_fails_sealed`, `C111_fails_line`.
* **C115** Every front end gives the same answer: False for keys in other spellings, for calls with two mistakes and for the input text in JavaScript's object: `C115_keys_fails`, `C115_order_fails`, `C115_m_bus_parse_fails`, `C115_decode_fails`. For a supported format and a key of 32 digits all front ends agree. Negation or witness: `C115_keys_fails`, `C115_order_fails`, `C115_m_bus_parse_fails`, `C115_decode_fails`.
* **C116** Every output format accepts the same telegrams: True of JSON, CSV, Mermaid and tables of at least 32 columns. XML agrees for wireless telegrams and for wired telegrams with a long header that are not encrypted or come with a key; it refuses other wired telegrams and crashes on some ciphertexts: `C116_xml_fails`. Annotation accepts some telegrams the decoding refuses: `C116_annotated_fails`. YAML is true up to errors of its library, whose writer is not modelled (C116_yaml). Negation or witness: `C116_xml_fails`, `C116_annotated_fails`.
* **C117** No rendering crashes: False: `C117_fails`. `C117_decode_iff` says which inputs crash the decoding. In every format, with and without a key, every crash comes from the wired parser or from the record parser on bytes of the telegram, of its decryption, or of the telegram with the decrypted data in place of the encrypted ones. Negation or witness: `C117_fails`.
* **C118** Error codes name the cause: True of the structured formats. The position counts from the first character that is not white space (`C118_position_fails`), and every error of the XML output has the same code and layer (`C118_xml_fails`). Negation or witness: `C118_position_fails`, `C118_xml_fails`.
* **C119** A caller of serialize_mbus_data can tell a result from an error: Proved for every name but the five of the older formats, given that no text of the YAML library begins with `Error [`. False for the older formats, which are silent about errors: `C119_older_fails`; their texts for what is not a telegram are fixed, `C119_older`. Negation or witness: `C119_older_fails`.
* **C121** Units of the structured output are UCUM terms: True of units with a UCUM symbol; the conversion does not cover months, years and litres. Reactive units are written with a text that is no UCUM term and a temperature in a product is no valid unit (`C121_fails`); a year is a different length in the structured output and in XML (`C121_year_fails`). Negation or witness: `C121_fails`, `C121_year_fails`.
* **C123** What a meter sends is what is shown: Proved for telegrams in the clear and encrypted with long and short headers, for readings with a number, text, 32-bit real, date or no data, of at most five codes, storage number 0 or 1, codes the library has as the standard has them, reals in the base units of their codes and BCD of up to 14 digits; also with data of the manufacturer at the end of the message, and below extended link layers, encrypted or not. `C123_fails`: a storage number above 1, energies in MWh and reals in kWh are shown wrong, and five combinable codes crash the decoding. Dates are shown with the two digits of the year that are sent (C72); dates with a time are missing, their year is wrong (C26). Negation or witness: `C123_fails`.
* **C125** The text of an annotation states the bytes it marks: false for plain text units (characters shown backwards) and for the second start byte of a long frame when it is not 0x68; proved for all other segments Negation or witness: `C125_fails_plain_text`, `C125_fails`.
* **C126** The message of a refusal names the defect: false for the stop byte of short frames, for long frames of length 0 and for wireless frames with a malformed manufacturer or identification; proved for all other inputs, and completely for refused keys Negation or witness: `C126_fails_stop`, `C126_fails_empty`, `C126_fails_trailing`, `C126_fails_wireless`.
* **C129** Errors returned as text in the JavaScript package: Everything but the message is proved; C129_message_fails shows that the message is not in the text, because the message of a JavaScript error is not enumerable. That JSON.stringify writes the members name, code, layer and byteOffset in this order is an assumption of the model about JavaScript and wasm-bindgen. Negation or witness: `C129_message_fails`.
* **C131** Comparing a text of a telegram with a string: The converse holds for bytes that are UTF-8 (C131_converse_partial) and fails for all others (C131_fails). Negation or witness: `C131_fails`.
* **C135** The numbers of the XML output are the numbers meant, to six decimals: What is smaller than a millionth of the base unit is lost: all readings in 10^-12 A are shown as 0.000000 (C135_fails). Negation or witness: `C135_fails`.
* **C136** What a meter sends is in the XML report: Numbers in fields of variable length are shown as hexadecimal bytes, some codes after FB with another unit (GJ/h as J) and combinable codes other than one power of ten are ignored (C136_fails). Codes the XML table has no name for are left out. Negation or witness: `C136_fails`.
* **C138** The text of a value in the annotation states the value the meter sent: False of integers that a double cannot hold (shown rounded) and of integers of more than eight bytes (only the low bytes are shown): C138_fails. The theorem says that the text is the number a double nearest to the sent one denotes, exactly the sent one up to 53 bits. Readings excluded in C123 and Format A framing (see C95, C125) are not covered. Negation or witness: `C138_fails`.
* **C143** What the meter says about itself is in the JSON and CSV texts: C143_application_fails: a meter that is busy, or whose application has failed, is shown as 'Counter binary signed' or 'Counter fixed date'. C143_json_partial needs an application without error; C143_alarms, C143_csv and C143_one_status hold for every status. Negation or witness: `C143_application_fails`.
* **C145** The JSON and CSV texts tell how a telegram is framed and give its bytes back: C145_primary_fails: every SND_NKE (control field 40) is shown with 'PRM: false' although the bit is set. C145_wireless_fails: the services 46, 47, 48 and 06 have names in the library but are shown without one. The partial theorems exclude just these five control fields. Negation or witness: `C145_primary_fails`, `C145_wireless_fails`.
* **C146** What a meter with the fixed data structure sends is in the JSON, CSV and XML texts: C146_counters_fails: for every such telegram the JSON text says 'complete' and has no records. C146_stored_fails: the report of stored counters calls them actual values unless bit 6 of the status is set; the status text of the same telegram says 'Counter fixed date' (bit 1). C146_binary_fails: binary counters 4660 and 22136 are shown as 1234 and 5678. C146_reversed_fails: with the CI field 77 the number 12345678 is shown as 78563412. The partial theorems cover BCD counters with the CI field 73; the XML theorem also excludes the unit codes 0D and 0E (C79). Negation or witness: `C146_counters_fails`, `C146_stored_fails`, `C146_binary_fails`, `C146_reversed_fails`.
* **C147** The extended link layer a sender adds is in the JSON texts: C147_receiver_fails: the library reads the layout of type IV under the CI field of type III (8E), so a type III layer is shown with a session number and a CRC made of the six bytes that follow it. C147_both_fails: type IV (8F) is rejected. C147_long_fails: a type I layer before a long transport header is rejected, and neither of the two is shown. C147_json_partial covers types I, before data without a header or with a short one, and II. Negation or witness: `C147_receiver_fails`, `C147_both_fails`, `C147_long_fails`.
* **C150** A telegram damaged on its way is turned away: False in general: the fourth byte of a long frame is ignored (C150_fourth_fails), a first byte E5 makes a single character of anything (C150_start_fails), a wired telegram of 105 bytes with one wrong byte is shown as the radio telegram of another meter (C150_long_fails), and a radio telegram with a wrong byte in a block after the first is shown with a wrong reading and no remark (C150_radio_fails). Proved for all other wrong bytes of long, control and short frames, apart from received bytes whose first twelve happen to carry a correct CRC, and for the first block of radio telegrams. Negation or witness: `C150_start_fails`, `C150_fourth_fails`, `C150_radio_fails`, `C150_long_fails`.
* **C151** It makes no difference whether a radio telegram is given with or without its checksums: False for a telegram without checksums whose eleventh and twelfth byte happen to be the CRC of the first ten: it is read as something the meter did not send (C151_fails). Proved for all others that are not taken for telegrams of the wire (C100). Negation or witness: `C151_fails`.
* **C154** A wrong key is noticed: False: a wrong key gives a complete telegram with a volume and a pressure the meter never sent, in all front ends (C154_fails). Proved: for every key the data shown are reported as decrypted but not verified, and are those the meter encrypted if the key is right. Negation or witness: `C154_fails`.
* **C155** The answers tell nothing of a key but the data it decrypts: False for telegrams that are wired and wireless at once: the annotated view of a telegram in the clear shows garbage as decrypted that depends on the key (C155_fails). Proved for all other telegrams in all formats; for all telegrams if the keys decrypt every block alike (C155_blocks), and for the decoded structure (C155_nothing). Negation or witness: `C155_fails`.
* **C156** No telegram exhausts the stack: False for bytes given to parse_application_layer directly (C156_fails: unbounded recursion). Proved for all telegrams (C156_telegrams_partial), and the exact number of calls of the parser (C156_parse_iff). Negation or witness: `C156_fails`.
* **C158** Data that are cut off show nothing the whole does not: False of the last record if the cut is not noticed (C158_fails). Proved for all others, and for all records if the answer is marked partial. Negation or witness: `C158_fails`.
* **C160** A record can be read again from the bytes shown for it: False of telegrams in the byte order of CI 76 that are decrypted (C160_fails): they are read in the other byte order, which decoding of the bytes alone does not know. Negation or witness: `C160_fails`.
* **C164** A key that a telegram does not need changes nothing: false for the annotated views of bytes that are a wired and a wireless telegram at once (C164_fails); proved for all others and for all other outputs Negation or witness: `C164_fails`.
* **C165** The older outputs show how a telegram is framed: Missing: the control fields 46, 47, 48 and 06, which are not named although the library has names for them (C165_fails), and the PRM bit of 40 in diagrams of wireless telegrams, which is shown as false (as in C145_primary_fails). Negation or witness: `C165_fails`.
* **C167** A telegram that resets a meter is shown as one, without readings: Wired telegrams with the control field 53 (frame count bit clear) are control frames, whose data is not looked at: nothing in the output says that they are resets (C167_fails) Negation or witness: `C167_fails`.
* **C169** The older outputs name the meter that sends and show its access number and alarms: Partial because false of the code: the state of the application (busy, error, alarm) is shown in the words of the fixed data structure's status (C169_fails, as in C143). Negation or witness: `C169_fails`.

## Axioms per theorem

From `#print axioms` over every theorem named in `MANIFEST.json`.

**Classical.choice, Quot.sound, propext** (640 theorems): `C01_wired_accepts_exactly_telegrams`, `C02_wired_long_round_trip`, `C02_wired_short_round_trip`, `C03_wired_long_detects_single_byte_change`, `C03_wired_short_detects_single_byte_change`, `C04_wired_never_panics_partial`, `C04_wired_panics_iff`, `C06_address_classes`, `C07_manufacturer_from_id`, `C07_manufacturer_from_id_to_id`, `C07_manufacturer_injective`, `C07_manufacturer_to_id_from_id`, `C08_bcd_id_accepts`, `C08_bcd_id_bound`, `C08_bcd_id_injective`, `C08_bcd_id_reencode`, `C08_bcd_id_rejects`, `C08_bcd_id_roundtrip`, `C10_configuration_field_decomposition`, `C10_no_encryption_iff`, `C10_security_mode_bits`, `C10_security_mode_names`, `C11_crc_detects_bursts`, `C11_crc_detects_odd_flips`, `C11_crc_detects_one_byte`, `C11_crc_detects_two_bytes`, `C11_crc_is_polynomial_remainder`, `C11_trailing_frame_crc_start`, `C12_wireless_accepts_exactly_telegrams`, `C12_wireless_error_precedence`, `C13_wireless_never_panics`, `C13_wireless_payload`, `C14_format_a_exists`, `C14_format_a_roundtrip`, `C14_format_a_roundtrip_exact`, `C15_strip_never_panics`, `C15_strip_none_buffer`, `C15_strip_none_iff`, `C15_strip_some`, `C15_stripped_is_subsequence`, `C16_rejects_iff`, `C16_size`, `C17_storage_computed`, `C17_storage_number_partial`, `C18_fields_fit_in_u64`, `C18_tariff_and_subunit`, `C19_agree_partial`, `C19_fails`, `C19_xml_numbers`, `C20_accepts_iff`, `C20_size`, `C21_interpret_panics_iff`, `C21_never_panics_partial`, `C21_read_panics_iff`, `C23_exact_up_to_48_bits`, `C23_integer_value`, `C23_representable`, `C23_round_trip`, `C23_rounding_is_nearest`, `C24_bcd_value`, `C24_round_trip`, `C26_year_correct_iff`, `C27_calls`, `C27_fused_after_error`, `C27_items`, `C28_records_tile`, `C28_records_tile_before_error`, `C29_raw_bytes`, `C30_local_partial`, `C31_bcd`, `C31_binary`, `C31_consumed`, `C31_empty_integer`, `C31_reserved`, `C31_text`, `C31_truncated`, `C32_accepts_iff`, `C32_empty`, `C32_invalid_ci_iff`, `C32_never_panics`, `C32_rejects_iff`, `C33_long_header`, `C33_short_header`, `C34_inner_fields_lost`, `C34_nested`, `C35_encrypted_long_hidden`, `C35_encrypted_short_hidden`, `C35_is_encrypted`, `C35_records`, `C36_agree_iff`, `C36_agree_wired_partial`, `C36_agree_wireless_partial`, `C36_fails_encrypted`, `C36_fails_reversed`, `C37_frame_delivered_wired`, `C37_user_data_or_error_wired`, `C37_wireless`, `C40_cbc_inverts_encryption`, `C41_iv_injective`, `C41_iv_is_address_field`, `C42_covers_partial`, `C42_fails`, `C42_label_partial`, `C43_accepts_iff`, `C43_compact_round_trip`, `C43_empty_iff`, `C43_hex_string`, `C43_position`, `C43_token_round_trip`, `C43_total`, `C44_agrees_with_strict`, `C44_collapse`, `C44_inverts`, `C44_lenient`, `C44_newline`, `C44_round_trip`, `C45_exact`, `C45_none`, `C46_canonical`, `C46_canonical_int`, `C46_value`, `C47_canonical_iff_partial`, `C47_fails`, `C50_byte_order_fails`, `C50_kind_fails`, `C50_number_partial`, `C50_shown_number_partial`, `C51_border_width`, `C51_row`, `C51_row_width`, `C51_shown`, `C51_table`, `C51_wrap`, `C52_faithful`, `C52_old_fails`, `C52_old_partial`, `C52_safe`, `C52_shows`, `C53_fails`, `C53_key_unused`, `C53_no_key_partial`, `C54_fails`, `C54_offset_partial`, `C55_parses_again`, `C55_shows_plaintext`, `C55_wired_iff`, `C56_crc`, `C56_fails`, `C56_no_crc_partial`, `C56_wireless_iff`, `C57_documented_contract_fails`, `C57_strip_first_block_partial`, `C58_dif_reported`, `C61_additive_constant_ambiguous`, `C62_codes`, `C62_contributions_add_up`, `C62_meanings_add_up`, `C63_never_panics_partial`, `C63_record_panics_iff`, `C64_date_coding`, `C65_decrypt_mode5`, `C65_not_decrypted`, `C66_status_injective`, `C66_status_text`, `C67_direction`, `C68_fails`, `C68_transport_encryption_partial`, `C69_bcd_reversed_partial`, `C70_bcd`, `C70_integers`, `C70_long_bcd_fails`, `C70_reals`, `C70_variable_bcd_partial`, `C70_variable_integers`, `C71_latin1`, `C71_latin1_fails`, `C71_round_trip`, `C71_utf8`, `C72_century_fails`, `C72_date`, `C72_datetime`, `C72_encoded_date_partial`, `C72_every_second_fails`, `C72_incomplete_date`, `C72_incomplete_datetime`, `C72_incomplete_time`, `C72_time`, `C73_date`, `C73_date_time`, `C73_date_time_seconds`, `C73_library_year_fails`, `C74_alternate_extension_partial`, `C74_correction`, `C74_extension_correction_fails`, `C74_fails`, `C74_first_vife_only`, `C74_main_extension_partial`, `C74_primary`, `C74_primary_known`, `C74_second_vife_fails`, `C75_fails`, `C75_fixed_contents`, `C75_one_document`, `C75_one_report`, `C75_well_formed_partial`, `C75_wired_contents_partial`, `C76_declared_encoding_partial`, `C76_fails`, `C77_fails`, `C77_same_document_partial`, `C77_wireless_partial`, `C78_fails`, `C78_long_partial`, `C78_short`, `C78_xml_long`, `C78_xml_short`, `C80_alternate_partial`, `C80_extension_bit`, `C80_extension_name_partial`, `C80_fails`, `C80_main_partial`, `C80_primary`, `C80_primary_name`, `C80_unknown`, `C81_function`, `C81_library_text`, `C81_lossless`, `C81_manufacturer_data`, `C81_other_bytes`, `C81_text`, `C81_utf8`, `C82_medium_fails`, `C82_medium_partial`, `C82_signature`, `C82_unknown_medium`, `C83_ell_key`, `C83_empty_iff`, `C83_invalid_iff`, `C83_no_key`, `C83_security_error`, `C84_decode_again`, `C84_decode_text`, `C84_payload`, `C84_raw`, `C85_complete`, `C85_state`, `C86_alternate_fails`, `C86_alternates`, `C86_link`, `C86_long`, `C87_ell`, `C87_ell_one`, `C87_ell_receiver`, `C87_long`, `C87_short`, `C88_enrichment`, `C88_registry`, `C89_bytes`, `C89_fields`, `C89_indices`, `C89_shown`, `C90_data_records`, `C90_empty`, `C91_fails`, `C91_never_unknown`, `C91_protection_partial`, `C92_distinct`, `C92_frame`, `C92_record`, `C92_rows`, `C93_names`, `C93_round_trip`, `C94_well_formed`, `C95_format_a`, `C96_control`, `C96_fails`, `C96_fails_text_first`, `C96_fields_partial`, `C96_records_partial`, `C97_link`, `C97_long`, `C97_short`, `C98_encrypted`, `C98_panics_only`, `C98_rejects_iff`, `C99_covers`, `C99_decrypted_iff`, `C99_fails`, `C99_wired`, `C99_wireless_partial`, `C100_fails`, `C100_fails_format_a`, `C100_fails_long`, `C100_unambiguous_partial`, `C101_fails`, `C101_rejects_iff`, `C102_columns`, `C102_injective`, `C102_reads_back`, `C102_shows`, `C103_fails_filler`, `C103_fails_line`, `C103_kinds`, `C103_rejects`, `C103_text_partial`, `C104_bcd`, `C104_date`, `C104_fails`, `C104_integers_partial`, `C104_number`, `C104_parts`, `C104_point`, `C104_temporal`, `C105_bcd_partial`, `C105_fails`, `C105_integers_partial`, `C106_fails`, `C106_fails_json`, `C106_records_partial`, `C106_refused`, `C107_fails`, `C107_fails_json`, `C107_protected_partial`, `C108_fails_ell`, `C108_fails_fixed`, `C108_header_partial`, `C109_columns`, `C109_error`, `C110_bcd_partial`, `C110_fails`, `C110_integers_partial`, `C110_rounded`, `C111_device`, `C111_diagram_partial`, `C111_fails`, `C111_fails_line`, `C111_fails_sealed`, `C111_frame`, `C111_records`, `C111_small`, `C111_text`, `C111_wireless`, `C112_determines`, `C112_json`, `C112_one_meaning`, `C112_read_back`, `C112_records`, `C113_columns`, `C113_csv`, `C113_determines`, `C113_wide`, `C114_annotated`, `C114_bytes`, `C114_determines`, `C115_bytes_or_text`, `C115_cli_key`, `C115_decode`, `C115_decode_fails`, `C115_keys`, `C115_keys_fails`, `C115_m_bus_parse`, `C115_m_bus_parse_fails`, `C115_order_fails`, `C115_parse_is_json`, `C115_same`, `C115_same_key`, `C115_unsupported`, `C116_annotated`, `C116_annotated_fails`, `C116_annotated_partial`, `C116_structured`, `C116_xml_encrypted`, `C116_xml_fails`, `C116_xml_fixed`, `C116_xml_long`, `C116_xml_other`, `C116_xml_wireless`, `C116_yaml`, `C117_decode_iff`, `C117_fails`, `C117_rendering_partial`, `C118_cause`, `C118_input`, `C118_position_fails`, `C118_security_iff`, `C118_xml_fails`, `C119_announced`, `C119_older`, `C119_older_fails`, `C119_text`, `C120_annotated`, `C120_hexview`, `C121_determined_partial`, `C121_fails`, `C121_meaning_partial`, `C121_primary`, `C121_term_partial`, `C121_year_fails`, `C122_distinct`, `C122_names`, `C123_aes_partial`, `C123_aes_short_partial`, `C123_carried_partial`, `C123_clear_partial`, `C123_fails`, `C123_sealed_partial`, `C123_sealed_short_partial`, `C123_sealed_tail_partial`, `C123_tail_partial`, `C124_decoded_long`, `C124_decoded_short`, `C124_report_long`, `C124_report_short`, `C124_view`, `C125_fails`, `C125_fails_plain_text`, `C125_format_a_partial`, `C125_plain_text_partial`, `C125_text_partial`, `C126_fails_empty`, `C126_fails_stop`, `C126_fails_trailing`, `C126_fails_wireless`, `C126_invalid_partial`, `C126_one_defect`, `C126_one_defect_short`, `C126_security`, `C126_wired_partial`, `C127_digits`, `C127_document`, `C127_table`, `C127_unique`, `C128_codes`, `C128_failure`, `C128_file`, `C128_output`, `C128_success`, `C129_message_fails`, `C129_text`, `C129_total`, `C130_end`, `C131_converse_partial`, `C131_fails`, `C131_shown`, `C132_hex`, `C132_records`, `C132_refused`, `C132_spellings`, `C133_aes_partial`, `C133_aes_short_partial`, `C133_carried_partial`, `C133_clear_partial`, `C133_reals_partial`, `C134_aes_partial`, `C134_aes_short_partial`, `C134_carried_partial`, `C134_clear_partial`, `C135_exact`, `C135_exact_real`, `C135_fails`, `C135_integer`, `C135_plain`, `C135_real`, `C135_special`, `C136_clear_partial`, `C136_fails`, `C136_sealed_partial`, `C136_sealed_short_partial`, `C137_json`, `C137_records`, `C137_wired`, `C137_wireless`, `C138_fails`, `C138_sent_partial`, `C139_csv`, `C139_decoded`, `C139_json`, `C139_one_meter`, `C140_display`, `C140_distinct`, `C140_distinct_display`, `C140_document`, `C140_environment`, `C140_json`, `C140_older`, `C140_shortest`, `C140_special`, `C141_aes_partial`, `C141_aes_short_partial`, `C141_carried_partial`, `C141_clear_partial`, `C141_layout`, `C141_meter`, `C141_read`, `C142_aes_partial`, `C142_aes_short_partial`, `C142_carried_partial`, `C142_clear_partial`, `C142_meter`, `C142_picture`, `C142_read`, `C143_alarms`, `C143_application_fails`, `C143_csv`, `C143_decoded`, `C143_json_partial`, `C143_one_status`, `C144_opened_csv`, `C144_opened_json`, `C144_opened_short_json`, `C144_unopened_csv`, `C144_unopened_json`, `C145_csv_partial`, `C145_decoded_partial`, `C145_framed`, `C145_json_partial`, `C145_primary_fails`, `C145_wireless_fails`, `C146_binary_fails`, `C146_counters_fails`, `C146_csv_partial`, `C146_json_partial`, `C146_older_partial`, `C146_reversed_fails`, `C146_stored_fails`, `C146_wide_partial`, `C146_xml_partial`, `C147_both_fails`, `C147_decoded_partial`, `C147_json_partial`, `C147_long_fails`, `C147_one_ell`, `C147_receiver_fails`, `C148_one_header`, `C148_one_meter`, `C148_readings`, `C148_report`, `C148_same_report`, `C149_csv`, `C149_csv_recover`, `C149_decoded`, `C149_json`, `C149_json_recover`, `C150_fourth_fails`, `C150_long_fails`, `C150_long_partial`, `C150_radio_fails`, `C150_radio_partial`, `C150_short_partial`, `C150_start_fails`, `C151_csv_partial`, `C151_decoded_partial`, `C151_fails`, `C151_json_partial`, `C151_texts_partial`, `C152_bytes`, `C152_spelling`, `C153_csv`, `C153_decoded`, `C153_free`, `C153_json`, `C153_table`, `C154_fails`, `C154_warned_partial`, `C154_warned_short_partial`, `C155_blocks`, `C155_fails`, `C155_nothing`, `C155_one_framing`, `C155_shown_partial`, `C155_unused_partial`, `C156_annotate`, `C156_telegrams_partial`, `C157_cut_off`, `C157_fillers`, `C157_joined`, `C157_sealed`, `C157_telegrams`, `C158_data_partial`, `C158_fails`, `C158_sealed_partial`, `C158_telegrams_partial`, `C159_records`, `C159_same`, `C160_data`, `C160_fails`, `C160_telegrams_partial`, `C161_hex`, `C161_records`, `C161_telegram`, `C162_cli`, `C162_decode`, `C162_diagram`, `C162_hex`, `C162_javascript`, `C162_older`, `C162_python`, `C162_records`, `C162_render`, `C163_decode`, `C163_iterator`, `C163_older`, `C163_record`, `C163_records`, `C163_render`, `C163_without`, `C163_xml`, `C164_annotated_partial`, `C164_fails`, `C164_hexview_partial`, `C164_older`, `C164_xml`, `C165_csv_partial`, `C165_device`, `C165_diagram_partial`, `C165_fails`, `C165_json_partial`, `C165_summary_partial`, `C166_distinct`, `C166_quantity`, `C166_summary`, `C166_text`, `C166_unit`, `C167_csv_partial`, `C167_fails`, `C167_json_partial`, `C167_older_partial`, `C167_wide_partial`, `C167_xml_partial`, `C168_csv`, `C168_json`, `C168_older`, `C168_wide`, `C168_xml`, `C169_csv`, `C169_diagram_wired`, `C169_diagram_wireless`, `C169_fails`, `C169_header_partial`, `C169_json`.

**Quot.sound, propext** (67 theorems): `C07_manufacturer_to_id`, `C10_configuration_from_bytes`, `C16_accepts_iff`, `C16_never_panics`, `C17_fails`, `C20_truncated_chain_accepted`, `C21_fails`, `C22_duration_units_missing`, `C22_primary_reported`, `C22_primary_table_partial`, `C23_real32`, `C23_real32_truncated`, `C25_date_g`, `C25_date_g_truncated`, `C25_round_trip`, `C26_day_fails`, `C26_type_f_partial`, `C26_type_i_partial`, `C26_year_fails`, `C30_fails`, `C34_ell_fields`, `C34_ell_size`, `C38_key_provider_capacity`, `C38_key_provider_first_wins`, `C38_key_provider_no_confusion`, `C39_decrypt_error_leaves_output`, `C39_decrypt_result`, `C39_decrypt_writes`, `C45_denotes`, `C48_combinable_partial`, `C48_fails`, `C48_last_correction`, `C49_ampersand`, `C49_no_markup`, `C49_reversible`, `C49_round_trip`, `C51_control_fails`, `C54_no_error`, `C54_reported`, `C58_dif_table`, `C59_main_table_fails`, `C59_main_table_partial`, `C59_second_level_read_twice`, `C59_second_level_table`, `C60_alternate_table_fails`, `C60_alternate_table_partial`, `C61_orthogonal_extension_table`, `C61_orthogonal_table_fails`, `C61_orthogonal_table_partial`, `C62_orthogonal_codes`, `C62_text_and_manufacturer_codes`, `C63_fails`, `C65_with_context`, `C65_written_length`, `C69_fails`, `C79_fails`, `C79_fixed_units_partial`, `C82_fixed_medium`, `C113_one_reading`, `C124_cipher`, `C124_sbox`, `C130_both_ends`, `C130_size`, `C156_fails`, `C156_parse_iff`, `C162_iterator`, `C162_record`.

**propext** (13 theorems): `C04_wired_never_panics_is_false`, `C05_function_codes`, `C05_function_flags`, `C05_function_injective`, `C06_address_injective`, `C07_manufacturer_rejects`, `C09_device_type_injective`, `C09_device_type_names`, `C09_device_type_reserved`, `C09_device_type_roundtrip`, `C65_variable_data_len`, `C131_equal`, `C162_frame`.

**none** (3 theorems): `C90_clear`, `C93_unambiguous`, `C114_names`.

**Quot.sound** (1 theorems): `C05_function_unknown`.

