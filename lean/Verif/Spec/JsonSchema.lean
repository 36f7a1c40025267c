import Verif.Spec.Json
import Verif.Spec.RecordOutput
/-!
# The schema of the JSON output: C161

The documents of version 3 as a grammar: for each object the members in their order, which of them are always there, and
what their values look like.
-/
namespace MBus.Spec

/-- What a value looks like.  `always` says of a member that it is in every document. -/
inductive Schema where
  | text (holds : List Char → Prop)
  | number (holds : List Char → Prop)
  | flag
  | list (item : Schema)
  | object (members : List (String × Bool × Schema))
  | either (one other : Schema)

mutual
/-- The value has the shape. -/
inductive Conforms : Schema → Doc → Prop
  | text {p : List Char → Prop} {t : List Char} : p t → Conforms (.text p) (.str t)
  | number {p : List Char → Prop} {t : List Char} : p t → Conforms (.number p) (.num t)
  | flag (b : Bool) : Conforms .flag (.bool b)
  | list {s : Schema} {items : List Doc} : ConformsEach s items → Conforms (.list s) (.arr items)
  | object {ms : List (String × Bool × Schema)} {members : List (List Char × Doc)} : ConformsAll ms members →
      Conforms (.object ms) (.obj members)
  | one {s s' : Schema} {d : Doc} : Conforms s d → Conforms (.either s s') d
  | other {s s' : Schema} {d : Doc} : Conforms s' d → Conforms (.either s s') d

/-- Every element of an array has the shape. -/
inductive ConformsEach : Schema → List Doc → Prop
  | nil (s : Schema) : ConformsEach s []
  | cons {s : Schema} {d : Doc} {ds : List Doc} : Conforms s d → ConformsEach s ds → ConformsEach s (d :: ds)

/-- The members of an object are those listed, in this order and each at most once; only those that are not in every
document can be missing. -/
inductive ConformsAll : List (String × Bool × Schema) → List (List Char × Doc) → Prop
  | nil : ConformsAll [] []
  | present {name : String} {always : Bool} {s : Schema} {d : Doc} {ms : List (String × Bool × Schema)}
      {members : List (List Char × Doc)} : Conforms s d → ConformsAll ms members →
      ConformsAll ((name, always, s) :: ms) ((name.toList, d) :: members)
  | missing {name : String} {s : Schema} {ms : List (String × Bool × Schema)} {members : List (List Char × Doc)} :
      ConformsAll ms members → ConformsAll ((name, false, s) :: ms) members
end

/-- Any text. -/
def Schema.any : Schema := .text (fun _ => True)

/-- One of the words. -/
def Schema.word (words : List String) : Schema := .text (fun t => ∃ w ∈ words, t = w.toList)

/-- Hexadecimal digits as they are written. -/
def UpperHex (t : List Char) : Prop := ∀ c ∈ t, c ∈ "0123456789ABCDEF".toList

/-- Bytes in hexadecimal, one behind the other; `count` of them if it is given. -/
def Schema.hex (count : Option Nat) : Schema :=
  .text (fun t => UpperHex t ∧ t.length % 2 = 0 ∧ ∀ n ∈ count, t.length = 2 * n)

/-- Bytes in hexadecimal with a blank between them. -/
def Schema.bytes : Schema :=
  .text (fun t => ∃ pairs : List (List Char), (∀ p ∈ pairs, UpperHex p ∧ p.length = 2) ∧ t = [' '].intercalate pairs)

/-- At least `count` decimal digits. -/
def Schema.digits (count : Nat) : Schema := .text (fun t => Digits t ∧ count ≤ t.length)

/-- A decimal number in quotes, with a value. -/
def Schema.amount : Schema := .text (fun t => ∃ q, Denotes t q)

/-- A natural number, below `bound` if it is given. -/
def Schema.natural (bound : Option Nat) : Schema := .number (fun t => ∃ n, t = Spec.decimal n ∧ ∀ b ∈ bound, n < b)

/-- A byte as a number. -/
def Schema.byte : Schema := .natural (some 256)

/-- Any number of JSON. -/
def Schema.real : Schema := .number NumberText

/-- A calendar date `YYYY-MM-DD`; the fields of the telegram are not compared with the calendar. -/
def IsDate (t : List Char) : Prop := ∃ year month day, year < 128 ∧ 1 ≤ month ∧ month ≤ 12 ∧ day < 32 ∧ t = isoDate year month day

/-- A time of day `hh:mm:ss`. -/
def IsTime (t : List Char) : Prop := ∃ hour minute second, hour < 32 ∧ minute < 64 ∧ second < 64 ∧ t = isoTime hour minute second

/-- A date and a time. -/
def IsDateTime (t : List Char) : Prop := ∃ date time, IsDate date ∧ IsTime time ∧ t = date ++ ['T'] ++ time

/-- A part of a date or a time that is not a point in time. -/
def Schema.part (value : Schema) : Schema := .either value (.word ["every", "invalid"])

/-- The names of the months. -/
def monthWords : List String :=
  ["January", "February", "March", "April", "May", "June", "July", "August", "September", "October", "November", "December"]

/-- Parts of a day. -/
def dayShape : Schema := .part (.natural (some 32))
def monthShape : Schema := .part (.word monthWords)
def yearShape : Schema := .part (.natural (some 128))
def hourShape : Schema := .part (.natural (some 32))
def sixtyShape : Schema := .part (.natural (some 64))

/-- The value of a record: its kind, and what belongs to it. -/
def valueShape : Schema :=
  .either (.object [("kind", true, .word ["decimal"]), ("value", true, .amount)])
  (.either (.object [("kind", true, .word ["float"]),
      ("value", true, .either .real (.word ["nan", "positive_infinity", "negative_infinity"]))])
  (.either (.object [("kind", true, .word ["text"]), ("value", true, .any)])
  (.either (.object [("kind", true, .word ["date"]),
      ("value", true, .either (.text IsDate)
        (.object [("day", true, dayShape), ("month", true, monthShape), ("year", true, yearShape)]))])
  (.either (.object [("kind", true, .word ["time"]),
      ("value", true, .either (.text IsTime)
        (.object [("hour", true, hourShape), ("minute", true, sixtyShape), ("second", true, sixtyShape)]))])
  (.either (.object [("kind", true, .word ["datetime"]),
      ("value", true, .either (.text IsDateTime)
        (.object [("day", true, dayShape), ("hour", true, hourShape), ("minute", true, sixtyShape),
          ("month", true, monthShape), ("second", false, sixtyShape), ("year", true, yearShape)]))])
  (.object [("kind", true, .word ["manufacturer_specific", "none"])]))))))

/-- What a record can be of its quantity. -/
def functionWords : List String :=
  ["Instantaneous value", "Maximum value", "Minimum value", "Value during error state", "Manufacturer specific",
    "More records follow", "Idle filler", "Global readout request"]

/-- How the data of a record are coded. -/
def codingWords : List String :=
  ["No data", "8-bit integer", "16-bit integer", "24-bit integer", "32-bit integer", "32-bit real", "48-bit integer",
    "64-bit integer", "Selection for readout", "2-digit BCD", "4-digit BCD", "6-digit BCD", "8-digit BCD",
    "Variable length", "12-digit BCD", "Date (type G)", "Date and time (type F)", "Time (type J)",
    "Date and time (type I)", "Manufacturer specific", "More records follow", "Idle filler",
    "Global readout request"]

/-- A record. -/
def recordShape : Schema :=
  .object [("index", true, .natural none), ("function", true, .word functionWords),
    ("storage_number", true, .natural none), ("tariff", true, .natural none), ("subunit", true, .natural none),
    ("quantities", true, .list .any), ("value", true, valueShape), ("unit", false, .any),
    ("data_coding", true, .word codingWords), ("header_hex", true, .bytes), ("data_hex", true, .bytes)]

/-- The link layer of a wired telegram. -/
def wiredFrameShape : Schema :=
  .either
    (.object [("kind", true, .word ["long", "control", "short"]), ("function", true, .any), ("address", true, .any)])
    (.object [("kind", true, .word ["single_character"])])

/-- The link layer of a wireless telegram. -/
def wirelessFrameShape : Schema :=
  .object [("kind", true, .word ["wireless"]), ("function", false, .any), ("control_field", true, .hex (some 1))]

/-- Which meter it is. -/
def identityShape : Schema :=
  .either
    (.object [("source", true, .word ["link.wireless", "tpl.long"]), ("id", true, .digits 8),
      ("manufacturer_code", false, .any), ("version", true, .byte), ("device_type", true, .any),
      ("device_type_code", true, .byte)])
    (.object [("source", true, .word ["application.fixed"]), ("id", true, .digits 8), ("device_type", true, .any)])

/-- The meter. -/
def meterShape : Schema :=
  .object [("identity", false, identityShape), ("alternate_identities", false, .list identityShape)]

/-- Where a field of the transport layer was found. -/
def sourceShape : Schema := .word ["tpl.long", "tpl.short", "ell", "application.fixed"]

/-- The extended link layer. -/
def ellShape : Schema :=
  .object [("communication_control", true, .hex (some 1)), ("access_number", true, .byte),
    ("receiver_manufacturer", false, .hex (some 2)), ("receiver_address", false, .hex none),
    ("session_number", false, .hex none), ("payload_crc", false, .hex (some 2))]

/-- The transport layer. -/
def transportShape : Schema :=
  .object [("header_kind", false,
      .word ["long_tpl", "short_tpl", "ell", "none", "fixed", "application_reset"]),
    ("access_numbers", false, .list (.object [("source", true, sourceShape), ("value", true, .byte)])),
    ("statuses", false, .list (.object [("source", true, sourceShape), ("raw", true, .hex (some 1)),
      ("display", true, .any)])),
    ("configuration", false, .object [("source", true, sourceShape), ("raw", true, .hex (some 2))]),
    ("ell", false, ellShape)]

/-- Security: a telegram in the clear, one whose key is missing, one that was decrypted. -/
def securityShape : Schema :=
  .either
    (.object [("payload_protection", true, .word ["cleartext"]), ("mode", false, .any),
      ("mode_code", false, .byte), ("decryption_state", true, .word ["not_applicable"]), ("key_supplied", true, .flag)])
  (.either
    (.object [("payload_protection", true, .word ["encrypted"]), ("mode", false, .any), ("mode_code", false, .byte),
      ("decryption_state", true, .word ["key_missing"]), ("key_supplied", true, .flag),
      ("encrypted_payload_hex", true, .hex none)])
    (.object [("payload_protection", true, .word ["encrypted"]), ("mode", false, .any), ("mode_code", false, .byte),
      ("decryption_state", true, .word ["decrypted_unverified"]), ("key_supplied", true, .flag),
      ("encrypted_payload_hex", true, .hex none), ("decrypted_payload_hex", true, .hex none)]))

/-- The bytes of the telegram. -/
def rawShape : Schema :=
  .object [("input", false, .any), ("original_frame_hex", true, .hex none), ("normalized_frame_hex", true, .hex none),
    ("byte_length", true, .natural none), ("format_a_crc_stripped", true, .flag), ("payload_hex", false, .hex none)]

/-- A diagnostic; only those about a record say where it is. -/
def diagnosticShape : Schema :=
  .either
    (.object [("severity", true, .word ["warning"]), ("code", true, .word ["application.partial"]),
      ("layer", true, .word ["application"]), ("message", true, .any)])
  (.either
    (.object [("severity", true, .word ["warning"]), ("code", true, .word ["application.record_partial"]),
      ("layer", true, .word ["application"]), ("message", true, .any), ("offset_start", true, .natural none)])
  (.either
    (.object [("severity", true, .word ["warning"]), ("code", true, .word ["security.key_missing"]),
      ("layer", true, .word ["security"]), ("message", true, .any)])
    (.object [("severity", true, .word ["info"]),
      ("code", true, .word ["security.decrypted_unverified", "security.key_unused"]),
      ("layer", true, .word ["security"]), ("message", true, .any)])))

/-- What the registry of manufacturers knows. -/
def enrichmentShape : Schema :=
  .object [("source", true, .word ["bundled_manufacturer_registry"]), ("manufacturer_code", true, .any),
    ("manufacturer_name", true, .any), ("manufacturer_website", true, .any), ("manufacturer_description", true, .any)]

/-- A telegram of one protocol. -/
def telegramOf (protocol : String) (frame : Schema) : Schema :=
  .object [("schema_version", true, .number (· = ['3'])), ("decode_state", true, .word ["complete", "partial"]),
    ("protocol", true, .word [protocol]), ("frame", true, frame), ("meter", true, meterShape),
    ("transport", true, transportShape), ("security", true, securityShape), ("records", true, .list recordShape),
    ("raw", true, rawShape), ("diagnostics", true, .list diagnosticShape), ("enrichment", false, enrichmentShape)]

/-- A telegram. -/
def telegramShape : Schema := .either (telegramOf "wired" wiredFrameShape) (telegramOf "wireless" wirelessFrameShape)

end MBus.Spec
