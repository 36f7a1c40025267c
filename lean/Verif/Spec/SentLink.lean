import Verif.Spec.SentSecurity
import Verif.Spec.Tooltip
/-!
# How a telegram is framed

The link layer of EN 13757-2 (wired) and EN 13757-4 (wireless), written from the side of the sender, and what a reader
expects to see of it.
-/
namespace MBus.Spec

/-- What the sender puts into the link layer: the control field, the address of a wired frame, the payload, and the whole
frame without the checksums of Format A. -/
structure SentLink where
  protocol : String
  kind : String
  control : Option UInt8
  address : Option UInt8
  payload : Option (List UInt8)
  frame : List UInt8

/-- The telegram is framed in this way.  The library calls wired frames with the control field 53 control frames. -/
inductive FramedAs (data : List UInt8) : SentLink → Prop
  | single (rest : List UInt8) : data = 0xE5 :: rest → FramedAs data ⟨"wired", "single_character", none, none, none, data⟩
  | short (c a : UInt8) (fn : Function) : FunctionCode c fn → data = shortFrameBytes c a →
      FramedAs data ⟨"wired", "short", some c, some a, none, data⟩
  | long (x c a : UInt8) (payload : List UInt8) (fn : Function) : FunctionCode c fn → payload.length ≤ 253 →
      data = longFrameBytes x c a payload →
      FramedAs data ⟨"wired", if c = 0x53 then "control" else "long", some c, some a, some payload, data⟩
  | wireless (l c : UInt8) (rest : List UInt8) (f : WirelessFrame) : (∀ g, ¬ WiredTelegram data g) →
      Normalized data (l :: c :: rest) → WirelessTelegram (l :: c :: rest) f →
      FramedAs data ⟨"wireless", "wireless", some c, none, some f.data, l :: c :: rest⟩

/-- The services of the link layer, by control field: the name and the bits shown. -/
def services : List (Nat × String × List (String × Nat)) :=
  [(0x40, "SND_NKE", [("PRM", 6)]), (0x44, "SND_NR", []), (0x46, "SND_IR", []), (0x47, "ACC_NR", []),
   (0x48, "ACC_DMD", []), (0x06, "CNF_IR", []),
   (0x53, "SND_UD", [("FCB", 5)]), (0x73, "SND_UD", [("FCB", 5)]),
   (0x5A, "REQ_UD1", [("FCB", 5)]), (0x7A, "REQ_UD1", [("FCB", 5)]),
   (0x5B, "REQ_UD2", [("FCB", 5)]), (0x7B, "REQ_UD2", [("FCB", 5)]),
   (0x08, "RSP_UD", [("ACD", 5), ("DFC", 4)]), (0x18, "RSP_UD", [("ACD", 5), ("DFC", 4)]),
   (0x28, "RSP_UD", [("ACD", 5), ("DFC", 4)]), (0x38, "RSP_UD", [("ACD", 5), ("DFC", 4)])]

/-- A service in words, with its bits. -/
def serviceText (c : UInt8) : Option (List Char) :=
  (services.lookup c.toNat).map (fun (name, bits) => name.toList ++
    if bits = [] then [] else " (".toList ++ commaSeparated (bits.map (fun (bit, position) =>
      bit ++ ": " ++ if c.toNat.testBit position then "true" else "false")) ++ [')'])

/-- The text is JSON, and its one reading shows the link layer, `service` being the words for the control field, and the
bytes of the telegram. -/
def JsonLink (service : Option (List Char)) (link : SentLink) (data : List UInt8) (text : List Char) : Prop :=
  ∃ d, (∀ d', JsonText text d' ↔ d' = d) ∧
    let found := fun name => follow [.key "frame", .key name] d
    let raw := fun name => follow [.key "raw", .key name] d
    follow [.key "protocol"] d = some (.str link.protocol.toList) ∧
    found "kind" = some (.str link.kind.toList) ∧ found "function" = service.map .str ∧
    found "address" = link.address.map (fun a => .str (addressText a)) ∧
    found "control_field" = (if link.protocol = "wireless" then
      link.control.map (fun c => .str (hexDigits 2 c.toNat)) else none) ∧
    HexOf (some data) (raw "original_frame_hex") ∧ raw "byte_length" = some (number data.length) ∧
    HexOf (some link.frame) (raw "normalized_frame_hex") ∧
    raw "format_a_crc_stripped" = some (.bool (decide (link.frame ≠ data))) ∧ HexOf link.payload (raw "payload_hex")

/-- The text is a CSV file of names and values which show the link layer and the bytes of the telegram. -/
def CsvLink (service : Option (List Char)) (link : SentLink) (data : List UInt8) (text : List Char) : Prop :=
  ∃ names values, (∀ rows, CsvFile text rows ↔ rows = [names, values]) ∧ names.Nodup ∧ values.length = names.length ∧
    column (names, values) "protocol".toList = some link.protocol.toList ∧
    column (names, values) "frame_kind".toList = some link.kind.toList ∧
    column (names, values) "frame_function".toList = some (service.getD []) ∧
    column (names, values) "address".toList = some ((link.address.map addressText).getD []) ∧
    ∃ digits, column (names, values) "frame_hex".toList = some digits ∧ Pairs digits data

end MBus.Spec
