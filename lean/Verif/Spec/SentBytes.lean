import Verif.Spec.SentCsv
import Verif.Spec.Aes
import Verif.Spec.Decryption
/-!
# The bytes of the data of a telegram in the texts

The records shown hold the bytes they were made of, so a reader can check that nothing of the data was dropped,
repeated or changed.
-/
namespace MBus.Spec

/-- A telegram holds the data `d` for somebody with the given key: the data are not encrypted, or they were encrypted
with this key in mode 5 or 7, under a long header or under a short one with the address in the link layer. -/
inductive Carries : Option (List UInt8) → List UInt8 → List UInt8 → Prop
  | clear (key : Option (List UInt8)) (data : List UInt8) (link : Option ManufacturerId) (payload d : List UInt8) :
      Telegram data link payload → ClearData payload d → Carries key data d
  | long (key : List UInt8) (i0 i1 i2 i3 m0 m1 version device acc st c0 c1 : UInt8) (code : ManufacturerCode)
      (iv : List UInt8) (blocks : List (List UInt8)) (tail data : List UInt8) (link : Option ManufacturerId) :
      key.length = 16 → AllBcd [i0, i1, i2, i3] → ManufacturerCode.fromId (le16 m0 m1) = .ok code →
      CbcIv (c1.toNat % 32) m0 m1 [i0, i1, i2, i3] version device acc iv →
      (∀ b ∈ blocks, b.length = 16) → blocks ≠ [] → tail.length < 16 →
      Telegram data link ([0x72, i0, i1, i2, i3, m0, m1, version, device, acc, st, c0, c1] ++
        (cbcEncrypt Aes.encrypt key iv blocks ++ tail)) →
      Carries (some key) data (blocks.flatten ++ tail)
  | short (key : List UInt8) (ci acc st c0 c1 m0 m1 d0 d1 d2 d3 device : UInt8) (link : ManufacturerId)
      (iv : List UInt8) (blocks : List (List UInt8)) (tail data : List UInt8) :
      key.length = 16 → isShortCi ci → AllBcd [d0, d1, d2, d3] →
      ManufacturerCode.fromId (le16 m0 m1) = .ok link.manufacturerCode →
      link.identificationNumber = bcdValue [d0, d1, d2, d3] → link.deviceType = DeviceType.fromByte device →
      CbcIv (c1.toNat % 32) m0 m1 [d0, d1, d2, d3] link.version device acc iv →
      (∀ b ∈ blocks, b.length = 16) → blocks ≠ [] → tail.length < 16 →
      Telegram data (some link) ([ci, acc, st, c0, c1] ++ (cbcEncrypt Aes.encrypt key iv blocks ++ tail)) →
      Carries (some key) data (blocks.flatten ++ tail)

/-- How much of the data the records hold: all of them, apart from skipped filler bytes, and the state is `complete`; or
all before a remainder, and the state is `partial`. -/
def Accounted (d : List UInt8) (pieces : List (List UInt8)) (state : List Char) : Prop :=
  ∃ done rest, d = done ++ rest ∧ Tiles done pieces ∧
    (state = "complete".toList ∧ rest = [] ∨ state = "partial".toList ∧ rest ≠ [])

/-- Two texts of hexadecimal bytes, one after the other, spell the piece. -/
def SpellsPiece (header data : List Char) (piece : List UInt8) : Prop :=
  ∃ h d, piece = h ++ d ∧ Tokens header h ∧ Tokens data d

/-- The records of a JSON text hold the pieces. -/
def JsonPieces (pieces : List (List UInt8)) (state : List Char) (text : List Char) : Prop :=
  ∃ doc, (∀ doc', JsonText text doc' ↔ doc' = doc) ∧ follow [.key "decode_state"] doc = some (.str state) ∧
    (∀ i (h : i < pieces.length), ∃ header data,
      follow [.key "records", .at i, .key "header_hex"] doc = some (.str header) ∧
      follow [.key "records", .at i, .key "data_hex"] doc = some (.str data) ∧
      SpellsPiece header data pieces[i]) ∧
    ∀ i, pieces.length ≤ i → follow [.key "records", .at i] doc = none

/-- The records of a JSON text hold the data. -/
def JsonBytes (d : List UInt8) (text : List Char) : Prop :=
  ∃ pieces state, Accounted d pieces state ∧ JsonPieces pieces state text

/-- The columns of a CSV text hold the pieces. -/
def CsvPieces (pieces : List (List UInt8)) (state : List Char) (text : List Char) : Prop :=
  ∃ names values, (∀ rows, CsvFile text rows ↔ rows = [names, values]) ∧ names.Nodup ∧
    column (names, values) "decode_state".toList = some state ∧
    column (names, values) "record_count".toList = some (toString pieces.length).toList ∧
    ∀ i (h : i < pieces.length), ∃ header data,
      column (names, values) ("record_".toList ++ (toString i).toList ++ "_header_hex".toList) = some header ∧
      column (names, values) ("record_".toList ++ (toString i).toList ++ "_data_hex".toList) = some data ∧
      SpellsPiece header data pieces[i]

/-- The columns of a CSV text hold the data. -/
def CsvBytes (d : List UInt8) (text : List Char) : Prop :=
  ∃ pieces state, Accounted d pieces state ∧ CsvPieces pieces state text

end MBus.Spec
