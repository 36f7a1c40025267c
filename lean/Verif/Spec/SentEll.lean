import Verif.Spec.SentSecurity
/-!
# The extended link layer

The extended link layer of EN 13757-4 (types I to IV, CI fields 8C to 8F), written from the side of the sender, and what a
reader expects to see of it.
-/
namespace MBus.Spec

/-- A number with two bytes, low byte first. -/
def lowFirst (n : Fin 65536) : List UInt8 := [UInt8.ofNat (n.val % 256), UInt8.ofNat (n.val / 256)]

/-- The receiver of a telegram: the manufacturer and the six bytes of its address. -/
structure EllReceiver where
  maker : Fin 65536
  address : List UInt8
  six : address.length = 6

/-- The session of encrypted data: the four bytes of its number and the CRC of the payload. -/
structure EllSession where
  number : List UInt8
  crc : Fin 65536
  four : number.length = 4

/-- What a sender puts into the extended link layer: the communication control field, the access number, and for some types
the receiver or the session. -/
structure SentEll where
  control : UInt8
  access : UInt8
  receiver : Option EllReceiver
  session : Option EllSession

/-- The extended link layer in bytes: types I (neither), II (a session), III (a receiver) and IV (both). -/
def SentEll.bytes (e : SentEll) : List UInt8 :=
  (match e.receiver, e.session with
    | none, none => 0x8C
    | none, some _ => 0x8D
    | some _, none => 0x8E
    | some _, some _ => 0x8F) ::
  [e.control, e.access] ++ (match e.receiver with | some r => lowFirst r.maker ++ r.address | none => []) ++
    (match e.session with | some s => s.number ++ lowFirst s.crc | none => [])

/-- What follows an extended link layer of type I: data without a transport header, or with a short one. -/
inductive ReadableAfterEll : List UInt8 → Prop
  | noTpl (block : List UInt8) : ReadableAfterEll (0x78 :: block)
  | short (ci acc st c0 c1 : UInt8) (block : List UInt8) : isShortCi ci → ReadableAfterEll ([ci, acc, st, c0, c1] ++ block)

/-- The telegram has the extended link layer, with `inner` behind it. -/
def HasEll (e : SentEll) (inner data : List UInt8) : Prop := ∃ link, Telegram data link (e.bytes ++ inner)

/-- The text is JSON, and its one reading shows all parts of the extended link layer, and no parts it does not have. -/
def JsonEll (e : SentEll) (text : List Char) : Prop :=
  ∃ d, (∀ d', JsonText text d' ↔ d' = d) ∧
    let found := fun name => follow [.key "transport", .key "ell", .key name] d
    found "communication_control" = some (.str (hexDigits 2 e.control.toNat)) ∧
    found "access_number" = some (number e.access.toNat) ∧
    found "receiver_manufacturer" = e.receiver.map (fun r => .str (hexDigits 4 r.maker.val)) ∧
    HexOf (e.receiver.map (·.address)) (found "receiver_address") ∧
    HexOf (e.session.map (·.number)) (found "session_number") ∧
    found "payload_crc" = e.session.map (fun s => .str (hexDigits 4 s.crc.val))

end MBus.Spec
