import Verif.Model.UserData
import Verif.Model.Wired
import Verif.Model.Wireless
/-!
# Model of `MbusData`, `src/mbus_data.rs:1-121`
-/
namespace MBus

/-- `MbusData`, src/mbus_data.rs:16-24. -/
structure MbusData (F : Type) where
  frame : F
  userData : Option UserDataBlock
  dataRecords : Option DataRecords
  applicationError : Option AppError
  deriving DecidableEq, Repr

/-- The records `MbusData::try_from` attaches to a user data block, src/mbus_data.rs:38-54 (wired) and
87-107 (wireless): `variable_data_block.into()` is `DataRecords::new(data, None)`,
variable_user_data.rs:51-55. -/
def UserDataBlock.attachedRecords : UserDataBlock → Option DataRecords
  | .long _ _ block => some (DataRecords.new block false)
  | .short _ _ block => some (DataRecords.new block false)
  | .noTpl _ block => some (DataRecords.new block false)
  | _ => none

/-- The match on the result of `UserDataBlock::try_from`, src/mbus_data.rs:36-60 and 85-111. -/
def MbusData.ofPayload {ε F : Type} (frame : F) (payload : List UInt8) : Res ε (MbusData F) :=
  match UserDataBlock.tryFrom payload with
  | .ok x => .ok ⟨frame, some x, x.attachedRecords, none⟩
  | .err e => .ok ⟨frame, none, none, some e⟩
  | .panic => .panic

/-- `MbusData::<WiredFrame>::try_from`, src/mbus_data.rs:26-72.  The wrapping of the frame error into
`MbusError::FrameError` is left out. -/
def MbusData.tryFromWired (cfg : Cfg) (data : List UInt8) : Res FrameError (MbusData WiredFrame) := do
  let frame ← WiredFrame.tryFrom cfg data
  match frame with
  | .longFrame _ _ payload => MbusData.ofPayload frame payload
  | _ => .ok ⟨frame, none, none, none⟩

/-- `MbusData::<WirelessFrame>::try_from`, src/mbus_data.rs:74-121.  The wrapping of the frame error
into `MbusError::WirelessFrameError` is left out. -/
def MbusData.tryFromWireless (data : List UInt8) :
    Res WirelessFrameError (MbusData WirelessFrame) := do
  let frame ← WirelessFrame.tryFrom data
  MbusData.ofPayload frame frame.data

end MBus
