import Verif.Spec.Output
/-!
# Nested extended link layers
-/
namespace MBus.Spec

/-- The number of extended link layers of the short kind, three bytes each, with which a payload begins. -/
def layers : List UInt8 → Nat
  | ci :: _ :: _ :: inner => if ci = 0x8C then layers inner + 1 else 0
  | _ => 0

/-- The bytes that a telegram hands to the application layer: those of a wired telegram with user data or of a wireless one. -/
inductive HandsOver (data payload : List UInt8) : Prop
  | wired (fn : Function) (address : Address) : WiredTelegram data (.longFrame fn address payload) → HandsOver data payload
  | control (fn : Function) (address : Address) : WiredTelegram data (.controlFrame fn address payload) → HandsOver data payload
  | wireless (f : WirelessFrame) (frame : List UInt8) : frame = data ∨ Normalized data frame → WirelessTelegram frame f →
      f.data = payload → HandsOver data payload

end MBus.Spec
