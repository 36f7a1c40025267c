import Verif.Spec.SentStatus
import Verif.Spec.SentXml
/-!
# What a meter says about itself, in the XML report (C148)
-/
namespace MBus.Spec
open MBus.Spec.Xml

/-- The media of EN 13757-3 by their codes, as the report names them. -/
def reportMedia : List (Nat × String) :=
  [(0x00, "Other"), (0x01, "Oil"), (0x02, "Electricity"), (0x03, "Gas"), (0x04, "Heat: Outlet"), (0x05, "Steam"),
   (0x06, "Warm water (30-90°C)"), (0x07, "Water"), (0x08, "Heat Cost Allocator"), (0x09, "Compressed Air"),
   (0x0A, "Cooling load meter: Outlet"), (0x0B, "Cooling load meter: Inlet"), (0x0C, "Heat: Inlet"),
   (0x0D, "Heat / Cooling load meter"), (0x0E, "Bus/System"), (0x0F, "Unknown Medium"), (0x10, "Irrigation Water"),
   (0x11, "Water Logger"), (0x12, "Gas Logger"), (0x13, "Gas Converter"), (0x14, "Calorific value"),
   (0x15, "Hot water (>90°C)"), (0x16, "Cold water"), (0x17, "Dual water"), (0x18, "Pressure"), (0x19, "A/D Converter"),
   (0x1A, "Smoke Detector"), (0x1B, "Ambient Sensor"), (0x1C, "Gas Detector"), (0x20, "Breaker: Electricity"),
   (0x21, "Valve: Gas or Water"), (0x25, "Customer Unit: Display Device"), (0x28, "Waste Water"), (0x29, "Garbage"),
   (0x30, "Service Unit"), (0x36, "Radio Converter: System"), (0x37, "Radio Converter: Meter")]

/-- The text names the medium; codes without a name are reserved or unknown. -/
def MediumShown (code : UInt8) (text : List Char) : Prop :=
  match reportMedia.lookup code.toNat with
  | some name => text = name.toList
  | none => text = "Reserved".toList ∨
      text = "Unknown medium (0x".toList ++ (hexDigits 2 code.toNat).map Char.toLower ++ [')']

/-- The access number, the status and the configuration of a header. -/
def headerElements (h : SentHeader) : List Node :=
  [leaf "AccessNumber".toList (decimal h.access.toNat), leaf "Status".toList (hexDigits 2 h.status.byte.toNat),
   leaf "Signature".toList (hexDigits 4 h.configuration.val)]

/-- What a payload without the address of the meter says about it: a short transport header, nothing, or the access number
in an extended link layer of type I or II. -/
inductive SaysBehind : List Node → List UInt8 → Prop
  | header (h : SentHeader) (payload : List UInt8) : HeaderAt h "tpl.short" payload → SaysBehind (headerElements h) payload
  | nothing (block : List UInt8) : SaysBehind [] (0x78 :: block)
  | access (cc acc : UInt8) (block : List UInt8) :
      SaysBehind [leaf "AccessNumber".toList (decimal acc.toNat)] ([0x8C, cc, acc, 0x78] ++ block)
  | session (cc acc s0 s1 s2 s3 r0 r1 : UInt8) (block : List UInt8) :
      SaysBehind [leaf "AccessNumber".toList (decimal acc.toNat)] ([0x8D, cc, acc, s0, s1, s2, s3, r0, r1] ++ block)

/-- `ReportedBy m facts data`: the telegram is from the meter and says `facts` about it, in a long transport header or, with
the address in the link layer of a wireless frame, behind it.  With CI fields A0 to AF the device type is coded in another
way (C13). -/
inductive ReportedBy (m : SentMeter) : List Node → List UInt8 → Prop
  | long (h : SentHeader) (data : List UInt8) (link : Option ManufacturerId) (block : List UInt8) :
      Telegram data link (0x72 :: headerAddress m ++ h.bytes ++ block) → ReportedBy m (headerElements h) data
  | link (facts : List Node) (data : List UInt8) (l c ci : UInt8) (rest : List UInt8) (f : WirelessFrame) :
      (∀ g, ¬ WiredTelegram data g) → Normalized data (l :: c :: linkAddress m ++ ci :: rest) →
      WirelessTelegram (l :: c :: linkAddress m ++ ci :: rest) f → ci.toNat / 16 ≠ 10 → SaysBehind facts f.data →
      ReportedBy m facts data

/-- The text is a report about the meter with these facts: first its identification number, manufacturer, version, product
and medium, then the facts, and nothing else, with the records. -/
def XmlMeter (m : SentMeter) (facts : List Node) (records : List (Nat × List Node)) (text : List Char) : Prop :=
  ∃ medium, MediumShown m.device medium ∧
    IsReport text
      ([leaf "Id".toList (decimal m.number), leaf "Manufacturer".toList (threeLetters m),
        leaf "Version".toList (decimal m.version.toNat),
        leaf "ProductName".toList (productText (threeLetters m) m.version m.device m.number),
        leaf "Medium".toList medium] ++ facts) records

end MBus.Spec
