import Verif.Model.Base
/-!
# Specification of the product names in the XML output

The devices whose name is known: by manufacturer, version, medium and, for some, the first two of the
eight digits of the identification number.
-/
namespace MBus.Spec

/-- A range of devices with one name. -/
structure Product where
  manufacturer : String
  versions : UInt8 × UInt8
  media : UInt8 × UInt8
  /-- What the identification number begins with. -/
  digits : Option (Nat × Nat)
  name : String
  deriving DecidableEq, Repr

/-- A version for any medium. -/
def ver (m : String) (v : UInt8) (n : String) : Product := ⟨m, (v, v), (0, 255), none, n⟩

/-- A range of versions for any medium. -/
def vers (m : String) (v w : UInt8) (n : String) : Product := ⟨m, (v, w), (0, 255), none, n⟩

/-- A range of versions for one medium. -/
def med (m : String) (d v w : UInt8) (n : String) : Product := ⟨m, (v, w), (d, d), none, n⟩

/-- Identification numbers that begin with two digits. -/
def ids (m : String) (a b : Nat) (n : String) : Product := ⟨m, (0, 255), (0, 255), some (a, b), n⟩

/-- The known devices. -/
def products : List Product := [
  ver "ABB" 0x02 "ABB Delta-Meter",
  ver "ABB" 0x20 "ABB B21 113-100",
  ver "ACW" 0x09 "Itron CF Echo 2",
  ver "ACW" 0x0A "Itron CF 51",
  ver "ACW" 0x0B "Itron CF 55",
  ver "ACW" 0x0E "Itron BM +m",
  ver "ACW" 0x0F "Itron CF 800",
  ver "ACW" 0x14 "Itron CYBLE M-Bus 1.4",
  vers "AMT" 0x00 0x3F "Aquametro AMTRON",
  vers "AMT" 0x40 0x7F "Aquametro SAPHIR",
  vers "AMT" 0x80 0xBF "Aquametro CALEC MB",
  vers "AMT" 0xC0 0xFF "Aquametro CALEC ST",
  med "BEC" 0x02 0x00 0x00 "Berg DCMi",
  med "BEC" 0x02 0x07 0x07 "Berg BLMi",
  med "BEC" 0x0F 0x71 0x71 "Berg BMB-10S0",
  med "EFE" 0x06 0x00 0x00 "Engelmann WaterStar",
  ⟨"EFE", (0x00, 0x00), (0x00, 0x05), none, "Engelmann / Elster SensoStar 2"⟩,
  ⟨"EFE", (0x00, 0x00), (0x07, 0xFF), none, "Engelmann / Elster SensoStar 2"⟩,
  ver "EFE" 0x01 "Engelmann SensoStar 2C",
  ver "ELS" 0x02 "Elster TMP-A",
  ver "ELS" 0x0A "Elster Falcon",
  ver "ELS" 0x2F "Elster F96 Plus",
  vers "ELV" 0x14 0x1D "Elvaco CMa10",
  vers "ELV" 0x32 0x3B "Elvaco CMa11",
  ver "EMH" 0x00 "EMH DIZ",
  med "EMU" 0x02 0x10 0x10 "EMU Professional 3/75 M-Bus",
  med "GAV" 0x02 0x2D 0x30 "Carlo Gavazzi EM24",
  med "GAV" 0x02 0x39 0x39 "Carlo Gavazzi EM21",
  med "GAV" 0x02 0x3A 0x3A "Carlo Gavazzi EM21",
  med "GAV" 0x02 0x40 0x40 "Carlo Gavazzi EM33",
  ver "GMC" 0xE6 "GMC-I A230 EMMOD 206",
  ver "KAM" 0x01 "Kamstrup 382 (6850-005)",
  ver "KAM" 0x08 "Kamstrup Multical 601",
  ver "SLB" 0x02 "Allmess Megacontrol CF-50",
  ver "SLB" 0x06 "CF Compact / Integral MK MaXX",
  ver "HYD" 0x28 "ABB F95 Typ US770",
  ver "HYD" 0x2F "Hydrometer Sharky 775",
  med "JAN" 0x02 0x09 0x09 "Janitza UMG 96S",
  ver "LUG" 0x02 "Landis & Gyr Ultraheat 2WR5",
  ver "LUG" 0x03 "Landis & Gyr Ultraheat 2WR6",
  ver "LUG" 0x04 "Landis & Gyr Ultraheat UH50",
  ver "LUG" 0x07 "Landis & Gyr Ultraheat T230",
  ver "LSE" 0x99 "Siemens WFH21",
  ver "NZR" 0x01 "NZR DHZ 5/63",
  ver "NZR" 0x50 "NZR IC-M2",
  ver "RAM" 0x03 "Rossweiner ETK/ETW Modularis",
  ver "REL" 0x08 "Relay PadPuls M1",
  ver "REL" 0x12 "Relay PadPuls M4",
  ver "REL" 0x20 "Relay Padin 4",
  ver "REL" 0x30 "Relay AnDi 4",
  ver "REL" 0x40 "Relay PadPuls M2",
  ver "RKE" 0x69 "Ista sensonic II mbus",
  ids "SBC" 1 0 "Saia-Burgess ALE3",
  ids "SBC" 1 9 "Saia-Burgess ALE3",
  ids "SBC" 1 1 "Saia-Burgess AWD3",
  ids "SEO" 3 0 "Sensoco PT100",
  ids "SEO" 4 1 "Sensoco 2-NTC",
  ids "SEO" 4 5 "Sensoco Laser Light",
  ids "SEO" 4 8 "Sensoco ADIO",
  ids "SEO" 5 1 "Sensoco THU",
  ids "SEO" 6 1 "Sensoco THU",
  ids "SEO" 8 0 "Sensoco PulseCounter for E-Meter",
  ids "GTE" 3 0 "Sensoco PT100",
  ids "GTE" 4 1 "Sensoco 2-NTC",
  ids "GTE" 4 5 "Sensoco Laser Light",
  ids "GTE" 4 8 "Sensoco ADIO",
  ids "GTE" 5 1 "Sensoco THU",
  ids "GTE" 6 1 "Sensoco THU",
  ids "GTE" 8 0 "Sensoco PulseCounter for E-Meter",
  ver "SEN" 0x08 "Sensus PolluCom E",
  ver "SEN" 0x19 "Sensus PolluCom E",
  ver "SEN" 0x0B "Sensus PolluTherm",
  ver "SEN" 0x0E "Sensus PolluStat E",
  ver "SON" 0x0D "Sontex Supercal 531",
  ver "SPX" 0x31 "Sensus PolluTherm",
  ver "SPX" 0x34 "Sensus PolluTherm",
  ver "SVM" 0x08 "Elster F2 / Deltamess F2",
  ver "SVM" 0x09 "Elster F4 / Kamstrup SVM F22",
  ver "TCH" 0x26 "Techem m-bus S",
  ver "TCH" 0x40 "Techem ultra S3",
  ver "WZG" 0x03 "Modularis ETW-EAX",
  ver "ZRM" 0x81 "Minol Minocal C2",
  ver "ZRM" 0x82 "Minol Minocal WR3"]

/-- The two leading digits of an identification number of eight digits. -/
def leadingDigits (id : Nat) : Nat × Nat := (id / 10000000 % 10, id / 1000000 % 10)

/-- The device is one of these. -/
def Product.covers (p : Product) (manufacturer : List Char) (version medium : UInt8) (id : Nat) : Prop :=
  p.manufacturer.toList = manufacturer ∧ (p.versions.1 ≤ version ∧ version ≤ p.versions.2) ∧
    (p.media.1 ≤ medium ∧ medium ≤ p.media.2) ∧ ∀ d ∈ p.digits, d = leadingDigits id

instance (p : Product) (m : List Char) (v d : UInt8) (id : Nat) : Decidable (p.covers m v d id) := by
  unfold Product.covers; infer_instance

/-- The name of the device, empty if it is not known. -/
def productText (manufacturer : List Char) (version medium : UInt8) (id : Nat) : List Char :=
  (((products.find? fun p => p.covers manufacturer version medium id).map (·.name)).getD "").toList

end MBus.Spec
