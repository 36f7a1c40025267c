import Verif.Model.Base
/-!
# Model of the product names of `src/rscada_xml.rs`
-/
namespace MBus.Xml

/-- `product_name`, src/rscada_xml.rs:951-1127, the name for a manufacturer with the two most significant
digits of the identification as one byte. -/
def productNameOf (manufacturer : List Char) (version medium idMsb : UInt8) : String :=
  if manufacturer = "ABB".toList then
    if version == 0x02 then "ABB Delta-Meter"
    else if version == 0x20 then "ABB B21 113-100"
    else ""
  else if manufacturer = "ACW".toList then
    if version == 0x09 then "Itron CF Echo 2"
    else if version == 0x0A then "Itron CF 51"
    else if version == 0x0B then "Itron CF 55"
    else if version == 0x0E then "Itron BM +m"
    else if version == 0x0F then "Itron CF 800"
    else if version == 0x14 then "Itron CYBLE M-Bus 1.4"
    else ""
  else if manufacturer = "AMT".toList then
    if version ≥ 0xC0 then "Aquametro CALEC ST"
    else if version ≥ 0x80 then "Aquametro CALEC MB"
    else if version ≥ 0x40 then "Aquametro SAPHIR"
    else "Aquametro AMTRON"
  else if manufacturer = "BEC".toList then
    if medium == 0x02 && version == 0x00 then "Berg DCMi"
    else if medium == 0x02 && version == 0x07 then "Berg BLMi"
    else if medium == 0x0F && version == 0x71 then "Berg BMB-10S0"
    else ""
  else if manufacturer = "EFE".toList then
    if version == 0x00 && medium == 0x06 then "Engelmann WaterStar"
    else if version == 0x00 then "Engelmann / Elster SensoStar 2"
    else if version == 0x01 then "Engelmann SensoStar 2C"
    else ""
  else if manufacturer = "ELS".toList then
    if version == 0x02 then "Elster TMP-A"
    else if version == 0x0A then "Elster Falcon"
    else if version == 0x2F then "Elster F96 Plus"
    else ""
  else if manufacturer = "ELV".toList then
    if 0x14 ≤ version && version ≤ 0x1D then "Elvaco CMa10"
    else if 0x32 ≤ version && version ≤ 0x3B then "Elvaco CMa11"
    else ""
  else if manufacturer = "EMH".toList then
    if version == 0x00 then "EMH DIZ"
    else ""
  else if manufacturer = "EMU".toList then
    if medium == 0x02 && version == 0x10 then "EMU Professional 3/75 M-Bus"
    else ""
  else if manufacturer = "GAV".toList then
    if medium == 0x02 && 0x2D ≤ version && version ≤ 0x30 then "Carlo Gavazzi EM24"
    else if medium == 0x02 && (version == 0x39 || version == 0x3A) then "Carlo Gavazzi EM21"
    else if medium == 0x02 && version == 0x40 then "Carlo Gavazzi EM33"
    else ""
  else if manufacturer = "GMC".toList then
    if version == 0xE6 then "GMC-I A230 EMMOD 206"
    else ""
  else if manufacturer = "KAM".toList then
    if version == 0x01 then "Kamstrup 382 (6850-005)"
    else if version == 0x08 then "Kamstrup Multical 601"
    else ""
  else if manufacturer = "SLB".toList then
    if version == 0x02 then "Allmess Megacontrol CF-50"
    else if version == 0x06 then "CF Compact / Integral MK MaXX"
    else ""
  else if manufacturer = "HYD".toList then
    if version == 0x28 then "ABB F95 Typ US770"
    else if version == 0x2F then "Hydrometer Sharky 775"
    else ""
  else if manufacturer = "JAN".toList then
    if medium == 0x02 && version == 0x09 then "Janitza UMG 96S"
    else ""
  else if manufacturer = "LUG".toList then
    if version == 0x02 then "Landis & Gyr Ultraheat 2WR5"
    else if version == 0x03 then "Landis & Gyr Ultraheat 2WR6"
    else if version == 0x04 then "Landis & Gyr Ultraheat UH50"
    else if version == 0x07 then "Landis & Gyr Ultraheat T230"
    else ""
  else if manufacturer = "LSE".toList then
    if version == 0x99 then "Siemens WFH21"
    else ""
  else if manufacturer = "NZR".toList then
    if version == 0x01 then "NZR DHZ 5/63"
    else if version == 0x50 then "NZR IC-M2"
    else ""
  else if manufacturer = "RAM".toList then
    if version == 0x03 then "Rossweiner ETK/ETW Modularis"
    else ""
  else if manufacturer = "REL".toList then
    if version == 0x08 then "Relay PadPuls M1"
    else if version == 0x12 then "Relay PadPuls M4"
    else if version == 0x20 then "Relay Padin 4"
    else if version == 0x30 then "Relay AnDi 4"
    else if version == 0x40 then "Relay PadPuls M2"
    else ""
  else if manufacturer = "RKE".toList then
    if version == 0x69 then "Ista sensonic II mbus"
    else ""
  else if manufacturer = "SBC".toList then
    if (idMsb == 0x10 || idMsb == 0x19) then "Saia-Burgess ALE3"
    else if idMsb == 0x11 then "Saia-Burgess AWD3"
    else ""
  else if manufacturer = "SEO".toList ∨ manufacturer = "GTE".toList then
    if idMsb == 0x30 then "Sensoco PT100"
    else if idMsb == 0x41 then "Sensoco 2-NTC"
    else if idMsb == 0x45 then "Sensoco Laser Light"
    else if idMsb == 0x48 then "Sensoco ADIO"
    else if (idMsb == 0x51 || idMsb == 0x61) then "Sensoco THU"
    else if idMsb == 0x80 then "Sensoco PulseCounter for E-Meter"
    else ""
  else if manufacturer = "SEN".toList then
    if (version == 0x08 || version == 0x19) then "Sensus PolluCom E"
    else if version == 0x0B then "Sensus PolluTherm"
    else if version == 0x0E then "Sensus PolluStat E"
    else ""
  else if manufacturer = "SON".toList then
    if version == 0x0D then "Sontex Supercal 531"
    else ""
  else if manufacturer = "SPX".toList then
    if (version == 0x31 || version == 0x34) then "Sensus PolluTherm"
    else ""
  else if manufacturer = "SVM".toList then
    if version == 0x08 then "Elster F2 / Deltamess F2"
    else if version == 0x09 then "Elster F4 / Kamstrup SVM F22"
    else ""
  else if manufacturer = "TCH".toList then
    if version == 0x26 then "Techem m-bus S"
    else if version == 0x40 then "Techem ultra S3"
    else ""
  else if manufacturer = "WZG".toList then
    if version == 0x03 then "Modularis ETW-EAX"
    else ""
  else if manufacturer = "ZRM".toList then
    if version == 0x81 then "Minol Minocal C2"
    else if version == 0x82 then "Minol Minocal WR3"
    else ""
  else ""

/-- `product_name`, src/rscada_xml.rs:951-1127. -/
def productName (manufacturer : List Char) (version medium : UInt8) (id : Nat) : List Char :=
  (productNameOf manufacturer version medium
    (UInt8.ofNat ((id / 10000000 % 10) * 16 + id / 1000000 % 10))).toList

end MBus.Xml
