import Verif
open MBus

def sub (t p : String) : Bool := (t.splitOn p).length > 1

def realText (b : UInt32) : List Char := (toString (Float32.ofBits b).toFloat).toList
def cw (c : Char) : Option Nat := if c.toNat < 32 then none else some 1
def env : FrontEnv := ⟨⟨realText, cw, fun t => t.length⟩, ⟨fun _ => ['0'], fun _ => []⟩, fun _ => none⟩
def older : OlderEnv := ⟨fun _ _ => [], fun _ _ => [], fun _ => "ERR".toList⟩
def aes := Spec.Aes.aes128
def WIRED := "68 3D 3D 68 08 01 72 00 51 20 02 82 4D 02 04 00 88 00 00 04 07 00 00 00 00 0C 15 03 00 00 00 0B 2E 00 00 00 0B 3B 00 00 00 0A 5A 88 12 0A 5E 16 05 0B 61 23 77 00 02 6C 8C 11 02 27 37 0D 0F 60 00 67 16"
def ENC := "2E44931578563412330333637A2A0020255923C95AAA26D1B2E7493BC2AD013EC4A6F6D3529B520EDFF0EA6DEFC955B29D6D69EBF3EC8A"
def UTF := "2E44931578563412330333637A2A00202557FB8016CA78E1243700B52E981E1918233AFE5E826DD0D4AD7854C697E7C8EB"
def KEY : List UInt8 := [1,2,3,4,5,6,7,8,9,10,11,12,13,14,15,0x11]
def expected := "FrameType,Function,Address,Identification Number,Manufacturer,Manufacturer Name,Access Number,Status,Security Mode,Version,Device Type,DataPoint1_Value,DataPoint1_Info,DataPoint2_Value,DataPoint2_Info,DataPoint3_Value,DataPoint3_Info,DataPoint4_Value,DataPoint4_Info,DataPoint5_Value,DataPoint5_Info,DataPoint6_Value,DataPoint6_Info,DataPoint7_Value,DataPoint7_Info,DataPoint8_Value,DataPoint8_Info,DataPoint9_Value,DataPoint9_Info,DataPoint10_Value,DataPoint10_Info\nLongFrame,\"RspUd (ACD: false, DFC: false)\",Primary (1),02205100,SLB,Schlumberger Industries,0,\"Permanent error, Manufacturer specific 3\",No encryption used,2,Heat Meter (Return),(0)e4[Wh](Energy),\"0,Inst,32-bit Integer\",(3)e-1[m³](Volume),\"0,Inst,BCD 8-digit\",(0)e3[W](Power),\"0,Inst,BCD 6-digit\",(0)e-3[m³h⁻¹](VolumeFlow),\"0,Inst,BCD 6-digit\",(1288)e-1[°C](FlowTemperature),\"0,Inst,BCD 4-digit\",(516)e-1[°C](ReturnTemperature),\"0,Inst,BCD 4-digit\",(7723)e-2[°K](TemperatureDifference),\"0,Inst,BCD 6-digit\",(12/Jan/12)(Date),\"0,Inst,Date Type G\",(3383)[day](OperatingTime),\"0,Inst,16-bit Integer\",\"(Manufacturer Specific: [96, 0])\",\"0,Inst,Special Functions (ManufacturerSpecific)\"\n"

def ser (cfg : Cfg) (i f : String) (k : Option (List UInt8)) : String :=
  match serializeMbusData cfg env older aes i.toList f.toList k with
  | .ok t => String.ofList t | .err _ => "<err>" | .panic => "<panic>"

def main : IO Unit := do
 for cfg in [(⟨true, true⟩ : Cfg), ⟨false, false⟩] do
  let ck (n : String) (b : Bool) : IO Unit := unless b do IO.println s!"FAIL {n}"
  ck "csv exact" (ser cfg WIRED "csv-wide" none == expected)
  let c := ser cfg ENC "csv-wide" none
  ck "wcsv" (sub c "\nWireless,SndNr,,12345678,ELS,Elster Group,42,No Error(s)," && sub c "AES-CBC-128; IV ≠ 0" && sub c ",51,Gas Meter" && !sub c "DataPoint1_Value")
  let c := ser cfg ENC "csv-wide" (some KEY)
  ck "wcsv key" (sub c "(2850427)e-2[m³](Volume)")
  let j := ser cfg WIRED "json" none
  for s in ["\"schema_version\": 3", "\"protocol\": \"wired\"", "RSP_UD (ACD: false, DFC: false)", "\"Volume flow\"", "\"6-digit BCD\"", "\"Manufacturer specific\"", "\"W\"", "\"m3.h-1\"", "0012-01-12", "00 00 00 00"] do
    ck s (sub j s)
  for w in [32, 71, 72, 99, 100, 120, 44] do
    match renderHex cfg env aes WIRED.toList .table ⟨⟨none, true⟩, some w⟩ with
    | .ok t =>
      ck s!"width {w}" (((String.ofList t).splitOn "\n").all fun l => l.length ≤ w)
    | _ => ck "table" false
  let c := ser cfg WIRED "csv" none
  let m := ser cfg WIRED "mermaid" none
  for s in ["subgraph FRAME_SG", "subgraph RECORDS_SG", "classDef frame", "classDef record0", "class R0 record0"] do ck s (sub m s)
  match parseToMermaid cfg realText WIRED.toList none with
  | .ok m => for s in ["flowchart TD\n", "Long Frame", "Device Info", "Data Records", "02205100", "SLB"] do ck s (sub (String.ofList m) s)
  | _ => ck "mermaid" false
  for f in ["table", "json", "csv"] do
    let o := ser cfg UTF f (some KEY)
    ck s!"utf8 {f}" (sub o "m³" && !sub o "mÂ³")
  let h := ser cfg "1444AE0C7856341201078C2027780B134365877AC5" "hexview-legacy" none
  ck "hexview78" (sub h "876543" && sub h "0x78" && !sub h "unknown" && !sub h "Unparseable")
  let h := ser cfg ENC "hexview" (some KEY)
  ck "hexview key" (sub h "2850427" && sub h "\"decrypted\": true")
