import Verif.Props.SealedData
import Verif.Props.SentJson
import Verif.Props.SentCsv
import Verif.Props.SentTable
import Verif.Props.SentDiagram
/-!
# C133, C134, C141 and C142 for every telegram that carries the readings

Encrypted under a long or a short header, also below extended link layers, or in the clear.
-/
namespace MBus
open MBus.Spec

/-- C133 for every telegram that carries the readings. -/
theorem C133_carried_partial (cfg : Cfg) (env : CliEnv) (text keyText : List Char) (key : List UInt8)
    (hkey : KeyText keyText key) (data d : List UInt8) (hx : Spelled text data) (hd : CarriesData key data d)
    (readings : List MeterReading) (hm : Message 7 readings d) (hr : ∀ r ∈ readings, Readable r) (enrich : Bool)
    (henv : ∀ bits, FiniteReal bits → NumberText (env.front.text.realText bits)) :
    ReadEverywhere cfg env Aes.aes128 text (some keyText) enrich readings :=
  read_everywhere cfg env _ text data _ (some key) enrich readings henv hx (.key keyText key hkey)
    (C123_carried_partial cfg key data d hkey.1 readings hd hm hr enrich)

/-- C134 for every telegram that carries the readings. -/
theorem C134_carried_partial (cfg : Cfg) (env : CliEnv) (text keyText : List Char) (key : List UInt8)
    (hkey : KeyText keyText key) (data d : List UInt8) (hx : Spelled text data) (hd : CarriesData key data d)
    (readings : List MeterReading) (hm : Message 7 readings d) (hr : ∀ r ∈ readings, Readable r) (enrich : Bool) :
    AnsweredWell cfg env Aes.aes128 text (some keyText) enrich "csv" (CsvReadings env.front.text.realText readings) :=
  csv_everywhere cfg env _ text data _ (some key) enrich readings hx (.key keyText key hkey)
    (C123_carried_partial cfg key data d hkey.1 readings hd hm hr enrich)

/-- C141 for every telegram that carries the readings. -/
theorem C141_carried_partial (cfg : Cfg) (env : CliEnv) (hs : SaneWidths env.front.text) (text keyText : List Char) (key : List UInt8)
    (hkey : KeyText keyText key) (data d : List UInt8) (hx : Spelled text data) (hd : CarriesData key data d)
    (readings : List MeterReading) (hm : Message 7 readings d) (hr : ∀ r ∈ readings, Readable r) (enrich : Bool) :
    TableAnswered cfg env Aes.aes128 text (some keyText) enrich
      (fun width => TableReadings (charW env.front.text) env.front.text.realText width readings) :=
  table_everywhere cfg env hs _ text data _ (some key) enrich readings hx (.key keyText key hkey)
    (C123_carried_partial cfg key data d hkey.1 readings hd hm hr enrich)

/-- C142 for every telegram that carries the readings. -/
theorem C142_carried_partial (cfg : Cfg) (env : CliEnv) (text keyText : List Char) (key : List UInt8)
    (hkey : KeyText keyText key) (data d : List UInt8) (hx : Spelled text data) (hd : CarriesData key data d)
    (readings : List MeterReading) (hm : Message 7 readings d) (hr : ∀ r ∈ readings, Readable r) (enrich : Bool) :
    AnsweredWell cfg env Aes.aes128 text (some keyText) enrich "mermaid"
      (DiagramReadings env.front.text.realText readings) :=
  diagram_everywhere cfg env _ text data _ (some key) enrich readings hx (.key keyText key hkey)
    (C123_carried_partial cfg key data d hkey.1 readings hd hm hr enrich)

/-- The readings in an encrypted wireless telegram with an extended link layer. -/
def ellReadings : List UInt8 :=
  wirelessFrame ([0x8C, 0x20, 0x2B, 0x7A, 0x2A, 0, 0x20, 0x05] ++
    (cbcEncrypt Aes.encrypt exampleKey (headerIv 0xE6 0x1E [0x78, 0x56, 0x34, 0x12] 0x3C 0x07 0x2A)
      [sentData.take 16, (sentData.drop 16).take 16] ++ sentData.drop 32))

set_option maxRecDepth 20000 in
theorem ell_carries : CarriesData exampleKey ellReadings sentData := by
  have h := SealedData.short (key := exampleKey) (data := ellReadings) [0x8C, 0x20, 0x2B, 0x7A, 0x2A, 0, 0x20, 0x05] 0x2A 0 0x20 0x05
    0xE6 0x1E 0x78 0x56 0x34 0x12 0x07 ⟨⟨71, 87, 70⟩, 12345678, .waterMeter, 0x3C, false⟩ _
    [sentData.take 16, (sentData.drop 16).take 16] (sentData.drop 32)
    (.ellI 0x20 0x2B _ (.short 0x7A (.inl rfl))) (by decide +kernel) (by decide +kernel) (by decide +kernel)
    (by decide +kernel) (.address rfl) (by decide) (by simp) (by decide) (isWireless_telegram _ _ _ (by decide +kernel))
  exact .sealed (by simpa [sentData] using h)

set_option maxRecDepth 20000 in
example (cfg : Cfg) (front : FrontEnv) :
    AnsweredWell cfg (oneFile front "t.hex".toList []) Aes.aes128 (hexString ellReadings)
      (some "0102030405060708090a0B0c0D0E0F11".toList) true "csv" (CsvReadings front.text.realText sentReadings) :=
  C134_carried_partial cfg _ _ _ exampleKey (((C115_cli_key _).1 _).1 (by decide +kernel)) ellReadings sentData
    ((decode_iff _ _).1 (by decide +kernel)) ell_carries sentReadings sent_example (by decide +kernel) true

end MBus
