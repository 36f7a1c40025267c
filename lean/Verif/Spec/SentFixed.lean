import Verif.Spec.SentStatus
import Verif.Spec.Units
import Verif.Spec.Xml
/-!
# Meters with the fixed data structure

The fixed data structure of EN 1434-3 and of older editions of EN 13757-3 (CI field 73): identification number, access
number, status, medium, and two counters with their units, written from the side of the meter, and what a reader expects
to see of it.
-/
namespace MBus.Spec

/-- What a meter with the fixed data structure sends.  The lowest two bits of the status say how the counters are coded
and whether they are the ones of the key date. -/
structure SentFixed where
  number : Nat
  access : UInt8
  status : SentStatus
  medium : Fin 16
  unit1 : Fin 64
  unit2 : Fin 64
  counter1 : Nat
  counter2 : Nat

/-- Bit 0 of the status: the counters are signed binary numbers, else BCD numbers. -/
def SentFixed.binary (m : SentFixed) : Bool := m.status.application.val % 2 = 1

/-- Bit 1 of the status: the counters were stored at the key date, else they are the actual ones. -/
def SentFixed.stored (m : SentFixed) : Bool := m.status.application.val / 2 = 1

/-- Eight digits each. -/
abbrev SentFixed.Valid (m : SentFixed) : Prop := m.number < 10 ^ 8 ∧ m.counter1 < 10 ^ 8 ∧ m.counter2 < 10 ^ 8

/-- A counter in four bytes. -/
def SentFixed.counterBytes (m : SentFixed) (v : Nat) : List UInt8 := if m.binary then encodeLe 4 v else encodeBcd 4 v

/-- The access number, the status, the units with two bits of the medium each. -/
def SentFixed.middle (m : SentFixed) : List UInt8 :=
  [m.access, m.status.byte, UInt8.ofNat (m.unit1.val + 64 * (m.medium.val % 4)),
    UInt8.ofNat (m.unit2.val + 64 * (m.medium.val / 4))]

/-- The sixteen bytes, every number with its low byte first. -/
def SentFixed.bytes (m : SentFixed) : List UInt8 :=
  encodeBcd 4 m.number ++ m.middle ++ m.counterBytes m.counter1 ++ m.counterBytes m.counter2

/-- The sixteen bytes, every number with its high byte first (CI field 77). -/
def SentFixed.reversedBytes (m : SentFixed) : List UInt8 :=
  (encodeBcd 4 m.number).reverse ++ m.middle ++ (m.counterBytes m.counter1).reverse ++ (m.counterBytes m.counter2).reverse

/-- The telegram is from the meter. -/
def FixedFrom (m : SentFixed) (data : List UInt8) : Prop := ∃ link rest, Telegram data link (0x73 :: m.bytes ++ rest)

/-- The coding of the counters, the key date, and the alarms and flags raised, in words. -/
def SentStatus.fixedWords (s : SentStatus) : List String :=
  (if s.application.val % 2 = 1 then ["Counter binary signed"] else []) ++
    (if s.application.val / 2 = 1 then ["Counter fixed date"] else []) ++ s.raised

/-- The text is JSON, and its one reading shows the identification number, the access number, and the status with its
words. -/
def JsonFixed (m : SentFixed) (text : List Char) : Prop :=
  ∃ d, (∀ d', JsonText text d' ↔ d' = d) ∧
    let identity := fun name => follow [.key "meter", .key "identity", .key name] d
    let found := fun steps => follow (.key "transport" :: steps) d
    identity "source" = some (.str "application.fixed".toList) ∧ identity "id" = some (.str (eightDigits m.number)) ∧
    identity "manufacturer_code" = none ∧ identity "version" = none ∧
    (found [.key "access_numbers", .at 0, .key "value"] = some (number m.access.toNat) ∧
      found [.key "access_numbers", .at 1] = none) ∧
    found [.key "statuses", .at 0, .key "raw"] = some (.str (hexDigits 2 m.status.byte.toNat)) ∧
    found [.key "statuses", .at 0, .key "display"] =
      some (.str (if m.status.fixedWords = [] then "No Error(s)".toList else commaSeparated m.status.fixedWords)) ∧
    found [.key "statuses", .at 1] = none

/-- The text is a CSV file of names and values which show them. -/
def CsvFixed (m : SentFixed) (text : List Char) : Prop :=
  ∃ names values, (∀ rows, CsvFile text rows ↔ rows = [names, values]) ∧ names.Nodup ∧ values.length = names.length ∧
    column (names, values) "meter_id".toList = some (eightDigits m.number) ∧
    column (names, values) "manufacturer_code".toList = some [] ∧
    column (names, values) "access_numbers".toList =
      some ("application.fixed:".toList ++ (toString m.access.toNat).toList) ∧
    column (names, values) "status_codes".toList = some (hexDigits 2 m.status.byte.toNat)

open MBus.Spec.Xml in
/-- The text is an XML report of the meter with its two counters. -/
def XmlFixed (m : SentFixed) (text : List Char) : Prop :=
  let function := leaf "Function".toList (if m.stored then "Stored value" else "Actual value").toList
  let unit := fun u : Fin 64 => leaf "Unit".toList (fixedUnits[u.val]?.getD "").toList
  IsReport text
    [leaf "Id".toList (decimal m.number), leaf "Medium".toList (fixedMedia[m.medium.val]?.getD "").toList,
      leaf "AccessNumber".toList (decimal m.access.toNat), leaf "Status".toList (hexDigits 2 m.status.byte.toNat)]
    [(0, [function, unit m.unit1, leaf "Value".toList (decimal m.counter1)]),
      (1, [function, unit m.unit2, leaf "Value".toList (decimal m.counter2)])]

end MBus.Spec
