import Verif.Spec.OlderPart
import Verif.Props.LegacyRecord
/-!
# C104: the words for the parts of dates and times
-/
namespace MBus
open MBus.Spec

theorem month_short (m : Month) : m.display = monthShort m := by cases m <;> decide +kernel

theorem bytePart_eq (p : SEI UInt8) : p.display byteText = bytePart p := by
  cases p <;> simp [SEI.display, bytePart, partText, byteText, natText_eq]

theorem monthPart_eq (p : SEI Month) : p.display Month.display = partText monthShort p := by
  cases p <;> simp [SEI.display, partText, month_short]

theorem yearPart_eq (p : SEI UInt16) : p.display (fun y => natText y.toNat) = partText (fun y => decimal y.toNat) p := by
  cases p <;> simp [SEI.display, partText, natText_eq]

theorem dateWords_eq (d : SEI UInt8) (m : SEI Month) (y : SEI UInt16) : dateText d m y = dateWords d m y := by
  simp [dateText, dateWords, bytePart_eq, monthPart_eq, yearPart_eq]

theorem numbers_eq (bytes : List UInt8) : ", ".toList.intercalate (bytes.map byteText) = numbersText bytes := by
  induction bytes with
  | nil => rfl
  | cons b bytes ih =>
    cases bytes with
    | nil => simp [numbersText, byteText, natText_eq]
    | cons c bytes =>
      rw [numbersText, ← ih]
      · simp [List.intercalate, List.intersperse, byteText, natText_eq]
      · simp

/-- C104: dates, times, points of time and manufacturer blocks are written part by part; parts left open are `Every`, parts
without meaning `Invalid`.  A record without a value says so. -/
theorem C104_parts (rt : UInt32 → List Char) (d : Data) :
    (∀ v text, d.value = some v → olderValue v = some text → d.display rt = text) ∧
    (d.value = none → d.display rt = "No Data".toList) := by
  refine ⟨?_, ?_⟩
  · intro v text hv ht
    unfold Data.display
    rw [hv]
    have h1 : "Manufacturer Specific: [".toList = "Manufacturer Specific: ".toList ++ ['['] := by decide +kernel
    cases v with
    | date a b c => cases ht; exact (display_date ..).trans (dateWords_eq a b c)
    | dateTime a b c e f =>
      cases ht
      refine (display_dateTime ..).trans ?_
      rw [dateWords_eq, bytePart_eq, bytePart_eq]
      simp only [List.append_assoc, List.cons_append, List.nil_append]
    | dateTimeWithSeconds a b c e f g =>
      cases ht
      refine (display_seconds ..).trans ?_
      rw [dateWords_eq, bytePart_eq, bytePart_eq, bytePart_eq]
      simp only [List.append_assoc, List.cons_append, List.nil_append]
    | time a b c =>
      cases ht
      refine (display_time ..).trans ?_
      rw [bytePart_eq, bytePart_eq, bytePart_eq]
      simp only [List.append_assoc, List.cons_append, List.nil_append]
    | manufacturerSpecific bytes =>
      cases ht
      refine (display_specific ..).trans ?_
      rw [bytesDebug, numbers_eq, h1]
      simp only [List.append_assoc, List.cons_append, List.nil_append]
    | _ => cases ht
  · intro hv
    unfold Data.display
    rw [hv]

/-- The first day of every month, at an hour that is not valid. -/
example : olderValue (.dateTime (.single 1) .every .every .invalid (.single 0)) =
    some "1/Every/Every Invalid:0:00".toList := by decide +kernel

end MBus
