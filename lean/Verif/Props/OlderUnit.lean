import Verif.Spec.OlderUnit
import Verif.Props.Legacy
import Verif.Props.Ucum
import Verif.Model.LegacyDiagram
/-!
# C166: units and quantities in the older outputs
-/
namespace MBus
open MBus.Spec

theorem symbol_word (n : UnitName) : n.display = olderSymbol n := by cases n <;> rfl

theorem exponent_small (e : Int) (h : e.natAbs ≤ 19) (h1 : e ≠ 1) (n : UnitName) :
    MUnit.display ⟨n, e⟩ = (olderSymbol n).toList ++ (decimalInt e).map superscript := by
  unfold MUnit.display
  simp only [symbol_word]
  have hb : -19 ≤ e ∧ e ≤ 19 := by omega
  obtain ⟨k, hk⟩ : ∃ k : Nat, k ≤ 38 ∧ e = (k : Int) - 19 := ⟨(e + 19).toNat, by omega, by omega⟩
  obtain ⟨hk, rfl⟩ := hk
  rw [if_neg h1]
  have key : ∀ k : Nat, k < 39 → (k : Int) - 19 ≠ 1 → ∀ p : List Char,
      (if 0 ≤ (k : Int) - 19 ∧ (k : Int) - 19 ≤ 9 then [superscripts[((k : Int) - 19).toNat]?.getD '⁻']
        else if 10 ≤ (k : Int) - 19 ∧ (k : Int) - 19 ≤ 19 then
          [superscripts[1]?.getD '⁻', superscripts[((k : Int) - 19).toNat - 10]?.getD '⁻']
        else if -9 ≤ (k : Int) - 19 ∧ (k : Int) - 19 < 0 then ['⁻', superscripts[(-((k : Int) - 19)).toNat]?.getD '⁻']
        else if -19 ≤ (k : Int) - 19 ∧ (k : Int) - 19 < 0 then
          ['⁻', superscripts[1]?.getD '⁻', superscripts[(-((k : Int) - 19)).toNat - 10]?.getD '⁻']
        else '^' :: intDisplay ((k : Int) - 19)) = (decimalInt ((k : Int) - 19)).map superscript := by
    intro k hk h _
    revert k
    decide +kernel
  rw [← key k (by omega) h1 []]
  split <;> [skip; split <;> [skip; split <;> [skip; split]]] <;> rfl

/-- C166: a unit is written as its symbol with its exponent, whatever the unit and the exponent. -/
theorem C166_unit (u : MUnit) : u.display = olderUnit u := by
  obtain ⟨n, e⟩ := u
  unfold olderUnit
  by_cases h1 : e = 1
  · subst h1
    simp [MUnit.display, symbol_word]
  · simp only [if_neg h1]
    split
    · rename_i h
      exact exponent_small e h h1 n
    · rename_i h
      unfold MUnit.display
      simp only [symbol_word, intDisplay_eq]
      rw [if_neg h1, if_neg (by omega), if_neg (by omega), if_neg (by omega), if_neg (by omega)]

/-- C166: a quantity is written as its identifier. -/
theorem C166_quantity (l : ValueLabel) : l.debug.toList = olderQuantity l := by
  cases l <;> decide +kernel

/-- The name in the structured output, from the identifier. -/
def identifierWords (t : List Char) : List Char :=
  match ([("DateTime", "Time point (date and time)"), ("DateTimeWithSeconds", "Time point (date and time)")] ++
      olderIdentifiers.map (fun p => (p.2, p.1))).find? (fun p => p.1.toList == t) with
  | some p => p.2.toList
  | none => sentenceCaseIdentifier t

set_option maxHeartbeats 2000000 in
theorem identifier_words (l : ValueLabel) : identifierWords (olderQuantity l) = (quantityText l).toList := by
  cases l <;> decide +kernel

/-- C166: different quantities have different identifiers. -/
theorem C166_distinct (a b : ValueLabel) (h : olderQuantity a = olderQuantity b) : a = b := by
  have e : quantityText a = quantityText b := by
    rw [← String.toList_inj, ← identifier_words a, h, identifier_words b]
  rcases C122_distinct a b e with e | ⟨ha, hb⟩
  · exact e
  · simp only [List.mem_cons, List.not_mem_nil, or_false] at ha hb
    rcases ha with rfl | rfl <;> rcases hb with rfl | rfl
    · rfl
    · exact absurd h (by decide +kernel)
    · exact absurd h (by decide +kernel)
    · rfl

theorem commas_join (ts : List (List Char)) : ", ".toList.intercalate ts = olderQuantities.commaJoined ts := by
  induction ts with
  | nil => rfl
  | cons t ts ih =>
    cases ts with
    | nil => simp [olderQuantities.commaJoined]
    | cons t' ts =>
      rw [olderQuantities.commaJoined, ← ih]
      · simp [List.intercalate, List.intersperse]
      · simp

theorem units_older (v : ValueInfo) : v.units.flatMap MUnit.display = olderUnits v := by
  unfold olderUnits
  rw [show MUnit.display = olderUnit from funext C166_unit]

theorem quantities_older (v : ValueInfo) :
    ", ".toList.intercalate (v.labels.map (fun l => l.debug.toList)) = olderQuantities v := by
  unfold olderQuantities
  rw [commas_join, show (fun l : ValueLabel => l.debug.toList) = olderQuantity from funext C166_quantity]

/-- C166: the unit and the quantity in the summary of a record, as `json-legacy` shows them. -/
theorem C166_summary (rt : UInt32 → List Char) (r : DataRecord) :
    (∀ v, r.header.processed.valueInfo = some v →
      (recordSummary rt r).unit = (if olderUnits v = [] then none else some (olderUnits v)) ∧
      (recordSummary rt r).quantity = (if olderQuantities v = [] then none else some (olderQuantities v))) ∧
    (r.header.processed.valueInfo = none → (recordSummary rt r).unit = none ∧ (recordSummary rt r).quantity = none) := by
  refine ⟨?_, ?_⟩
  · intro v hv
    unfold recordSummary
    simp only [hv, Option.bind_some, nonEmpty, units_older, quantities_older, and_self]
  · intro hv
    unfold recordSummary
    simp only [hv, Option.bind_none, and_self]

/-- C166: the text of a record in `csv-wide`, `json-legacy` and the older diagrams ends with the unit in brackets and the
quantity in parentheses, each unless there is none. -/
theorem C166_text (rt : UInt32 → List Char) (r : DataRecord) (v : ValueInfo)
    (h : r.header.processed.valueInfo = some v) :
    ∃ number, recordDisplay rt r = number ++ (if v.units = [] then [] else '[' :: olderUnits v ++ [']']) ++
      (if v.labels = [] then [] else '(' :: olderQuantities v ++ [')']) ∧
      (recordSummary rt r).display = recordDisplay rt r ∧ oldRecordLabel rt r = mermaidEscapeOld (recordDisplay rt r) ∧
      number = '(' :: r.data.display rt ++ (if v.offset = 0 then [] else '+' :: decimalInt v.offset) ++ [')'] ++
        (if v.scale = 0 then [] else 'e' :: decimalInt v.scale) := by
  refine ⟨_, ?_, rfl, ?_, rfl⟩
  · unfold recordDisplay
    rw [h]
    simp only [ValueInfo.display, units_older, quantities_older, intDisplay_eq]
    by_cases h1 : v.offset = 0 <;> by_cases h2 : v.scale = 0 <;> by_cases h3 : v.units = [] <;>
      by_cases h4 : v.labels = [] <;> simp [h1, h2, h3, h4]
  · unfold oldRecordLabel recordDisplay
    rw [h]

/-- The volume flow of 5 litres per hour. -/
example : olderUnits { offset := 0, labels := [.volumeFlow], scale := -3, units := [⟨.meter, 3⟩, ⟨.hour, -1⟩] } =
      "m³h⁻¹".toList ∧
    olderQuantities { offset := 0, labels := [.averaged, .volumeFlow], scale := -3, units := [] } =
      "Averaged, VolumeFlow".toList := by decide +kernel

end MBus
