import Verif.Lemmas.XmlValue
import Verif.Spec.Units
import Mathlib.Algebra.Order.Field.Rat
/-!
# C74, C79: the units of the XML output
-/
namespace MBus
open MBus.Spec MBus.Xml

/-! ## C74 -/

/-- The library's quantity for a value information block: the unit and power of ten one counted value
stands for.  `none` if the block is rejected, has no unit, or a unit without a physical meaning here. -/
def libraryUnit (vib : VIB) : Option Quantity :=
  match ValueInfo.tryFrom vib with
  | .ok v => if v.units = [] then none else libraryQuantity v.scale v.units
  | _ => none

/-- The quantity of the XML output for the same block. -/
def xmlUnitOf (vif : UInt8) (vifes : List UInt8) : Option Quantity :=
  match vibUnit vif vifes none with
  | some (unit, factor, _) =>
    (xmlQuantity factor (String.ofList unit)).bind (fun q =>
      match vifeCorrection vif vifes with
      | .none => some q
      | .times e => some ⟨q.factor * ten e, q.dim⟩
      | .plus _ => none)
  | none => none

/-- If both know a unit, it is the same quantity. -/
def UnitsAgree (vif : UInt8) (vifes : List UInt8) : Prop :=
  ∀ a b, libraryUnit ⟨vif, if vifes.isEmpty then none else some vifes, none⟩ = some a →
    xmlUnitOf vif vifes = some b → a.factor = b.factor ∧ ∀ x, a.dim x = b.dim x

/-- Both know a unit. -/
def bothKnown (vif : UInt8) (vifes : List UInt8) : Bool :=
  (libraryUnit ⟨vif, if vifes.isEmpty then none else some vifes, none⟩).isSome &&
    (xmlUnitOf vif vifes).isSome

/-- The check that is evaluated over the tables. -/
def unitsAgree (vif : UInt8) (vifes : List UInt8) : Bool :=
  match libraryUnit ⟨vif, if vifes.isEmpty then none else some vifes, none⟩, xmlUnitOf vif vifes with
  | some a, some b => a.same b
  | _, _ => true

theorem unitsAgree_iff (vif : UInt8) (vifes : List UInt8) :
    unitsAgree vif vifes = true ↔ UnitsAgree vif vifes := by
  have hall : ∀ x : Base, x ∈ Base.all := by intro x; cases x <;> decide
  unfold unitsAgree UnitsAgree
  cases libraryUnit ⟨vif, if vifes.isEmpty then none else some vifes, none⟩ with
  | none => simp
  | some a =>
    cases xmlUnitOf vif vifes with
    | none => simp
    | some b =>
      simp only [Quantity.same, Bool.and_eq_true, beq_iff_eq, List.all_eq_true]
      constructor
      · rintro ⟨h1, h2⟩ _ _ ⟨rfl⟩ ⟨rfl⟩
        exact ⟨h1, fun x => h2 x (hall x)⟩
      · intro h
        obtain ⟨h1, h2⟩ := h a b rfl rfl
        exact ⟨h1, fun x _ => h2 x⟩

/-- C74, primary VIFs: the unit and factor of the XML output are the library's unit and power of ten. -/
theorem C74_primary (vif : UInt8) (h : vif.toNat < 0x7C) : UnitsAgree vif [] := by
  have key : ∀ vif : UInt8, vif.toNat < 0x7C → unitsAgree vif [] = true := by decide +kernel
  exact (unitsAgree_iff _ _).1 (key vif h)

/-- C74: a primary VIF for which the library has a unit has one in the XML output, and the other way
round except for the durations 70 to 77, which have no unit in the library. -/
theorem C74_primary_known : ∀ vif : UInt8, vif.toNat < 0x7C →
    (libraryUnit ⟨vif, none, none⟩).isSome =
      ((xmlUnitOf vif []).isSome && !(0x70 ≤ vif.toNat && vif.toNat ≤ 0x77)) := by decide +kernel

/-- C74: multiplicative correction factors: a primary VIF with extension bit followed by one VIFE 70 to
77 or 7D. -/
theorem C74_correction (vif vife : UInt8) (h : 0x80 ≤ vif.toNat) (h' : vif.toNat < 0xFB)
    (hv : (0x70 ≤ vife.toNat ∧ vife.toNat ≤ 0x77) ∨ vife.toNat = 0x7D) : UnitsAgree vif [vife] := by
  have key : ∀ vif : UInt8, 0x80 ≤ vif.toNat → vif.toNat < 0xFB →
      ∀ vife ∈ [0x70, 0x71, 0x72, 0x73, 0x74, 0x75, 0x76, 0x77, (0x7D : UInt8)],
        unitsAgree vif [vife] = true := by decide +kernel
  refine (unitsAgree_iff _ _).1 (key vif h h' vife ?_)
  have : ∀ vife : UInt8, ((0x70 ≤ vife.toNat ∧ vife.toNat ≤ 0x77) ∨ vife.toNat = 0x7D) →
      vife ∈ [0x70, 0x71, 0x72, 0x73, 0x74, 0x75, 0x76, 0x77, (0x7D : UInt8)] := by decide +kernel
  exact this vife hv

/-- C74, what holds for the main extension (VIF FD): the units agree except for the five codes 32, 33,
34, 35 and 6F. -/
theorem C74_main_extension_partial (vife : UInt8) (h : vife.toNat < 0x80) :
    UnitsAgree 0xFD [vife] ↔ vife ∉ [0x32, 0x33, 0x34, 0x35, (0x6F : UInt8)] := by
  have key : ∀ vife : UInt8, vife.toNat < 0x80 →
    (unitsAgree 0xFD [vife] = true ↔ vife ∉ [0x32, 0x33, 0x34, 0x35, (0x6F : UInt8)]) := by
    decide +kernel
  rw [← unitsAgree_iff]; exact key vife h

/-- C74, what holds for the alternate extension (VIF FB): the units agree except for the six codes 00,
01, 23, 30, 31 and 79. -/
theorem C74_alternate_extension_partial (vife : UInt8) (h : vife.toNat < 0x80) :
    UnitsAgree 0xFB [vife] ↔ vife ∉ [0x00, 0x01, 0x23, 0x30, 0x31, (0x79 : UInt8)] := by
  have key : ∀ vife : UInt8, vife.toNat < 0x80 →
    (unitsAgree 0xFB [vife] = true ↔ vife ∉ [0x00, 0x01, 0x23, 0x30, 0x31, (0x79 : UInt8)]) := by
    decide +kernel
  rw [← unitsAgree_iff]; exact key vife h

/-- C74 is false of the code: the energy code FB 00 is 10^5 Wh in the XML output and 10^5 W³/h in the
library. -/
theorem C74_fails : ¬ UnitsAgree 0xFB [0x00] ∧
    ValueInfo.tryFrom ⟨0xFB, some [0x00], none⟩ =
      .ok ⟨0, [.energy], 5, [⟨.watt, 3⟩, ⟨.hour, -1⟩]⟩ ∧
    vibUnit 0xFB [0x00] none = some (['W', 'h'], ⟨1, 5⟩, "Energy".toList) := by
  refine ⟨?_, by decide +kernel, by decide +kernel⟩
  rw [C74_alternate_extension_partial _ (by decide)]
  decide

/-- The XML output looks at the first VIFE only. -/
theorem C74_first_vife_only (vif vife : UInt8) (rest : List UInt8) (plaintext : Option (List Char)) :
    vibUnit vif (vife :: rest) plaintext = vibUnit vif [vife] plaintext ∧
    vifeCorrection vif (vife :: rest) = vifeCorrection vif [vife] := ⟨rfl, rfl⟩

/-- So C74 is false for a second correction VIFE: 86 F3 73 is 1 Wh (10^3 · 10^-3 · 10^-3) in the library
and 10^3 times as much in the XML output. -/
theorem C74_second_vife_fails : ¬ UnitsAgree 0x86 [0xF3, 0x73] := by
  rw [← unitsAgree_iff]
  decide +kernel

/-- C74 is false for a correction VIFE after an extension code: the library applies the correction of
the voltage FD C6 73, the XML output does not. -/
theorem C74_extension_correction_fails : ¬ UnitsAgree 0xFD [0xC6, 0x73] := by
  rw [← unitsAgree_iff]
  decide +kernel

/-- The theorems are not empty: both sides know a unit for 0x6C of the primary VIFs and for codes of both
extensions. -/
example : ((List.range 0x7C).filter (fun n => bothKnown (UInt8.ofNat n) [])).length = 0x6C ∧
    bothKnown 0xFD [0x46] = true ∧ bothKnown 0xFB [0x28] = true ∧ bothKnown 0x86 [0x73] = true ∧
    bothKnown 0x86 [0xF3, 0x73] = true := by decide +kernel

/-! ## C79 -/

/-- C79, what holds of the statement: every unit code of fixed length data other than 0D and 0E is shown
with the unit of the standard's table.  Missing: these two codes, see `C79_fails`. -/
theorem C79_fixed_units_partial : ∀ b : UInt8, b.toNat % 64 ≠ 0x0D → b.toNat % 64 ≠ 0x0E →
    fixedUnits[b.toNat % 64]? = some (fixedUnit b) := by decide +kernel

/-- C79 is false of the code: the codes 0D (100 kJ) and 0E (MJ) are exchanged, a counter in one of them
is shown ten times too large or too small. -/
theorem C79_fails : fixedUnits[0x0D]? = some "100 kJ" ∧ fixedUnit 0x0D = "MJ" ∧
    fixedUnits[0x0E]? = some "MJ" ∧ fixedUnit 0x0E = "100 kJ" := by decide +kernel

end MBus
