import Verif.Props.Display
import Verif.Props.Legacy
/-!
# C110: the numbers of the older outputs, and C104 for points of time
-/
namespace MBus
open Spec

/-! ## C104 -/

/-- C104: the text of a point of time without seconds, with seconds, and of a time of day, if all
components are stated. -/
theorem C104_point (realText : UInt32 → List Char) (d h mi s : UInt8) (m : Month) (y : UInt16) (k : Nat)
    (hm : months[k]? = some m) :
    ∃ name, monthNames[k]? = some name ∧
      DataType.display realText (.dateTime (.single d) (.single m) (.single y) (.single h) (.single mi)) =
        pointText d.toNat name y.toNat (clockText h.toNat mi.toNat "00".toList) ∧
      DataType.display realText
          (.dateTimeWithSeconds (.single d) (.single m) (.single y) (.single h) (.single mi) (.single s)) =
        pointText d.toNat name y.toNat (clockText h.toNat mi.toNat (decimal s.toNat)) ∧
      DataType.display realText (.time (.single s) (.single mi) (.single h)) =
        clockText h.toNat mi.toNat (decimal s.toNat) := by
  refine ⟨_, months_names k m hm, ?_, ?_, ?_⟩
  · have h0 : ":00".toList = ':' :: "00".toList := by decide
    simp only [display_dateTime, dateText, SEI.display, byteText, natText_eq, pointText, clockText, h0,
      List.append_assoc, List.cons_append, List.nil_append]
  · simp only [display_seconds, dateText, SEI.display, byteText, natText_eq, pointText, clockText,
      List.append_assoc, List.cons_append, List.nil_append]
  · simp only [display_time, SEI.display, byteText, natText_eq, clockText,
      List.append_assoc, List.cons_append, List.nil_append]

example : pointText 30 "Dec".toList 12 (clockText 8 5 "00".toList) = "30/Dec/12 8:5:00".toList ∧
    months[11]? = some .december := by decide +kernel

/-! ## C110 -/

theorem sameNumber_of (rt : UInt32 → List Char) (index : Nat) (r : DataRecord) (i : Int)
    (hv : r.data.value = some (.number (.int i))) (he : ExactOutput r i)
    (hc : corrections (vifesOf r) = []) : SameNumber (recordSummary rt r) (recordOutput index r) := by
  obtain ⟨text, h1, h2, -⟩ := he
  rw [hc] at h2
  refine ⟨i, text, by simp only [recordSummary, hv], h1, ?_⟩
  simp only [scaledValue, List.getLast?_nil, Option.elim_none, add_zero] at h2
  exact h2

/-- C110, what holds of the statement: without an additive correction, `value` times ten to the power of
`exponent` is the number in the structured output, for integers of up to 48 bits. -/
theorem C110_integers_partial (cfg : Cfg) (rt : UInt32 → List Char) (lsb : Bool) (data : List UInt8)
    (r : DataRecord) (di : DataInfo) (n index : Nat) (h : DataRecord.parse cfg lsb data = .ok r)
    (hdi : r.header.processed.dataInfo = some di) (hn : integerWidth di.coding = some n) (h6 : n ≤ 6)
    (hc : corrections (vifesOf r) = []) :
    SameNumber (recordSummary rt r) (recordOutput index r) := by
  obtain ⟨hl, he⟩ := C70_integers cfg lsb data r di n h hdi hn
  have hv := integer_data cfg lsb data r di n h hdi hn
  have hb := twosComplement_bound r.dataBytes
  rw [hl] at hb
  have hp : (256 : Int) ^ n ≤ 256 ^ 6 := by
    have := Nat.pow_le_pow_right (show 256 > 0 by omega) h6
    exact_mod_cast this
  norm_num at hp
  rw [roundF64_small _ (by norm_num; omega)] at hv
  exact sameNumber_of rt index r _ hv he hc

/-- C110, what holds of the statement: the same of 64-bit integers up to the precision of a `f64`: `value` is
the `f64` nearest to the number whose multiple by ten to the power of `exponent` the structured output
states. -/
theorem C110_rounded (cfg : Cfg) (rt : UInt32 → List Char) (lsb : Bool) (data : List UInt8)
    (r : DataRecord) (di : DataInfo) (n index : Nat) (h : DataRecord.parse cfg lsb data = .ok r)
    (hdi : r.header.processed.dataInfo = some di) (hn : integerWidth di.coding = some n)
    (hc : corrections (vifesOf r) = []) :
    ∃ i v text, (recordSummary rt r).value = some (.int v) ∧ Nearest i v ∧
      (recordOutput index r).value = ⟨"decimal".toList, some (.str text)⟩ ∧
      Denotes text (i * 10 ^ (recordSummary rt r).exponent.getD 0) := by
  obtain ⟨-, text, h1, h2, -⟩ := C70_integers cfg lsb data r di n h hdi hn
  have hv := integer_data cfg lsb data r di n h hdi hn
  rw [hc] at h2
  refine ⟨twosComplement r.dataBytes, _, text, by simp only [recordSummary, hv], roundF64_nearest _, h1, ?_⟩
  simp only [scaledValue, List.getLast?_nil, Option.elim_none, add_zero] at h2
  exact h2

/-- C110, what holds of the statement: the same of BCD numbers. -/
theorem C110_bcd_partial (cfg : Cfg) (rt : UInt32 → List Char) (lsb : Bool) (data : List UInt8)
    (r : DataRecord) (di : DataInfo) (n index : Nat) (h : DataRecord.parse cfg lsb data = .ok r)
    (hdi : r.header.processed.dataInfo = some di) (hn : bcdWidth di.coding = some n)
    (hc : corrections (vifesOf r) = []) :
    SameNumber (recordSummary rt r) (recordOutput index r) := by
  obtain ⟨hl, he⟩ := C70_bcd cfg lsb data r di n h hdi hn
  exact sameNumber_of rt index r _ (bcd_data cfg lsb data r di n h hdi hn).1 he hc

example : (match DataRecord.parse cfgDebug false [0x0C, 0x13, 0x27, 0x04, 0x85, 0x02] with
    | .ok r => (recordSummary (fun _ => []) r).value == some (.int 2850427) &&
      (recordSummary (fun _ => []) r).exponent == some (-3) && (corrections (vifesOf r) == [])
    | _ => false) = true := by decide +kernel

/-- C110 is false with an additive correction: two records with the same value, exponent, unit and
quantity in the older outputs have different numbers in the structured output. -/
theorem C110_fails (cfg : Cfg) (rt : UInt32 → List Char) : ∃ d d' r r' text text',
    DataRecord.parse cfg false d = .ok r ∧ DataRecord.parse cfg false d' = .ok r' ∧
      (let s := recordSummary rt r
       let s' := recordSummary rt r'
       s.value = s'.value ∧ s.exponent = s'.exponent ∧ s.unit = s'.unit ∧ s.quantity = s'.quantity) ∧
      (recordOutput 0 r).value = ⟨"decimal".toList, some (.str text)⟩ ∧ Denotes text (5 / 1000) ∧
      (recordOutput 0 r').value = ⟨"decimal".toList, some (.str text')⟩ ∧ Denotes text' (1005 / 1000) := by
  have key : ∀ (d : List UInt8) (c : Option Int), (match DataRecord.parse cfg false d with
      | .ok r => r.data.value == some (.number (.int 5)) &&
        (r.header.processed.valueInfo.map (fun v => (v.scale, v.units, v.labels)) ==
          some (-3, [⟨.meter, 3⟩], [.volume])) &&
        (r.header.processed.dataInfo.map DataInfo.coding == some .integer8) &&
        (twosComplement r.dataBytes == 5) && ((corrections (vifesOf r)).getLast? == c)
      | _ => false) = true → ∃ r text, DataRecord.parse cfg false d = .ok r ∧
        r.data.value = some (.number (.int 5)) ∧
        r.header.processed.valueInfo.map (fun v => (v.scale, v.units, v.labels)) =
          some (-3, [⟨.meter, 3⟩], [.volume]) ∧
        valueOutput r = ⟨"decimal".toList, some (.str text)⟩ ∧ Denotes text (scaledValue 5 (-3) c) := by
    intro d c h
    cases hp : DataRecord.parse cfg false d with
    | ok r =>
      rw [hp] at h
      simp only [Bool.and_eq_true, beq_iff_eq] at h
      obtain ⟨⟨⟨⟨h1, h2⟩, h3⟩, h4⟩, h6⟩ := h
      obtain ⟨di, hdi, hco⟩ := Option.map_eq_some_iff.mp h3
      obtain ⟨text, e1, e2, -⟩ := (C70_integers cfg false d r di 1 hp hdi (by rw [hco]; rfl)).2
      have h5 : r.header.processed.valueInfo.map ValueInfo.scale = some (-3) := by
        have := congrArg (Option.map Prod.fst) h2
        simpa [Option.map_map, Function.comp_def] using this
      rw [h4, h5, h6] at e2
      exact ⟨r, text, rfl, h1, h2, e1, e2⟩
    | err e => rw [hp] at h; cases h
    | panic => rw [hp] at h; cases h
  obtain ⟨r, x, h1, h2, h3, h4, h5⟩ := key [0x01, 0x13, 0x05] none
    (by obtain ⟨oc, tf⟩ := cfg; cases oc <;> cases tf <;> decide +kernel)
  obtain ⟨r', x', h1', h2', h3', h4', h5'⟩ := key [0x01, 0x93, 0x7B, 0x05] (some 0)
    (by obtain ⟨oc, tf⟩ := cfg; cases oc <;> cases tf <;> decide +kernel)
  obtain ⟨v, hv, e⟩ := Option.map_eq_some_iff.mp h3
  obtain ⟨v', hv', e'⟩ := Option.map_eq_some_iff.mp h3'
  simp only [Prod.mk.injEq] at e e'
  refine ⟨_, _, r, r', x, x', h1, h1', ⟨?_, ?_, ?_, ?_⟩, h4, ?_, h4', ?_⟩
  · simp only [recordSummary, h2, h2']
  · simp only [recordSummary, hv, hv', Option.map_some, e.1, e'.1]
  · simp only [recordSummary, hv, hv', Option.bind_some, e.2.1, e'.2.1]
  · simp only [recordSummary, hv, hv', Option.bind_some, e.2.2, e'.2.2]
  · convert h5 using 1; norm_num [scaledValue]
  · convert h5' using 1; norm_num [scaledValue]

end MBus
