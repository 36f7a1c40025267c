import Verif.Lemmas.Display
import Verif.Props.RecordOutput
/-!
# Displayed values: C104, C105
-/
namespace MBus
open Spec

/-! ## C104 -/

/-- C104: a displayed integer-valued number reads back as the stored `f64`; below 2^53 the text is the
number itself. -/
theorem C104_number (realText : UInt32 → List Char) (v : Int) (h : Representable v) :
    ∃ w, DataType.display realText (.number (.int v)) = decimalInt w ∧ Nearest w v ∧
      (v.natAbs < 2 ^ 53 → w = v) := by
  have hr : roundF64 v = v := by
    have := (roundF64_nearest v).2 v h
    simp at this; omega
  obtain ⟨w, h1, h2, h3⟩ := f64Text_int realText v hr
  exact ⟨w, h1, h2 ▸ roundF64_nearest w, h3⟩

example : DataType.display (fun _ => []) (.number (.int (-18446744073709551616))) =
    "-18446744073709552000".toList ∧ Representable (-18446744073709551616) :=
  ⟨by decide +kernel, -1, 64, by norm_num, by norm_num⟩

theorem integer_data (cfg : Cfg) (lsb : Bool) (data : List UInt8) (r : DataRecord) (di : DataInfo)
    (n : Nat) (h : DataRecord.parse cfg lsb data = .ok r) (hdi : r.header.processed.dataInfo = some di)
    (hn : integerWidth di.coding = some n) :
    r.data.value = some (.number (.int (roundF64 (twosComplement r.dataBytes)))) := by
  obtain ⟨rest, di', hdi', hp, hd, -⟩ := dataBytes_eq cfg lsb data r h
  rw [hdi] at hdi'
  cases hdi'
  rw [C23_integer_value cfg lsb di.coding n rest hn] at hp
  split at hp
  · simp at hp
  · injection hp with hp
    rw [hd, ← hp]

theorem bcd_data (cfg : Cfg) (lsb : Bool) (data : List UInt8) (r : DataRecord) (di : DataInfo)
    (n : Nat) (h : DataRecord.parse cfg lsb data = .ok r) (hdi : r.header.processed.dataInfo = some di)
    (hn : bcdWidth di.coding = some n) :
    r.data.value = some (.number (.int (bcdValue (if lsb then r.dataBytes.reverse else r.dataBytes)))) ∧
    ∀ b ∈ r.dataBytes, IsBcd b := by
  obtain ⟨rest, di', hdi', hp, hd, -⟩ := dataBytes_eq cfg lsb data r h
  rw [hdi] at hdi'
  cases hdi'
  rw [C24_bcd_value cfg lsb di.coding n rest hn] at hp
  split at hp
  · simp at hp
  · split at hp
    · rename_i hb
      injection hp with hp
      rw [hd, ← hp]
      exact ⟨rfl, hb⟩
    · simp at hp

/-- C104: the text of a record with an integer of up to 48 bits is the decimal number coded in its
bytes, and that of a 64-bit integer is a decimal number with the same nearest `f64`. -/
theorem C104_integers_partial (cfg : Cfg) (realText : UInt32 → List Char) (lsb : Bool) (data : List UInt8)
    (r : DataRecord) (di : DataInfo) (n : Nat) (h : DataRecord.parse cfg lsb data = .ok r)
    (hdi : r.header.processed.dataInfo = some di) (hn : integerWidth di.coding = some n) :
    (n ≤ 6 → r.data.display realText = decimalInt (twosComplement r.dataBytes)) ∧
    ∃ w v, r.data.display realText = decimalInt w ∧ Nearest w v ∧ Nearest (twosComplement r.dataBytes) v := by
  have hv := integer_data cfg lsb data r di n h hdi hn
  have hl := (C70_integers cfg lsb data r di n h hdi hn).1
  obtain ⟨w, h1, h2, h3⟩ := C104_number realText _ (roundF64_nearest (twosComplement r.dataBytes)).1
  have hd : r.data.display realText = DataType.display realText
      (.number (.int (roundF64 (twosComplement r.dataBytes)))) := by
    unfold Data.display; rw [hv]
  refine ⟨fun hs => ?_, w, _, hd.trans h1, h2, roundF64_nearest _⟩
  have hb := twosComplement_bound r.dataBytes
  rw [hl] at hb
  have hp : (256 : Int) ^ n ≤ 256 ^ 6 := by
    have := Nat.pow_le_pow_right (show 256 > 0 by omega) hs
    exact_mod_cast this
  norm_num at hp
  have hr : roundF64 (twosComplement r.dataBytes) = twosComplement r.dataBytes :=
    roundF64_small _ (by norm_num; omega)
  rw [hd, h1, h3 (by rw [hr]; norm_num; omega), hr]

/-- C104: the text of a record with a BCD number is the number. -/
theorem C104_bcd (cfg : Cfg) (realText : UInt32 → List Char) (lsb : Bool) (data : List UInt8)
    (r : DataRecord) (di : DataInfo) (n : Nat) (h : DataRecord.parse cfg lsb data = .ok r)
    (hdi : r.header.processed.dataInfo = some di) (hn : bcdWidth di.coding = some n) :
    r.data.display realText = decimal (bcdValue (if lsb then r.dataBytes.reverse else r.dataBytes)) := by
  obtain ⟨hv, hb⟩ := bcd_data cfg lsb data r di n h hdi hn
  have hl := (C70_bcd cfg lsb data r di n h hdi hn).1
  generalize hx : (if lsb then r.dataBytes.reverse else r.dataBytes) = x at hv ⊢
  have hxb : ∀ b ∈ x, IsBcd b := by
    intro b hm
    apply hb
    rw [← hx] at hm
    split at hm
    · simpa using hm
    · exact hm
  have hxl : x.length = n := by rw [← hx]; split <;> simp [hl]
  have hlt := bcdValue_lt x hxb
  have hn6 : n ≤ 6 := by
    revert hn
    cases di.coding <;> simp [bcdWidth] <;> omega
  have hp : 100 ^ x.length ≤ 100 ^ 6 := Nat.pow_le_pow_right (by omega) (by omega)
  norm_num at hp
  obtain ⟨w, h1, -, h3⟩ := C104_number realText (bcdValue x) ⟨bcdValue x, 0, by simp, by norm_num; omega⟩
  have hd : r.data.display realText = DataType.display realText (.number (.int (bcdValue x))) := by
    unfold Data.display; rw [hv]
  rw [hd, h1, h3 (by norm_num; omega)]
  have : ¬ ((bcdValue x : Int) < 0) := by omega
  simp [decimalInt, signText]

example : (match DataRecord.parse cfgDebug false [0x0C, 0x13, 0x27, 0x04, 0x85, 0x02] with
    | .ok r => r.data.display (fun _ => []) | _ => []) = "2850427".toList ∧
    (match DataRecord.parse cfgDebug false [0x03, 0x13, 0xFE, 0xFF, 0xFF] with
    | .ok r => r.data.display (fun _ => []) | _ => []) = "-2".toList := by decide +kernel

/-- C104 is false of 64-bit integers: two records with different numbers have the same text. -/
theorem C104_fails (cfg : Cfg) (realText : UInt32 → List Char) : ∃ d d' r r',
    DataRecord.parse cfg false d = .ok r ∧ DataRecord.parse cfg false d' = .ok r' ∧
      r.data.display realText = r'.data.display realText ∧
      twosComplement r.dataBytes = 2 ^ 53 ∧ twosComplement r'.dataBytes = 2 ^ 53 + 1 := by
  have key : ∀ d : List UInt8, ∀ v, (match DataRecord.parse cfg false d with
      | .ok r => r.data.value == some (.number (.int (2 ^ 53))) && twosComplement r.dataBytes == v
      | _ => false) = true → ∃ r, DataRecord.parse cfg false d = .ok r ∧
        r.data.value = some (.number (.int (2 ^ 53))) ∧ twosComplement r.dataBytes = v := by
    intro d v h
    cases hp : DataRecord.parse cfg false d with
    | ok r => rw [hp] at h; exact ⟨r, rfl, by simpa using h⟩
    | err e => rw [hp] at h; cases h
    | panic => rw [hp] at h; cases h
  obtain ⟨r, h1, h2, h3⟩ := key [0x07, 0x13, 0, 0, 0, 0, 0, 0, 0x20, 0] (2 ^ 53)
    (by obtain ⟨oc, tf⟩ := cfg; cases oc <;> cases tf <;> decide +kernel)
  obtain ⟨r', h1', h2', h3'⟩ := key [0x07, 0x13, 1, 0, 0, 0, 0, 0, 0x20, 0] (2 ^ 53 + 1)
    (by obtain ⟨oc, tf⟩ := cfg; cases oc <;> cases tf <;> decide +kernel)
  exact ⟨_, _, r, r', h1, h1', by unfold Data.display; rw [h2, h2'], h3, h3'⟩

theorem specific_head : "Manufacturer Specific: ".toList = 'M' :: "anufacturer Specific: ".toList := by
  decide +kernel

theorem specific_ne (bytes : List UInt8) (x : SEI UInt8) (t : List Char) :
    x.display byteText ++ t ≠ "Manufacturer Specific: ".toList ++ bytesDebug bytes := by
  intro he
  have := display_head byteText x rfl t
  rw [he, specific_head, List.cons_append, List.head?_cons] at this
  exact this 'M' rfl rfl

theorem colon_sei (x : SEI UInt8) : ':' ∉ x.display byteText :=
  fun hm => (component_byteSei.plain _ _ hm).2.1 rfl

theorem blank_sei (x : SEI UInt8) : ' ' ∉ x.display byteText :=
  fun hm => (component_byteSei.plain _ _ hm).2.2 rfl

theorem dateText_ne (d : SEI UInt8) (m : SEI Month) (y : SEI UInt16) (t u : List Char) (h : ' ' ∉ u) :
    u ≠ dateText d m y ++ ' ' :: t := by
  intro he; apply h; rw [he]; simp

theorem time_ne (d : SEI UInt8) (m : SEI Month) (y : SEI UInt16) (t : List Char) (a b c : SEI UInt8) :
    a.display byteText ++ ':' :: (b.display byteText ++ ':' :: c.display byteText) ≠ dateText d m y ++ t := by
  intro he
  apply timeText_slash a b c
  rw [he, List.mem_append]
  exact Or.inl (dateText_slash d m y)

theorem date_specific_ne (d : SEI UInt8) (m : SEI Month) (y : SEI UInt16) (t : List Char) (bytes : List UInt8) :
    dateText d m y ++ t ≠ "Manufacturer Specific: ".toList ++ bytesDebug bytes := by
  unfold dateText
  rw [List.append_assoc]
  exact specific_ne _ _ _

theorem clock_inj {a b c a' b' c' : SEI UInt8}
    (h : a.display byteText ++ ':' :: (b.display byteText ++ ':' :: c.display byteText) =
      a'.display byteText ++ ':' :: (b'.display byteText ++ ':' :: c'.display byteText)) :
    a = a' ∧ b = b' ∧ c = c' := by
  obtain ⟨e1, h⟩ := split_at h (colon_sei _) (colon_sei _)
  obtain ⟨e2, h⟩ := split_at h (colon_sei _) (colon_sei _)
  exact ⟨component_byteSei.inj _ _ e1, component_byteSei.inj _ _ e2, component_byteSei.inj _ _ h⟩

theorem minutes_seconds_ne (a b a' b' c' : SEI UInt8) :
    a.display byteText ++ ':' :: (b.display byteText ++ ":00".toList) ≠
      a'.display byteText ++ ':' :: (b'.display byteText ++ ':' :: c'.display byteText) := by
  intro h
  have h0 : ":00".toList = ':' :: "00".toList := by decide
  rw [h0] at h
  obtain ⟨-, h⟩ := split_at h (colon_sei _) (colon_sei _)
  obtain ⟨-, h⟩ := split_at h (colon_sei _) (colon_sei _)
  exact byteSei_ne_00 _ h.symm

theorem minutes_inj {a b a' b' : SEI UInt8}
    (h : a.display byteText ++ ':' :: (b.display byteText ++ ":00".toList) =
      a'.display byteText ++ ':' :: (b'.display byteText ++ ":00".toList)) : a = a' ∧ b = b' := by
  obtain ⟨e1, h⟩ := split_at h (colon_sei _) (colon_sei _)
  exact ⟨component_byteSei.inj _ _ e1, component_byteSei.inj _ _ (List.append_cancel_right h)⟩

theorem dateText_ne_more (d d' : SEI UInt8) (m m' : SEI Month) (y y' : SEI UInt16) (t : List Char) :
    dateText d m y ≠ dateText d' m' y' ++ ' ' :: t :=
  dateText_ne _ _ _ _ _ (dateText_plain d m y).2

theorem date_split {d d' : SEI UInt8} {m m' : SEI Month} {y y' : SEI UInt16} {t t' : List Char}
    (h : dateText d m y ++ ' ' :: t = dateText d' m' y' ++ ' ' :: t') :
    (d = d' ∧ m = m' ∧ y = y') ∧ t = t' := by
  obtain ⟨e, h⟩ := split_at h (dateText_plain d m y).2 (dateText_plain d' m' y').2
  exact ⟨dateText_inj e, h⟩

/-- C104: different dates, times and manufacturer specific bytes have different texts. -/
theorem C104_temporal (realText : UInt32 → List Char) (a b : DataType) (ha : Temporal a) (hb : Temporal b)
    (h : a.display realText = b.display realText) : a = b := by
  cases a <;> first | exact ha.elim | skip
  all_goals cases b <;> first | exact hb.elim | skip
  all_goals simp only [display_date, display_dateTime, display_seconds, display_time, display_specific] at h
  case date.date => obtain ⟨rfl, rfl, rfl⟩ := dateText_inj h; rfl
  case date.dateTime => exact absurd h (by apply dateText_ne_more)
  case date.dateTimeWithSeconds => exact absurd h (by apply dateText_ne_more)
  case date.time => exact absurd (by rw [List.append_nil]; exact h.symm) (time_ne _ _ _ [] _ _ _)
  case date.manufacturerSpecific => exact absurd (by rw [List.append_nil]; exact h) (date_specific_ne _ _ _ [] _)
  case dateTime.date => exact absurd h.symm (by apply dateText_ne_more)
  case dateTime.dateTime =>
    obtain ⟨⟨rfl, rfl, rfl⟩, ht⟩ := date_split h
    obtain ⟨rfl, rfl⟩ := minutes_inj ht; rfl
  case dateTime.dateTimeWithSeconds => exact absurd (date_split h).2 (by apply minutes_seconds_ne)
  case dateTime.time => exact absurd h.symm (by apply time_ne)
  case dateTime.manufacturerSpecific => exact absurd h (by apply date_specific_ne)
  case dateTimeWithSeconds.date => exact absurd h.symm (by apply dateText_ne_more)
  case dateTimeWithSeconds.dateTime => exact absurd (date_split h).2.symm (by apply minutes_seconds_ne)
  case dateTimeWithSeconds.dateTimeWithSeconds =>
    obtain ⟨⟨rfl, rfl, rfl⟩, ht⟩ := date_split h
    obtain ⟨rfl, rfl, rfl⟩ := clock_inj ht; rfl
  case dateTimeWithSeconds.time => exact absurd h.symm (by apply time_ne)
  case dateTimeWithSeconds.manufacturerSpecific => exact absurd h (by apply date_specific_ne)
  case time.date => exact absurd (by rw [List.append_nil]; exact h) (time_ne _ _ _ [] _ _ _)
  case time.dateTime => exact absurd h (by apply time_ne)
  case time.dateTimeWithSeconds => exact absurd h (by apply time_ne)
  case time.time => obtain ⟨rfl, rfl, rfl⟩ := clock_inj h; rfl
  case time.manufacturerSpecific => exact absurd h (by apply specific_ne)
  case manufacturerSpecific.date => exact absurd (by rw [List.append_nil]; exact h.symm) (date_specific_ne _ _ _ [] _)
  case manufacturerSpecific.dateTime => exact absurd h.symm (by apply date_specific_ne)
  case manufacturerSpecific.dateTimeWithSeconds => exact absurd h.symm (by apply date_specific_ne)
  case manufacturerSpecific.time => exact absurd h.symm (by apply specific_ne)
  case manufacturerSpecific.manufacturerSpecific => rw [bytesDebug_inj (List.append_cancel_left h)]

example : DataType.display (fun _ => []) (.dateTime (.single 30) (.single .december) (.single 12) (.single 8) .every) =
    "30/Dec/12 8:Every:00".toList ∧
    DataType.display (fun _ => []) (.manufacturerSpecific [1, 255]) = "Manufacturer Specific: [1, 255]".toList := by
  decide +kernel

theorem months_names (m : Nat) (month : Month) (h : months[m]? = some month) :
    monthNames[m]? = some month.display := by
  have hm : m < 12 := by
    have := (List.getElem?_eq_some_iff.mp h).1
    simpa [months] using this
  revert h
  revert month
  revert m
  decide +kernel

/-- C104: the text of a date of type G. -/
theorem C104_date (cfg : Cfg) (realText : UInt32 → List Char) (lsb : Bool) (d m y : Nat) (suffix : List UInt8)
    (hd : 1 ≤ d ∧ d ≤ 31) (hm : 1 ≤ m ∧ m ≤ 12) (hy : y < 127) :
    ∃ v month, Coding.dateTypeG.parse cfg lsb (encodeDateG d m y ++ suffix) = .ok v ∧
      monthNames[m - 1]? = some month ∧
      v.display realText = decimal d ++ ['/'] ++ month ++ ['/'] ++ decimal y := by
  obtain ⟨day, month, year, h1, h2, h3, h4⟩ := C25_round_trip cfg lsb d m y suffix hd hm hy
  refine ⟨_, month.display, h1, months_names _ _ h3, ?_⟩
  cases day <;> simp [sei8] at h2
  cases year <;> simp [sei16] at h4
  simp only [Data.display, display_date, dateText, SEI.display, byteText, natText_eq, h2, h4]
  simp

/-! ## C105 -/

theorem record_valueInfo (cfg : Cfg) (lsb : Bool) (data : List UInt8) (r : DataRecord)
    (h : DataRecord.parse cfg lsb data = .ok r) (hc : corrections (vifesOf r) = []) :
    ∀ v ∈ r.header.processed.valueInfo, v.offset = 0 := by
  intro v hv
  obtain ⟨h1, -⟩ := (record_ok _ _ _ _).mp h
  obtain ⟨-, h2⟩ := recordHeader_ok _ _ _ h1
  unfold ProcessedHeader.tryFrom at h2
  split at h2
  · rename_i x hx
    simp only [Res.bind_eq_ok] at h2
    obtain ⟨v', h3, d, -, h4⟩ := h2
    have h3 : ValueInfo.tryFrom x = .ok v' := by
      cases hx : ValueInfo.tryFrom x <;> rw [hx] at h3 <;> simp at h3
      rw [h3]
    injection h4 with h4
    rw [← h4] at hv
    simp at hv
    subst hv
    exact valueInfo_offset x v' h3 (by simpa [vifesOf, hx] using hc)
  · split at h2
    · simp only [Res.bind_eq_ok] at h2
      obtain ⟨d, -, h4⟩ := h2
      injection h4 with h4
      rw [← h4] at hv
      simp at hv
    · injection h2 with h2
      rw [← h2] at hv
      simp at hv

theorem reading_of (cfg : Cfg) (realText : UInt32 → List Char) (lsb : Bool) (data : List UInt8)
    (r : DataRecord) (i : Int) (h : DataRecord.parse cfg lsb data = .ok r)
    (hc : corrections (vifesOf r) = []) (hd : r.data.display realText = decimalInt i) :
    Reading (recordDisplay realText r) i ((r.header.processed.valueInfo.map ValueInfo.scale).getD 0) := by
  have ho := record_valueInfo cfg lsb data r h hc
  unfold recordDisplay
  rw [hd]
  cases hv : r.header.processed.valueInfo with
  | none => exact ⟨[], [], by simp [exponentText], Or.inl rfl, Or.inl rfl⟩
  | some v =>
    rw [hv] at ho
    have ho := ho v rfl
    refine ⟨(if v.units ≠ [] then '[' :: v.units.flatMap MUnit.display ++ [']'] else []),
      (if v.labels ≠ [] then '(' :: ", ".toList.intercalate (v.labels.map (fun l => l.debug.toList)) ++ [')']
        else []), ?_, ?_, ?_⟩
    · simp only [ValueInfo.display, ho, intDisplay_eq, Option.map_some, Option.getD_some, exponentText]
      by_cases hs : v.scale = 0 <;> simp [hs]
    · split
      · exact Or.inr ⟨_, rfl⟩
      · exact Or.inl rfl
    · split
      · exact Or.inr ⟨_, rfl⟩
      · exact Or.inl rfl

/-- The displayed reading of a record is the number in the structured output. -/
def Spec.SameReading (realText : UInt32 → List Char) (r : DataRecord) : Prop :=
  ∃ significand scale text, Reading (recordDisplay realText r) significand scale ∧
    valueOutput r = ⟨"decimal".toList, some (.str text)⟩ ∧ Denotes text (significand * 10 ^ scale)

theorem same_of (realText : UInt32 → List Char) (r : DataRecord) (i : Int)
    (hr : Reading (recordDisplay realText r) i ((r.header.processed.valueInfo.map ValueInfo.scale).getD 0))
    (he : ExactOutput r i) (hc : corrections (vifesOf r) = []) : SameReading realText r := by
  obtain ⟨text, h1, h2, -⟩ := he
  refine ⟨i, _, text, hr, h1, ?_⟩
  rw [hc] at h2
  simpa [scaledValue] using h2

/-- C105, what holds of the statement: without an additive correction the displayed reading of a record
with an integer of up to 48 bits is the number in the structured output. -/
theorem C105_integers_partial (cfg : Cfg) (realText : UInt32 → List Char) (lsb : Bool) (data : List UInt8)
    (r : DataRecord) (di : DataInfo) (n : Nat) (h : DataRecord.parse cfg lsb data = .ok r)
    (hdi : r.header.processed.dataInfo = some di) (hn : integerWidth di.coding = some n) (h6 : n ≤ 6)
    (hc : corrections (vifesOf r) = []) : SameReading realText r :=
  same_of realText r _ (reading_of cfg realText lsb data r _ h hc
    ((C104_integers_partial cfg realText lsb data r di n h hdi hn).1 h6))
    (C70_integers cfg lsb data r di n h hdi hn).2 hc

/-- C105, what holds of the statement: the same of BCD numbers. -/
theorem C105_bcd_partial (cfg : Cfg) (realText : UInt32 → List Char) (lsb : Bool) (data : List UInt8)
    (r : DataRecord) (di : DataInfo) (n : Nat) (h : DataRecord.parse cfg lsb data = .ok r)
    (hdi : r.header.processed.dataInfo = some di) (hn : bcdWidth di.coding = some n)
    (hc : corrections (vifesOf r) = []) : SameReading realText r :=
  same_of realText r _ (reading_of cfg realText lsb data r _ h hc
    (by rw [C104_bcd cfg realText lsb data r di n h hdi hn]; simp [decimalInt, signText]))
    (C70_bcd cfg lsb data r di n h hdi hn).2 hc

example : (match DataRecord.parse cfgDebug false [0x0C, 0x13, 0x27, 0x04, 0x85, 0x02] with
    | .ok r => (recordDisplay (fun _ => []) r, corrections (vifesOf r)) | _ => ([], [0])) =
      ("(2850427)e-3[m³](Volume)".toList, []) := by decide +kernel

/-- C105 is false with an additive correction: two records with different numbers have the same text, and
the text of a third shows the exponent of the correction instead of the amount. -/
theorem C105_fails (cfg : Cfg) (realText : UInt32 → List Char) :
    (∃ d d' r r' text text', DataRecord.parse cfg false d = .ok r ∧ DataRecord.parse cfg false d' = .ok r' ∧
      recordDisplay realText r = recordDisplay realText r' ∧
      valueOutput r = ⟨"decimal".toList, some (.str text)⟩ ∧ Denotes text (5 / 1000) ∧
      valueOutput r' = ⟨"decimal".toList, some (.str text')⟩ ∧ Denotes text' (1005 / 1000)) ∧
    (∃ d r text, DataRecord.parse cfg false d = .ok r ∧
      recordDisplay realText r = "(5+-1)e-3[m³](Volume)".toList ∧
      valueOutput r = ⟨"decimal".toList, some (.str text)⟩ ∧ Denotes text (105 / 1000)) := by
  have key : ∀ (d : List UInt8) (t : List Char) (c : Option Int), (match DataRecord.parse cfg false d with
      | .ok r => r.data.value == some (.number (.int 5)) &&
        decide ('(' :: '5' :: ((r.header.processed.valueInfo.map ValueInfo.display).getD [')']) = t) &&
        (r.header.processed.dataInfo.map DataInfo.coding == some .integer8) &&
        (twosComplement r.dataBytes == 5) && (r.header.processed.valueInfo.map ValueInfo.scale == some (-3)) &&
        ((corrections (vifesOf r)).getLast? == c)
      | _ => false) = true → ∃ r text, DataRecord.parse cfg false d = .ok r ∧ recordDisplay realText r = t ∧
        valueOutput r = ⟨"decimal".toList, some (.str text)⟩ ∧ Denotes text (scaledValue 5 (-3) c) := by
    intro d t c h
    cases hp : DataRecord.parse cfg false d with
    | ok r =>
      rw [hp] at h
      simp only [Bool.and_eq_true, beq_iff_eq, decide_eq_true_eq] at h
      obtain ⟨⟨⟨⟨⟨h1, h2⟩, h3⟩, h4⟩, h5⟩, h6⟩ := h
      obtain ⟨di, hdi, hco⟩ := Option.map_eq_some_iff.mp h3
      obtain ⟨text, e1, e2, -⟩ := (C70_integers cfg false d r di 1 hp hdi (by rw [hco]; rfl)).2
      rw [h4, h5, h6] at e2
      refine ⟨r, text, rfl, ?_, e1, e2⟩
      rw [← h2]
      have h5 : f64Text realText (.int 5) = ['5'] := by
        have : ¬ ((5 : Int) < 0) := by decide
        unfold f64Text
        simp only [this, if_false]
        decide +kernel
      have : r.data.display realText = ['5'] := by
        unfold Data.display; rw [h1]; exact h5
      unfold recordDisplay
      rw [this]
      cases r.header.processed.valueInfo <;> rfl
    | err e => rw [hp] at h; cases h
    | panic => rw [hp] at h; cases h
  obtain ⟨r, x, h1, h2, h3, h4⟩ := key [0x01, 0x13, 0x05] "(5)e-3[m³](Volume)".toList none
    (by obtain ⟨oc, tf⟩ := cfg; cases oc <;> cases tf <;> decide +kernel)
  obtain ⟨r', x', h1', h2', h3', h4'⟩ := key [0x01, 0x93, 0x7B, 0x05] "(5)e-3[m³](Volume)".toList (some 0)
    (by obtain ⟨oc, tf⟩ := cfg; cases oc <;> cases tf <;> decide +kernel)
  obtain ⟨r'', x'', h1'', h2'', h3'', h4''⟩ :=
    key [0x01, 0x93, 0x7A, 0x05] "(5+-1)e-3[m³](Volume)".toList (some (-1))
      (by obtain ⟨oc, tf⟩ := cfg; cases oc <;> cases tf <;> decide +kernel)
  refine ⟨⟨_, _, r, r', x, x', h1, h1', h2.trans h2'.symm, h3, ?_, h3', ?_⟩, _, r'', x'', h1'', h2'', h3'', ?_⟩
  · convert h4 using 1; norm_num [scaledValue]
  · convert h4' using 1; norm_num [scaledValue]
  · convert h4'' using 1; norm_num [scaledValue]

end MBus
