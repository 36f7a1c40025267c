import Verif.Lemmas.XmlValue
import Verif.Lemmas.Xml
import Verif.Spec.Units
/-!
# C19, C49, C50, C73, C74: the values shown in the XML output
-/
namespace MBus
open MBus.Spec MBus.Spec.Xml MBus.Xml

/-! ## C19 -/

/-- The storage number, tariff and device shown in the XML output are those of EN 13757-3. -/
theorem C19_xml_numbers (env : XmlEnv) (r : DataRecord) (n : NormalizedRecord)
    (hn : normalizeRecord env r = some n) :
    n.storageNumber = Spec.storageNumber r.header.raw.dib.dif (r.header.raw.dib.difes.getD []) ∧
    n.device = subunitNumber (r.header.raw.dib.difes.getD []) ∧
    n.tariff = if r.header.raw.dib.difes.getD [] = [] then none
      else some (tariffNumber (r.header.raw.dib.difes.getD [])) := by
  have e : ∀ l : List UInt8, (if l.isEmpty then none else some (Xml.tariff l)) =
      if l = [] then none else some (tariffNumber l) := by
    intro l
    rw [tariff_eq]
    cases l <;> rfl
  unfold normalizeRecord at hn
  simp only [storageNumber_eq, device_eq, e] at hn
  split at hn
  · cases hn; exact ⟨rfl, rfl, rfl⟩
  · simp only [bind, Option.bind_eq_some_iff, Option.some.injEq] at hn
    obtain ⟨_, _, _, _, _, _, hn⟩ := hn
    cases hn
    exact ⟨rfl, rfl, rfl⟩

/-- C19, what holds of the statement: for every parsed record the library and the XML output agree on
device and tariff, and they agree on the storage number exactly when no DIFE has a storage bit.
Missing: the storage number of all other records, see `C19_fails`. -/
theorem C19_agree_partial (cfg : Cfg) (lsb : Bool) (env : XmlEnv) (data : List UInt8) (r : DataRecord)
    (n : NormalizedRecord) (h : DataRecord.parse cfg lsb data = .ok r)
    (hn : normalizeRecord env r = some n) :
    ∃ d, r.header.processed.dataInfo = some d ∧ n.device = d.device ∧ n.tariff.getD 0 = d.tariff ∧
      (n.storageNumber = d.storageNumber ↔ storageBits (r.header.raw.dib.difes.getD []) = 0) := by
  obtain ⟨h1, h2, h3⟩ := C19_xml_numbers env r n hn
  obtain ⟨hd, -⟩ := (record_ok _ _ _ _).mp h
  obtain ⟨hraw, hproc⟩ := recordHeader_ok _ _ _ hd
  obtain ⟨_, _, hdib, _⟩ := rawHeader_ok _ _ _ hraw
  have key : ∃ d0 d, DataInfo.tryFrom r.header.raw.dib = .ok d0 ∧
      r.header.processed.dataInfo = some d ∧ d.storageNumber = d0.storageNumber ∧
      d.tariff = d0.tariff ∧ d.device = d0.device := by
    have h11 : (r.header.raw.dib.difes.getD []).length ≤ 11 := by
      rcases (dib_ok _ _).mp hdib with ⟨_, _, _, _, hb⟩ | ⟨_, _, _, _, _, _, hl, hb⟩
      · rw [hb]; simp
      · rw [hb]; simpa using hl
    obtain ⟨d0, hd0, _⟩ := dataInfo_ok r.header.raw.dib h11
    unfold ProcessedHeader.tryFrom at hproc
    rw [hd0] at hproc
    cases hv : r.header.raw.vib with
    | none =>
      rw [hv] at hproc
      split at hproc
      · simp at *
      · simp only [Res.mapErr_ok, Res.bind_ok] at hproc
        split at hproc
        · simp only [Res.ok.injEq] at hproc
          exact ⟨d0, d0, hd0, by rw [← hproc], rfl, rfl, rfl⟩
        · obtain ⟨d, hd⟩ := processed_isSome _ _ _ hd
          simp only [Res.ok.injEq] at hproc
          rw [← hproc] at hd
          cases hd
    | some v =>
      rw [hv] at hproc
      simp only [Res.mapErr_ok, Res.bind_ok, Res.bind_eq_ok, Res.ok.injEq] at hproc
      obtain ⟨vi, _, hproc⟩ := hproc
      exact ⟨d0, { d0 with coding := dateCoding vi.labels d0.coding }, hd0, by rw [← hproc],
        rfl, rfl, rfl⟩
  obtain ⟨d0, d, hd0, hdd, e1, e2, e3⟩ := key
  obtain ⟨ht, hv⟩ := C18_tariff_and_subunit data _ d0 hdib hd0
  have hs := C17_storage_number_partial data _ d0 hdib hd0
  refine ⟨d, hdd, by rw [h2, e3, hv], ?_, by rw [h1, e1, eq_comm, hs]⟩
  rw [h3, e2, ht]
  split
  · rename_i hl; rw [hl]; rfl
  · rfl

/-- C19 is false of the code: the record 84 01 06 … has storage number 2 in the XML output and 32 in the
library. -/
theorem C19_fails (cfg : Cfg) (env : XmlEnv) : ∃ data r n d, DataRecord.parse cfg false data = .ok r ∧
    normalizeRecord env r = some n ∧ r.header.processed.dataInfo = some d ∧
    n.storageNumber = 2 ∧ d.storageNumber = 32 := by
  have key : ∃ r, DataRecord.parse cfg false [0x84, 0x01, 0x06, 1, 0, 0, 0] = .ok r ∧
      r.header.raw = ⟨⟨0x84, some [0x01]⟩, some ⟨0x06, none, none⟩⟩ ∧ r.dataBytes = [1, 0, 0, 0] := by
    have h0 : ∀ data, (DataRecord.parse cfg false data).toOption.any (fun r =>
        decide (r.header.raw = ⟨⟨0x84, some [0x01]⟩, some ⟨0x06, none, none⟩⟩ ∧
          r.dataBytes = [1, 0, 0, 0])) = true →
        ∃ r, DataRecord.parse cfg false data = .ok r ∧
          r.header.raw = ⟨⟨0x84, some [0x01]⟩, some ⟨0x06, none, none⟩⟩ ∧ r.dataBytes = [1, 0, 0, 0] := by
      intro data h
      cases hp : DataRecord.parse cfg false data with
      | ok r => rw [hp] at h; exact ⟨r, rfl, by simpa [Res.toOption] using h⟩
      | err e => rw [hp] at h; simp [Res.toOption] at h
      | panic => rw [hp] at h; simp [Res.toOption] at h
    apply h0
    obtain ⟨oc, tf⟩ := cfg
    cases oc <;> cases tf <;> decide +kernel
  obtain ⟨r, hr, hraw, hd⟩ := key
  obtain ⟨_, _, _, _, _, hb⟩ := dataBytes_eq _ _ _ _ hr
  have hn : ∃ n, normalizeRecord env r = some n := by
    unfold normalizeRecord
    rw [hraw, hb, hd]
    exact ⟨_, rfl⟩
  obtain ⟨n, hn⟩ := hn
  obtain ⟨d, hdi, _, _, _⟩ := C19_agree_partial cfg false env _ r n hr hn
  obtain ⟨h1, _, _⟩ := C19_xml_numbers env r n hn
  refine ⟨_, r, n, d, hr, hn, hdi, ?_, ?_⟩
  · rw [h1, hraw]; decide
  · have h0 : ∀ data r, DataRecord.parse cfg false data = .ok r →
        (DataRecord.parse cfg false data).toOption.any (fun r =>
          r.header.processed.dataInfo.any (fun d => d.storageNumber == 32)) = true →
        r.header.processed.dataInfo = some d → d.storageNumber = 32 := by
      intro data r h1 h2 h3
      rw [h1] at h2
      simpa [Res.toOption, h3] using h2
    refine h0 _ r hr ?_ hdi
    obtain ⟨oc, tf⟩ := cfg
    cases oc <;> cases tf <;> decide +kernel

/-! ## C49 -/

/-- C49: reading the encoded text back gives the input, with control characters replaced by blanks. -/
theorem C49_reversible (text : List Char) : unescape (xmlEncode text) = some (blanked text) :=
  unescape_encode text

/-- C49: texts without control characters are recovered exactly, so different such texts are encoded
differently. -/
theorem C49_round_trip (text : List Char) (h : ∀ c ∈ text, ¬ isControl c) :
    unescape (xmlEncode text) = some text := by
  rw [unescape_encode, blanked]
  congr 1
  conv_rhs => rw [← List.map_id text]
  apply List.map_congr_left
  intro c hc
  simp [h c hc]

/-- C49: no markup character, quote or control character is left. -/
theorem C49_no_markup (text : List Char) (c : Char) (h : c ∈ xmlEncode text) :
    c ≠ '<' ∧ c ≠ '>' ∧ c ≠ '"' ∧ ¬ isControl c := encode_safe text c h

/-- C49: every `&` of the encoded text starts one of the four entities. -/
theorem C49_ampersand (text before after : List Char) (h : xmlEncode text = before ++ '&' :: after) :
    ∃ name c rest, (name, c) ∈ entities ∧ after = name ++ ';' :: rest := by
  induction text generalizing before with
  | nil => simp [xmlEncode] at h
  | cons c t ih =>
    rw [encode_cons, encode_char] at h
    have hcase : ∀ name : List Char, ∀ d, (name, d) ∈ entities → '&' ∉ name →
        '&' :: name ++ [';'] ++ xmlEncode t = before ++ '&' :: after →
        ∃ name c rest, (name, c) ∈ entities ∧ after = name ++ ';' :: rest := by
      intro name d hm hna h
      rw [List.append_assoc, List.append_eq_append_iff] at h
      rcases h with ⟨a', h1, h2⟩ | ⟨c', h1, h2⟩
      · -- `before` continues past the name
        cases a' with
        | nil =>
          simp only [List.nil_append, List.cons_append, List.cons.injEq] at h2
          exact absurd h2.1 (by decide)
        | cons x a' =>
          simp only [List.nil_append, List.cons_append, List.cons.injEq] at h2
          exact ih a' h2.2
      · cases before with
        | nil =>
          simp only [List.nil_append, List.cons_append] at h1 h2
          subst h1
          simp only [List.cons_append, List.cons.injEq, true_and] at h2
          exact ⟨name, d, _, hm, h2⟩
        | cons x b =>
          cases c' with
          | nil => simp at h2
          | cons y c' =>
            simp only [List.cons_append, List.cons.injEq] at h1 h2
            exact absurd (by rw [h1.2, ← h2.1]; simp) hna
    have hplain : ∀ d : Char, d ≠ '&' → [d] ++ xmlEncode t = before ++ '&' :: after →
        ∃ name c rest, (name, c) ∈ entities ∧ after = name ++ ';' :: rest := by
      intro d hd h
      cases before with
      | nil => simp at h; exact absurd h.1 hd
      | cons x b =>
        simp only [List.cons_append, List.nil_append, List.cons.injEq] at h
        exact ih b h.2
    split at h
    · exact hplain ' ' (by decide) h
    · split at h
      · exact hcase ['a', 'm', 'p'] '&' (by decide) (by decide) h
      · split at h
        · exact hcase ['l', 't'] '<' (by decide) (by decide) h
        · split at h
          · exact hcase ['g', 't'] '>' (by decide) (by decide) h
          · split at h
            · exact hcase ['q', 'u', 'o', 't'] '"' (by decide) (by decide) h
            · rename_i hc _ _ _
              exact hplain c hc h

example : xmlEncode "a<b & \"c\"\n".toList = "a&lt;b &amp; &quot;c&quot; ".toList ∧
    unescape "a&lt;b &amp; &quot;c&quot; ".toList = some "a<b & \"c\" ".toList ∧
    unescape "a & b".toList = none := by decide +kernel

/-! ## C50 -/

/-- C50, what holds of the statement: if the library finds a number in a record (not of variable length)
and the XML output does not take the data for a date, both have the same number, before scaling.
Missing: records of a reply in reversed byte order (`lsb`), where the XML output reads BCD numbers
backwards (`C50_byte_order_fails`), and data the XML output takes for dates (`C50_kind_fails`). -/
theorem C50_number_partial (cfg : Cfg) (env : XmlEnv) (data : List UInt8) (r : DataRecord)
    (n : NormalizedRecord) (v : F64) (h : DataRecord.parse cfg false data = .ok r)
    (hn : normalizeRecord env r = some n) (hv : r.data.value = some (.number v))
    (hl : r.header.raw.dib.dif.toNat % 16 ≠ 13)
    (hd : ∀ vib, r.header.raw.vib = some vib →
      ¬ showsDate r.header.raw.dib.dif vib.vif (vib.vifes.getD []).head?) :
    ∃ x, n.value = .real x ∧ x.raw = v := by
  obtain ⟨rest, vib, hvib, h15, hp, hb, hs⟩ := number_coding cfg false data r v h hv
  obtain ⟨value, u, f, q, h1, h2, rfl⟩ := (normalize_parts env r n vib _ hvib h15 hs).1 hn
  rw [hb, decode_number cfg env _ _ _ rest r.data v (hd vib hvib) hl hp hv] at h1
  injection h1 with h1
  subst h1
  exact ⟨⟨v, f, _⟩, rfl, rfl⟩

/-- C50, the same from the other side: when the XML output shows a number and the library finds a
number, it is the same number, before scaling. -/
theorem C50_shown_number_partial (cfg : Cfg) (env : XmlEnv) (data : List UInt8) (r : DataRecord)
    (n : NormalizedRecord) (x : XmlReal) (v : F64) (h : DataRecord.parse cfg false data = .ok r)
    (hn : normalizeRecord env r = some n) (hx : n.value = .real x)
    (hv : r.data.value = some (.number v)) : x.raw = v := by
  obtain ⟨rest, vib, hvib, h15, hp, hb, hs⟩ := number_coding cfg false data r v h hv
  have hparts := (normalize_parts env r n vib _ hvib h15 hs).1 hn
  by_cases hl : r.header.raw.dib.dif.toNat % 16 = 13
  · obtain ⟨value, u, f, q, h1, h2, rfl⟩ := hparts
    cases value with
    | real y => exact absurd h1 (decode_lvar env _ _ _ _ hl y)
    | str t => cases hx
  · by_cases hd : showsDate r.header.raw.dib.dif vib.vif (vib.vifes.getD []).head?
    · obtain ⟨value, u, f, q, h1, h2, rfl⟩ := hparts
      cases value with
      | real y => exact absurd h1 (decode_date env _ _ _ _ hd y)
      | str t => cases hx
    · obtain ⟨y, hy, rfl⟩ := C50_number_partial cfg env data r n v h hn hv hl (fun vib' hv' => by
        rw [hvib] at hv'; cases hv'; exact hd)
      rw [hx] at hy; cases hy; rfl

/-- A parsed record with the given header, data bytes and value, found by evaluating the parser. -/
def recordIs (cfg : Cfg) (lsb : Bool) (data : List UInt8) (raw : RawHeader) (bytes : List UInt8)
    (value : Option DataType) : Bool :=
  (DataRecord.parse cfg lsb data).toOption.any (fun r =>
    decide (r.header.raw = raw ∧ r.dataBytes = bytes ∧ r.data.value = value))

theorem recordIs_ok {cfg : Cfg} {lsb : Bool} {data : List UInt8} {raw : RawHeader} {bytes : List UInt8}
    {value : Option DataType} (h : recordIs cfg lsb data raw bytes value = true) :
    ∃ r, DataRecord.parse cfg lsb data = .ok r ∧ r.header.raw = raw ∧
      sliceFrom? r.rawBytes r.header.size = some bytes ∧ r.data.value = value := by
  unfold recordIs at h
  cases hp : DataRecord.parse cfg lsb data with
  | ok r =>
    rw [hp] at h
    obtain ⟨_, _, _, _, _, hb⟩ := dataBytes_eq _ _ _ _ hp
    have h' : r.header.raw = raw ∧ r.dataBytes = bytes ∧ r.data.value = value := by
      simpa [Res.toOption] using h
    exact ⟨r, rfl, h'.1, by rw [hb, h'.2.1], h'.2.2⟩
  | err e => rw [hp] at h; simp [Res.toOption] at h
  | panic => rw [hp] at h; simp [Res.toOption] at h

/-- C50 is false for replies in reversed byte order: the library reads the BCD number 12 34 as 1234,
the XML output as 3412. -/
theorem C50_byte_order_fails (cfg : Cfg) (env : XmlEnv) : ∃ data r n x,
    DataRecord.parse cfg true data = .ok r ∧ normalizeRecord env r = some n ∧
    r.data.value = some (.number (.int 1234)) ∧ n.value = .real x ∧ x.raw = .int 3412 := by
  have h : recordIs cfg true [0x0A, 0x13, 0x12, 0x34] ⟨⟨0x0A, none⟩, some ⟨0x13, none, none⟩⟩
      [0x12, 0x34] (some (.number (.int 1234))) = true := by
    obtain ⟨oc, tf⟩ := cfg
    cases oc <;> cases tf <;> decide +kernel
  obtain ⟨r, h1, h2, h3, h4⟩ := recordIs_ok h
  have hv : r.header.raw.vib = some ⟨0x13, none, none⟩ := by rw [h2]
  refine ⟨_, r, _, ⟨.int 3412, ⟨1, -3⟩, .none⟩, h1,
    (normalize_parts env r _ _ _ hv (by rw [h2]; decide) h3).2
      ⟨.real (.int 3412), "m^3".toList, ⟨1, -3⟩, "Volume".toList, ?_, by decide +kernel, rfl⟩, h4, rfl, rfl⟩
  rw [h2]
  have : bcdDecode [0x12, 0x34] = .int 3412 := by decide +kernel
  rw [← this]
  rfl

/-- C50: the XML output shows a date where the library finds a number: the record 04 FD 30 with data
00 00 21 11 is the number 287375360 in the library. -/
theorem C50_kind_fails (cfg : Cfg) (env : XmlEnv) : ∃ data r n,
    DataRecord.parse cfg false data = .ok r ∧ normalizeRecord env r = some n ∧
    r.data.value = some (.number (.int 287375360)) ∧
    n.value = .str "2009-01-01T00:00:00Z".toList := by
  have h : recordIs cfg false [0x04, 0xFD, 0x30, 0, 0, 0x21, 0x11]
      ⟨⟨0x04, none⟩, some ⟨0xFD, some [0x30], none⟩⟩
      [0, 0, 0x21, 0x11] (some (.number (.int 287375360))) = true := by
    obtain ⟨oc, tf⟩ := cfg
    cases oc <;> cases tf <;> decide +kernel
  obtain ⟨r, h1, h2, h3, h4⟩ := recordIs_ok h
  have hv : r.header.raw.vib = some ⟨0xFD, some [0x30], none⟩ := by rw [h2]
  have hu : ∃ x, vibUnit 0xFD [0x30] none = some x := by
    have : (vibUnit 0xFD [0x30] none).isSome = true := by decide +kernel
    exact Option.isSome_iff_exists.1 this
  obtain ⟨⟨u, f, q⟩, hu⟩ := hu
  refine ⟨_, r, _, h1,
    (normalize_parts env r _ _ _ hv (by rw [h2]; decide) h3).2
      ⟨.str "2009-01-01T00:00:00Z".toList, u, f, q, ?_, hu, rfl⟩, h4, rfl⟩
  rw [h2]
  have : dateFDecode 0 0 0x21 0x11 = "2009-01-01T00:00:00Z".toList := by decide +kernel
  rw [← this]
  rfl

/-- The hypotheses of `C50_number_partial` are met by 32-bit, BCD and real records. -/
example (cfg : Cfg) :
    recordIs cfg false [0x04, 0x13, 0x2A, 0, 0, 0] ⟨⟨0x04, none⟩, some ⟨0x13, none, none⟩⟩
      [0x2A, 0, 0, 0] (some (.number (.int 42))) = true ∧
    recordIs cfg false [0x0A, 0x13, 0x12, 0x34] ⟨⟨0x0A, none⟩, some ⟨0x13, none, none⟩⟩
      [0x12, 0x34] (some (.number (.int 3412))) = true ∧
    ¬ showsDate 0x04 0x13 none ∧ ¬ showsDate 0x0A 0x13 none := by
  refine ⟨?_, ?_, by simp [showsDate], by simp [showsDate]⟩ <;>
  · obtain ⟨oc, tf⟩ := cfg
    cases oc <;> cases tf <;> decide +kernel

/-! ## C73 -/

/-- C73: a type G date of the years 2000 to 2127 is shown as the date that was encoded. -/
theorem C73_date (env : XmlEnv) (r : DataRecord) (n : NormalizedRecord) (vib : VIB)
    (y month day : Nat) (hy : y < 128) (hm : month < 16) (hd : day < 32)
    (hv : r.header.raw.vib = some vib) (hdif : r.header.raw.dib.dif.toNat % 16 = 2)
    (hvif : vib.vif.toNat % 128 = 0x6C)
    (hb : sliceFrom? r.rawBytes r.header.size = some (encodeDateG day month y))
    (hn : normalizeRecord env r = some n) : n.value = .str (isoDate (2000 + y) month day) := by
  obtain ⟨value, u, f, q, h1, h2, rfl⟩ := (normalize_parts env r n vib _ hv (by omega) hb).1 hn
  have e : variableValueDecode env r.header.raw.dib.dif vib.vif (vib.vifes.getD []).head?
      (encodeDateG day month y) = some (.str (isoDate (2000 + y) month day)) := by
    rw [nibble_nat] at hdif
    have h1 : r.header.raw.dib.dif &&& 0x0F = 2 := UInt8.toNat_inj.1 hdif
    unfold variableValueDecode
    rw [h1]
    simp (config := { decide := true }) only [if_true, if_false]
    rw [if_pos (by rw [low7 _ _ (by decide)]; exact hvif)]
    exact congrArg (fun t => some (DecodedValue.str t)) (dateG_encode y month day hy hm hd)
  rw [e] at h1
  injection h1 with h1
  subst h1
  rfl

/-- C73: a type F date and time is shown as encoded; if it is marked invalid, as 1900-01-00. -/
theorem C73_date_time (env : XmlEnv) (r : DataRecord) (n : NormalizedRecord) (vib : VIB) (invalid : Bool)
    (y month day hour minute : Nat) (hy : y < 128) (hm : month < 16) (hd : day < 32) (hh : hour < 32)
    (hmi : minute < 64) (hv : r.header.raw.vib = some vib)
    (hdif : r.header.raw.dib.dif.toNat % 16 = 4)
    (hvif : showsDate r.header.raw.dib.dif vib.vif (vib.vifes.getD []).head?)
    (hb : sliceFrom? r.rawBytes r.header.size = some (encodeDateF invalid y month day hour minute))
    (hn : normalizeRecord env r = some n) :
    n.value = .str (if invalid then "1900-01-00T00:00:00Z".toList
      else isoDate (2000 + y) month day ++ ['T'] ++ isoTime hour minute 0 ++ ['Z']) := by
  obtain ⟨value, u, f, q, h1, h2, rfl⟩ := (normalize_parts env r n vib _ hv (by omega) hb).1 hn
  have e : variableValueDecode env r.header.raw.dib.dif vib.vif (vib.vifes.getD []).head?
      (encodeDateF invalid y month day hour minute) =
      some (.str (if invalid then "1900-01-00T00:00:00Z".toList
      else isoDate (2000 + y) month day ++ ['T'] ++ isoTime hour minute 0 ++ ['Z'])) := by
    unfold showsDate at hvif
    rw [← dateTime_iff, hdif] at hvif
    simp (config := { decide := true }) only [false_and, false_or, true_or, true_and] at hvif
    rw [nibble_nat] at hdif
    have h1 : r.header.raw.dib.dif &&& 0x0F = 4 := UInt8.toNat_inj.1 hdif
    unfold variableValueDecode
    rw [h1]
    simp (config := { decide := true }) only [if_true, if_false]
    rw [if_pos hvif]
    exact congrArg (fun t => some (DecodedValue.str t))
      (dateF_encode invalid y month day hour minute hy hm hd hh hmi)
  rw [e] at h1
  injection h1 with h1
  subst h1
  rfl

/-- C73: a type I date and time is shown as encoded; if it is marked invalid, as 1900-01-00. -/
theorem C73_date_time_seconds (env : XmlEnv) (r : DataRecord) (n : NormalizedRecord) (vib : VIB)
    (invalid : Bool) (y month day hour minute second : Nat) (week : UInt8) (hy : y < 128) (hm : month < 16)
    (hd : day < 32) (hh : hour < 32) (hmi : minute < 64) (hs : second < 64)
    (hv : r.header.raw.vib = some vib) (hdif : r.header.raw.dib.dif.toNat % 16 = 6)
    (hvif : showsDate r.header.raw.dib.dif vib.vif (vib.vifes.getD []).head?)
    (hb : sliceFrom? r.rawBytes r.header.size =
      some (encodeDateI invalid y month day hour minute second week))
    (hn : normalizeRecord env r = some n) :
    n.value = .str (if invalid then "1900-01-00T00:00:00Z".toList
      else isoDate (2000 + y) month day ++ ['T'] ++ isoTime hour minute second ++ ['Z']) := by
  obtain ⟨value, u, f, q, h1, h2, rfl⟩ := (normalize_parts env r n vib _ hv (by omega) hb).1 hn
  have e : variableValueDecode env r.header.raw.dib.dif vib.vif (vib.vifes.getD []).head?
      (encodeDateI invalid y month day hour minute second week) =
      some (.str (if invalid then "1900-01-00T00:00:00Z".toList
      else isoDate (2000 + y) month day ++ ['T'] ++ isoTime hour minute second ++ ['Z'])) := by
    unfold showsDate at hvif
    rw [← dateTime_iff, hdif] at hvif
    simp (config := { decide := true }) only [false_and, false_or, or_true, true_and] at hvif
    rw [nibble_nat] at hdif
    have h1 : r.header.raw.dib.dif &&& 0x0F = 6 := UInt8.toNat_inj.1 hdif
    unfold variableValueDecode
    rw [h1]
    simp (config := { decide := true }) only [if_true, if_false]
    rw [if_pos hvif]
    exact congrArg (fun t => some (DecodedValue.str t))
      (dateI_encode invalid y month day hour minute second hy hm hd hh hmi hs)
  rw [e] at h1
  injection h1 with h1
  subst h1
  rfl

/-- The XML output and the library disagree on the year of a date with time: the record 04 6D 0F 0C 23
27 is 2017-07-03 in the XML output, the library takes the year from the minute and hour. -/
theorem C73_library_year_fails (cfg : Cfg) (env : XmlEnv) : ∃ data r n,
    DataRecord.parse cfg false data = .ok r ∧ normalizeRecord env r = some n ∧
    n.value = .str "2017-07-03T12:15:00Z".toList ∧
    r.data.value = some (.dateTime (.single 3) (.single .july) (.single 0) (.single 12) (.single 15)) := by
  have h : recordIs cfg false [0x04, 0x6D, 0x0F, 0x0C, 0x23, 0x27]
      ⟨⟨0x04, none⟩, some ⟨0x6D, none, none⟩⟩ [0x0F, 0x0C, 0x23, 0x27]
      (some (.dateTime (.single 3) (.single .july) (.single 0) (.single 12) (.single 15))) = true := by
    obtain ⟨oc, tf⟩ := cfg
    cases oc <;> cases tf <;> decide +kernel
  obtain ⟨r, h1, h2, h3, h4⟩ := recordIs_ok h
  have hv : r.header.raw.vib = some ⟨0x6D, none, none⟩ := by rw [h2]
  have hu : ∃ x, vibUnit 0x6D [] none = some x := by
    have : (vibUnit 0x6D [] none).isSome = true := by decide +kernel
    exact Option.isSome_iff_exists.1 this
  obtain ⟨⟨u, f, q⟩, hu⟩ := hu
  refine ⟨_, r, _, h1,
    (normalize_parts env r _ _ _ hv (by rw [h2]; decide) h3).2
      ⟨.str "2017-07-03T12:15:00Z".toList, u, f, q, ?_, hu, rfl⟩, rfl, h4⟩
  rw [h2]
  have : dateFDecode 0x0F 0x0C 0x23 0x27 = "2017-07-03T12:15:00Z".toList := by decide +kernel
  rw [← this]
  rfl

/-- The hypotheses of the C73 theorems are met. -/
example : encodeDateF false 17 7 3 12 15 = [0x0F, 0x0C, 0x23, 0x27] ∧
    encodeDateG 31 5 19 = [0x7F, 0x25] ∧ encodeDateI true 17 7 3 12 15 59 0 = [59, 0x8F, 12, 0x23, 0x27, 0] ∧
    showsDate 0x04 0x6D none ∧ showsDate 0x46 0xED (some 0x70) ∧ ¬ showsDate 0x04 0x6C none := by
  refine ⟨by decide, by decide, by decide, ?_, ?_, ?_⟩ <;> simp [showsDate]

end MBus
