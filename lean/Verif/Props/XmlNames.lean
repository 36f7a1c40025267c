import Verif.Lemmas.Utf8Lossy
import Verif.Props.XmlUnits
import Verif.Props.Xml
import Verif.Spec.ValueInfo
import Verif.Spec.Hex
/-!
# C80, C81, C82: names, texts and units of the XML output against the standard
-/
namespace MBus
open MBus.Spec MBus.Xml

/-! ## C80 -/

/-- The quantity a code of one of the standard's tables stands for. -/
def standardUnit (rows : List Row) (code : Nat) : Option Quantity :=
  (meaning rows code).bind (fun e => if e.units = [] then none else libraryQuantity e.scale e.units)

/-- What the XML output knows of the unit of a code is what the standard says. -/
def MatchesStandard (rows : List Row) (code : Nat) (vif : UInt8) (vifes : List UInt8) : Prop :=
  match standardUnit rows code, xmlUnitOf vif vifes with
  | some a, some b => a.factor = b.factor ∧ ∀ x, a.dim x = b.dim x
  | none, none => True
  | _, _ => False

def matchesStandard (rows : List Row) (code : Nat) (vif : UInt8) (vifes : List UInt8) : Bool :=
  match standardUnit rows code, xmlUnitOf vif vifes with
  | some a, some b => a.same b
  | none, none => true
  | _, _ => false

theorem matchesStandard_iff (rows : List Row) (code : Nat) (vif : UInt8) (vifes : List UInt8) :
    matchesStandard rows code vif vifes = true ↔ MatchesStandard rows code vif vifes := by
  have hall : ∀ x : Base, x ∈ Base.all := by intro x; cases x <;> decide
  unfold matchesStandard MatchesStandard
  cases standardUnit rows code with
  | none => cases xmlUnitOf vif vifes <;> simp
  | some a =>
    cases xmlUnitOf vif vifes with
    | none => simp
    | some b =>
      simp only [Quantity.same, Bool.and_eq_true, beq_iff_eq, List.all_eq_true]
      exact ⟨fun h => ⟨h.1, fun x => h.2 x (hall x)⟩, fun h => ⟨h.1, fun x _ => h.2 x⟩⟩

/-- C80: for every primary VIF, units and powers of ten are those of EN 13757-3. -/
theorem C80_primary (vif : UInt8) (h : vif.toNat < 0x7C) :
    MatchesStandard primaryRows vif.toNat vif [] := by
  have key : ∀ vif : UInt8, vif.toNat < 0x7C → matchesStandard primaryRows vif.toNat vif [] = true := by
    decide +kernel
  exact (matchesStandard_iff _ _ _ _).1 (key vif h)

/-- C80, what holds for the main extension (VIF FD): all codes but the transmission periods 3C to 3F and
the signal strength 71, which the XML output does not know. -/
theorem C80_main_partial (vife : UInt8) (h : vife.toNat < 0x80) :
    MatchesStandard mainRows vife.toNat 0xFD [vife] ↔ vife ∉ [0x3C, 0x3D, 0x3E, 0x3F, (0x71 : UInt8)] := by
  have key : ∀ vife : UInt8, vife.toNat < 0x80 → (matchesStandard mainRows vife.toNat 0xFD [vife] = true ↔
      vife ∉ [0x3C, 0x3D, 0x3E, 0x3F, (0x71 : UInt8)]) := by decide +kernel
  rw [← matchesStandard_iff]
  exact key vife h

/-- The codes of the alternate extension the XML output has no unit for: the energies of 02 to 05 and 0C
to 0F, the powers of 14 to 17 and 34 to 37, humidity, phase angles, frequencies and rating factors, and
08 and 09 (energy in GJ, shown with the unit "Reserved"). -/
def unknownAlternate : List UInt8 :=
  [0x02, 0x03, 0x04, 0x05, 0x08, 0x09, 0x0C, 0x0D, 0x0E, 0x0F, 0x14, 0x15, 0x16, 0x17, 0x1A, 0x1B, 0x20,
   0x2A, 0x2B, 0x2C, 0x2D, 0x2E, 0x2F, 0x34, 0x35, 0x36, 0x37, 0x68, 0x69, 0x6A, 0x6B, 0x6C, 0x6D, 0x6E]

/-- C80, what holds for the alternate extension (VIF FB): all codes but those without a unit in the XML
output, 22 to 26 (gallons, since dropped from the standard), 30, 31 (GJ/h, shown in J) and 79 (shown a
power of ten too small). -/
theorem C80_alternate_partial (vife : UInt8) (h : vife.toNat < 0x80) :
    MatchesStandard alternateRows vife.toNat 0xFB [vife] ↔
      vife ∉ [0x22, 0x23, 0x24, 0x25, 0x26, 0x30, 0x31, (0x79 : UInt8)] ++ unknownAlternate := by
  have key : ∀ vife : UInt8, vife.toNat < 0x80 →
    (matchesStandard alternateRows vife.toNat 0xFB [vife] = true ↔
      vife ∉ [0x22, 0x23, 0x24, 0x25, 0x26, 0x30, 0x31, (0x79 : UInt8)] ++ unknownAlternate) := by
    decide +kernel
  rw [← matchesStandard_iff]
  exact key vife h

/-- The XML output does not show a wrong unit for the codes it does not know: it shows none. -/
theorem C80_unknown : ∀ vife ∈ unknownAlternate, xmlUnitOf 0xFB [vife] = none := by
  intro vife hv
  have key : ∀ vife ∈ unknownAlternate, (xmlUnitOf 0xFB [vife]).isNone = true := by decide +kernel
  exact Option.isNone_iff_eq_none.1 (key vife hv)

/-- C80 is false of the code: the power FB 30 is shown in J, not J/h, and the maximum power FB 79 in mW
instead of 10 mW. -/
theorem C80_fails : vibUnit 0xFB [0x30] none = some (['J'], ⟨1, 8⟩, "Power".toList) ∧
    meaning alternateRows 0x30 = some { units := [⟨.joul, 1⟩, ⟨.hour, -1⟩], labels := [.power], scale := 8 } ∧
    vibUnit 0xFB [0x79] none = some (['W'], ⟨1, -3⟩, "Cumul count max power".toList) ∧
    (meaning alternateRows 0x79).map (·.scale) = some (-2) := by decide +kernel

/-- The name of the first quantity of a code in the standard's table. -/
def standardName (rows : List Row) (code : Nat) : Option (List Char) :=
  ((meaning rows code).bind (fun e => e.labels.head?.bind quantityName)).map String.toList

/-- C80: every primary VIF but the reserved 6F has the name of its quantity. -/
theorem C80_primary_name : ∀ vif : UInt8, vif.toNat < 0x7B → vif ≠ 0x6F →
    ∃ name, standardName primaryRows vif.toNat = some name ∧
      (vibUnit vif [] none).map (·.2.2) = some name := by
  have key : ∀ vif : UInt8, vif.toNat < 0x7B → vif ≠ 0x6F →
    (standardName primaryRows vif.toNat).any
      (fun name => decide ((vibUnit vif [] none).map (·.2.2) = some name)) = true := by decide +kernel
  intro vif h1 h2
  have := key vif h1 h2
  rw [Option.any_eq_true] at this
  obtain ⟨name, h3, h4⟩ := this
  exact ⟨name, h3, of_decide_eq_true h4⟩

/-- C80: the named quantities of the two extension tables, except FB 20 (a volume). -/
theorem C80_extension_name_partial : ∀ vife : UInt8, vife.toNat < 0x80 →
    (∀ name, standardName mainRows vife.toNat = some name →
      (vibUnit 0xFD [vife] none).map (·.2.2) = some name) ∧
    (∀ name, standardName alternateRows vife.toNat = some name →
      ((vibUnit 0xFB [vife] none).map (·.2.2) = some name ↔ vife ∉ [0x0C, 0x0D, 0x0E, 0x0F, (0x20 : UInt8)])) := by
  have key : ∀ vife : UInt8, vife.toNat < 0x80 →
    ((standardName mainRows vife.toNat).all
      (fun name => decide ((vibUnit 0xFD [vife] none).map (·.2.2) = some name)) = true ∧
    (standardName alternateRows vife.toNat).all
      (fun name => decide ((vibUnit 0xFB [vife] none).map (·.2.2) = some name ↔
        vife ∉ [0x0C, 0x0D, 0x0E, 0x0F, (0x20 : UInt8)])) = true) := by decide +kernel
  intro vife h
  obtain ⟨h1, h2⟩ := key vife h
  rw [Option.all_eq_true] at h1 h2
  exact ⟨fun name hn => of_decide_eq_true (h1 name hn), fun name hn => of_decide_eq_true (h2 name hn)⟩

/-- The extension bit of the code does not matter. -/
theorem C80_extension_bit (vif vife : UInt8) (rest : List UInt8) (plaintext : Option (List Char))
    (h : vif ≠ 0xFD ∧ vif ≠ 0xFB ∧ vif &&& 0x7F ≠ 0x7C ∧ vif &&& 0x7F ≠ 0x7D ∧ vif &&& 0x7F ≠ 0x7B) :
    vibUnit (vif ||| 0x80) rest plaintext = vibUnit (vif &&& 0x7F) [] plaintext ∧
    vibUnit 0xFD ((vife ||| 0x80) :: rest) plaintext = vibUnit 0xFD [vife &&& 0x7F] plaintext ∧
    vibUnit 0xFB ((vife ||| 0x80) :: rest) plaintext = vibUnit 0xFB [vife &&& 0x7F] plaintext := by
  have e1 : ∀ b : UInt8, (b ||| 0x80) &&& 0x7F = b &&& 0x7F ∧ b &&& 0x7F &&& 0x7F = b &&& 0x7F := by
    decide +kernel
  have e2 : ∀ b : UInt8, (b ≠ 0xFD ∧ b ≠ 0xFB ∧ b &&& 0x7F ≠ 0x7C ∧ b &&& 0x7F ≠ 0x7D ∧ b &&& 0x7F ≠ 0x7B) →
      b ||| 0x80 ≠ 0xFD ∧ b ||| 0x80 ≠ 0xFB ∧ ¬ (b ||| 0x80 = 0x7C ∨ b ||| 0x80 = 0xFC) ∧
      b &&& 0x7F ≠ 0xFD ∧ b &&& 0x7F ≠ 0xFB ∧ ¬ (b &&& 0x7F = 0x7C ∨ b &&& 0x7F = 0xFC) := by
    decide +kernel
  obtain ⟨a1, a2, a3, a4, a5, a6⟩ := e2 vif h
  unfold vibUnit
  refine ⟨?_, ?_, ?_⟩
  · rw [if_neg a1, if_neg a2, if_neg a3, if_neg a4, if_neg a5, if_neg a6, (e1 vif).1, (e1 vif).2]
  · simp only [if_true, (e1 vife).1, (e1 vife).2]
  · simp only [if_true, (e1 vife).1, (e1 vife).2]

/-! ## C81 -/

/-- C81: the function of a record. -/
theorem C81_function (env : XmlEnv) (r : DataRecord) (n : NormalizedRecord)
    (h : normalizeRecord env r = some n) :
    n.function = (if r.header.raw.dib.dif = 0x0F then "Manufacturer specific"
      else if r.header.raw.dib.dif = 0x1F then "More records follow"
      else functionNames[r.header.raw.dib.dif.toNat / 16 % 4]?.getD "").toList := by
  have key : ∀ b : UInt8, functionString b = functionNames[b.toNat / 16 % 4]?.getD "" := by decide +kernel
  unfold normalizeRecord at h
  simp only at h
  split at h
  · rename_i hd
    injection h with h
    rw [← h]
    rcases hd with hd | hd <;> rw [hd] <;> rfl
  · rename_i hd
    rw [if_neg (fun e => hd (Or.inl e)), if_neg (fun e => hd (Or.inr e)), ← key]
    simp only [bind, Option.bind_eq_some_iff, Option.some.injEq] at h
    obtain ⟨_, _, _, _, _, _, h⟩ := h
    rw [← h]

/-- C81: the data of a manufacturer specific record, and of other variable length data than text, are
shown as hexadecimal bytes. -/
def hexBytes (bytes : List UInt8) : List Char := [' '].intercalate (bytes.map (hexPair true))

theorem binDecode_eq (bytes : List UInt8) : binDecode bytes = hexBytes bytes := by
  have key : ∀ b : UInt8, hex2 b = hexPair true b := by decide +kernel
  unfold binDecode hexBytes
  congr 1
  exact List.map_congr_left (fun b _ => key b)

theorem C81_manufacturer_data (cfg : Cfg) (env : XmlEnv) (lsb : Bool) (data : List UInt8) (r : DataRecord)
    (n : NormalizedRecord) (h : DataRecord.parse cfg lsb data = .ok r) (hn : normalizeRecord env r = some n)
    (hd : r.header.raw.dib.dif = 0x0F ∨ r.header.raw.dib.dif = 0x1F) :
    n.unit = [] ∧ n.quantity = [] ∧ n.value = .str (hexBytes r.dataBytes) := by
  obtain ⟨_, _, _, _, _, hs⟩ := dataBytes_eq _ _ _ _ h
  unfold normalizeRecord at hn
  simp only [if_pos hd, hs, Option.getD_some, Option.some.injEq] at hn
  rw [← hn, binDecode_eq]
  exact ⟨rfl, rfl, rfl⟩

/-- C81: variable length data: with an LVAR byte below C0 they are a text, shown in reading order;
otherwise they are shown as hexadecimal bytes. -/
theorem C81_text (cfg : Cfg) (env : XmlEnv) (lsb : Bool) (data : List UInt8) (r : DataRecord)
    (n : NormalizedRecord) (h : DataRecord.parse cfg lsb data = .ok r) (hn : normalizeRecord env r = some n)
    (hd : r.header.raw.dib.dif.toNat % 16 = 13) (b : UInt8) (bytes : List UInt8)
    (hb : r.dataBytes = b :: bytes) :
    n.value = .str (if b.toNat < 0xC0 then env.lossy bytes.reverse else hexBytes bytes) := by
  obtain ⟨_, _, _, _, _, hs⟩ := dataBytes_eq _ _ _ _ h
  obtain ⟨hhead, -⟩ := (record_ok _ _ _ _).mp h
  obtain ⟨hraw, -⟩ := recordHeader_ok _ _ _ hhead
  obtain ⟨_, hvib, -⟩ := rawHeader_ok _ _ _ hraw
  cases hv : r.header.raw.vib with
  | none => have := hvib.1 hv; omega
  | some vib =>
    obtain ⟨value, u, f, q, h1, h2, rfl⟩ := (normalize_parts env r n vib _ hv (by omega) hs).1 hn
    have h13 : r.header.raw.dib.dif &&& 0x0F = 13 := UInt8.toNat_inj.1 (by rw [nibble_nat] at hd; exact hd)
    unfold variableValueDecode at h1
    rw [h13, hb] at h1
    simp (config := { decide := true }) only [if_true, if_false] at h1
    by_cases hlt : b.toNat < 0xC0
    · have : b ≤ 0xBF := by rw [UInt8.le_iff_toNat_le]; exact Nat.lt_succ_iff.1 hlt
      rw [if_pos this] at h1
      cases h1
      rw [if_pos hlt]
      rfl
    · have : ¬ b ≤ 0xBF := by rw [UInt8.le_iff_toNat_le]; intro hc; exact hlt (Nat.lt_succ_iff.2 hc)
      rw [if_neg this] at h1
      cases h1
      rw [if_neg hlt, ← binDecode_eq]
      rfl

/-- C81: the text shown is made of the bytes of the library's text value. -/
theorem C81_library_text (cfg : Cfg) (env : XmlEnv) (lsb : Bool) (data : List UInt8) (r : DataRecord)
    (n : NormalizedRecord) (t : List UInt8) (h : DataRecord.parse cfg lsb data = .ok r)
    (hn : normalizeRecord env r = some n) (hd : r.header.raw.dib.dif.toNat % 16 = 13)
    (ht : r.data.value = some (.text t)) : n.value = .str (env.lossy t.reverse) := by
  obtain ⟨rest, vib, hvib, h15, hp, hb, hs⟩ := value_coding cfg lsb data r h (Or.inr ⟨t, ht⟩)
  have hc : ∀ b : UInt8, b.toNat % 16 = 13 → codingOf b = .variableLength := by decide +kernel
  rw [hc _ hd] at hp
  cases rest with
  | nil => simp [Coding.parse, parseVariableLength, Res.ofOption, Bind.bind, Res.bind] at hp
  | cons b rest =>
    obtain ⟨kind, k, hk, hsz, hle⟩ := C31_consumed cfg lsb b rest _ hp
    rw [hsz] at hb
    have hb' : r.dataBytes = b :: rest.take k := by rw [hb]; rfl
    have hlt : b.toNat < 0xC0 ∧ t = rest.take k := by
      cases kind with
      | text =>
        rw [C31_text cfg lsb b rest k hk hle] at hp
        injection hp with hp
        rw [← hp] at ht
        cases ht
        refine ⟨?_, rfl⟩
        unfold lvar at hk
        simp only at hk
        split at hk
        · assumption
        · split_ifs at hk <;> simp at hk
      | positiveBcd =>
        exfalso
        by_cases hbcd : ∀ x ∈ rest.take k, IsBcd x
        · obtain ⟨v, hv, -⟩ := (C31_bcd cfg lsb false b rest k (by simpa using hk) hle).2 hbcd
          rw [hv] at hp; injection hp with hp; rw [← hp] at ht; simp at ht
        · rw [(C31_bcd cfg lsb false b rest k (by simpa using hk) hle).1 hbcd] at hp; cases hp
      | negativeBcd =>
        exfalso
        by_cases hbcd : ∀ x ∈ rest.take k, IsBcd x
        · obtain ⟨v, hv, -⟩ := (C31_bcd cfg lsb true b rest k (by simpa using hk) hle).2 hbcd
          rw [hv] at hp; injection hp with hp; rw [← hp] at ht; simp at ht
        · rw [(C31_bcd cfg lsb true b rest k (by simpa using hk) hle).1 hbcd] at hp; cases hp
      | binary =>
        exfalso
        by_cases hk0 : 0 < k
        · rw [C31_binary cfg lsb b rest k hk hk0 hle] at hp
          injection hp with hp; rw [← hp] at ht
          split_ifs at ht <;> simp at ht
        · have hk0 : k = 0 := by omega
          subst hk0
          have hE0 : ∀ b : UInt8, lvar b = some (.binary, 0) → b = 0xE0 := by decide +kernel
          rw [hE0 b hk, C31_empty_integer] at hp
          split_ifs at hp
          injection hp with hp; rw [← hp] at ht; simp at ht
    rw [C81_text cfg env lsb data r n h hn hd b _ hb', if_pos hlt.1, hlt.2]

/-- C81: a text in UTF-8 is shown as it is, in the report and in the JSON of the library. -/
theorem C81_utf8 (cfg : Cfg) (lsb : Bool) (data : List UInt8) (r : DataRecord)
    (n : NormalizedRecord) (t : List Char) (h : DataRecord.parse cfg lsb data = .ok r)
    (hn : normalizeRecord stdXml r = some n) (hd : r.header.raw.dib.dif.toNat % 16 = 13)
    (ht : r.data.value = some (.text (utf8 t).reverse)) :
    n.value = .str t ∧ decodeTextUnit (utf8 t).reverse = t := by
  rw [C81_library_text cfg stdXml lsb data r n _ h hn hd ht, List.reverse_reverse]
  refine ⟨congrArg _ (utf8Lossy_utf8 t), ?_⟩
  unfold decodeTextUnit
  simp only [List.reverse_reverse, (fromUtf8_iff _ t).2 rfl]

/-- C81: a text shown without the replacement character is made of exactly the bytes of the record. -/
theorem C81_lossless (cfg : Cfg) (lsb : Bool) (data : List UInt8) (r : DataRecord)
    (n : NormalizedRecord) (bytes : List UInt8) (shown : List Char) (h : DataRecord.parse cfg lsb data = .ok r)
    (hn : normalizeRecord stdXml r = some n) (hd : r.header.raw.dib.dif.toNat % 16 = 13)
    (ht : r.data.value = some (.text bytes)) (hs : n.value = .str shown) (hc : Char.ofNat 0xFFFD ∉ shown) :
    bytes.reverse = utf8 shown := by
  rw [C81_library_text cfg stdXml lsb data r n _ h hn hd ht] at hs
  injection hs with hs
  rw [← hs] at hc ⊢
  exact utf8Lossy_lossless _ hc

/-- C81: a byte that is not UTF-8 is shown as the replacement character in the report, and as the character of
ISO 8859-1 in the JSON of the library. -/
theorem C81_other_bytes (cfg : Cfg) : ∃ data r n bytes shown, DataRecord.parse cfg false data = .ok r ∧
    normalizeRecord stdXml r = some n ∧ r.data.value = some (.text bytes) ∧ n.value = .str shown ∧
    shown ≠ decodeTextUnit bytes := by
  have hs : recordIs cfg false [0x0D, 0x78, 0x02, 0xE9, 0x41] ⟨⟨0x0D, none⟩, some ⟨0x78, none, none⟩⟩
      [0x02, 0xE9, 0x41] (some (.text [0xE9, 0x41])) = true := by
    obtain ⟨oc, tf⟩ := cfg
    cases oc <;> cases tf <;> decide +kernel
  obtain ⟨r, h0, h1, h2, h3⟩ := recordIs_ok hs
  have hu : ∃ x, vibUnit 0x78 [] none = some x := by
    have : (vibUnit 0x78 [] none).isSome = true := by decide +kernel
    exact Option.isSome_iff_exists.1 this
  obtain ⟨⟨u, f, q⟩, hu⟩ := hu
  have hn := (normalize_parts stdXml r _ ⟨0x78, none, none⟩ _ (by rw [h1]) (by rw [h1]; decide) h2).2
      ⟨.str (stdXml.lossy [0x41, 0xE9]), u, f, q, by rw [h1]; rfl, hu, rfl⟩
  refine ⟨_, r, _, [0xE9, 0x41], stdXml.lossy [0x41, 0xE9], h0, hn, h3, rfl, ?_⟩
  show utf8Lossy [0x41, 0xE9] ≠ decodeTextUnit [0xE9, 0x41]
  decide +kernel

/-- A text record: serial number "ABC". -/
example (cfg : Cfg) (env : XmlEnv) : ∃ r n, DataRecord.parse cfg false
      [0x0D, 0x78, 0x03, 0x43, 0x42, 0x41] = .ok r ∧ normalizeRecord env r = some n ∧
    n.value = .str (env.lossy [0x41, 0x42, 0x43]) := by
  have hs : recordIs cfg false [0x0D, 0x78, 0x03, 0x43, 0x42, 0x41] ⟨⟨0x0D, none⟩, some ⟨0x78, none, none⟩⟩
      [0x03, 0x43, 0x42, 0x41] (some (.text [0x43, 0x42, 0x41])) = true := by
    obtain ⟨oc, tf⟩ := cfg
    cases oc <;> cases tf <;> decide +kernel
  obtain ⟨r, h0, h1, h2, h3⟩ := recordIs_ok hs
  have hu : ∃ x, vibUnit 0x78 [] none = some x := by
    have : (vibUnit 0x78 [] none).isSome = true := by decide +kernel
    exact Option.isSome_iff_exists.1 this
  obtain ⟨⟨u, f, q⟩, hu⟩ := hu
  have hn := (normalize_parts env r _ ⟨0x78, none, none⟩ _ (by rw [h1]) (by rw [h1]; decide) h2).2
      ⟨.str (env.lossy [0x41, 0x42, 0x43]), u, f, q, by rw [h1]; rfl, hu, rfl⟩
  exact ⟨r, _, h0, hn, rfl⟩

/-! ## C82 -/

/-- C82: the medium shown for a device type below 40 is the name of the library's device type, except for
the reserved codes 1D, 1E, 1F and 35 and for the four of `C82_medium_fails`. -/
theorem C82_medium_partial (code : UInt8) (h : code.toNat < 0x40) :
    mediumLookup code = (mediumName (DeviceType.fromByte code)).toList ↔
      code ∉ [0x1D, 0x1E, 0x1F, 0x31, 0x32, 0x33, 0x35, (0x38 : UInt8)] := by
  have key : ∀ code : UInt8, code.toNat < 0x40 →
    (mediumLookup code = (mediumName (DeviceType.fromByte code)).toList ↔
      code ∉ [0x1D, 0x1E, 0x1F, 0x31, 0x32, 0x33, 0x35, (0x38 : UInt8)]) := by decide +kernel
  exact key code h

/-- C82: other codes are shown as unknown, with the code in hexadecimal. -/
theorem C82_unknown_medium (code : UInt8)
    (h : 0x40 ≤ code.toNat ∨ code ∈ [0x1D, 0x1E, 0x1F, (0x35 : UInt8)]) :
    mediumLookup code = "Unknown medium (0x".toList ++ hexPair false code ++ [')'] := by
  have key : ∀ code : UInt8, 0x40 ≤ code.toNat ∨ code ∈ [0x1D, 0x1E, 0x1F, (0x35 : UInt8)] →
    mediumLookup code = "Unknown medium (0x".toList ++ hexPair false code ++ [')'] := by decide +kernel
  exact key code h

/-- C82 is false of the code: the communication controller (31), the repeaters (32, 33) and the bus
converter (38) of the library are shown as "Reserved". -/
theorem C82_medium_fails : ∀ code ∈ [0x31, 0x32, 0x33, (0x38 : UInt8)],
    mediumLookup code = "Reserved".toList ∧ DeviceType.fromByte code ∈
      [.communicationController, .unidirectionalRepeater, .bidirectionalRepeater, .busConverterMeterSide] := by
  decide +kernel

/-- C82: the medium of fixed data has its code in the two top bits of the two unit bytes. -/
theorem C82_fixed_medium (u1 u2 : UInt8) :
    some (fixedMedium u1 u2) = fixedMedia[u1.toNat / 64 + 4 * (u2.toNat / 64)]? := by
  have e : ∀ b : UInt8, (b &&& 0xC0) >>> 6 = UInt8.ofNat (b.toNat / 64) ∧
      (b &&& 0xC0) >>> 4 = UInt8.ofNat (4 * (b.toNat / 64)) := by decide +kernel
  have l1 : u1.toNat / 64 < 4 := by have := u1.toNat_lt; omega
  have l2 : u2.toNat / 64 < 4 := by have := u2.toNat_lt; omega
  unfold fixedMedium
  rw [(e u1).1, (e u2).2]
  generalize u1.toNat / 64 = a at *
  generalize u2.toNat / 64 = b at *
  revert a b
  decide +kernel

/-- C82: the signature is the configuration field as four hexadecimal digits, most significant first. -/
theorem C82_signature (s : UInt16) :
    signatureText s = hexPair true (UInt8.ofNat (s.toNat / 256)) ++ hexPair true (UInt8.ofNat (s.toNat % 256)) := by
  have key : ∀ b : UInt8, hex2 b = hexPair true b := by decide +kernel
  unfold signatureText
  rw [key, key]
  congr 2
  · apply UInt8.toNat_inj.1
    have := s.toNat_lt
    simp [Nat.shiftRight_eq_div_pow]
  · apply UInt8.toNat_inj.1
    have : s.toNat &&& 0xFF = s.toNat % 256 := Nat.and_two_pow_sub_one_eq_mod _ 8
    rw [show (UInt8.ofNat (s.toNat % 256)).toNat = s.toNat % 256 by simp]
    simp [Nat.and_two_pow_sub_one_eq_mod _ 8]

end MBus
