import Verif.Spec.SealedData
import Verif.Props.Aes
import Verif.Props.CutOff
/-!
# C159: encrypted data show the records they show alone
-/
namespace MBus
open MBus.Spec

theorem shortHeader_block {acc st c0 c1 : UInt8} {header : List UInt8} (h : ShortHeader acc st c0 c1 header)
    (block : List UInt8) : ∃ ell, Block (header ++ block) (.short ell ⟨acc, st, ⟨le16 c0 c1⟩⟩ block) := by
  induction h with
  | short ci hci => exact ⟨none, .short ci acc st c0 c1 block hci⟩
  | shortA0 x => exact ⟨none, .shortA0 x acc st c0 c1 block⟩
  | ellI cc a header _ ih =>
    obtain ⟨ell, hb⟩ := ih
    refine ⟨some ⟨cc, a, none, none⟩, ?_⟩
    rw [List.append_assoc]
    exact .ellI cc a _ _ _ hb rfl

/-- What is shown of records that were decrypted. -/
theorem finish_decrypted {F : Type} (cfg : Cfg) (aes : AesBlock) (protocol : List Char) (frame : FrameOutput)
    (data normalized : List UInt8) (stripped : Bool) (payload : Option (List UInt8)) (parsed : MbusData F)
    (link : Option ManufacturerId) (options : DecodeOptions) (c : SecurityContext) (d : List UInt8)
    (hc : prepareSecurity aes parsed.userData link options.key (List.replicate 512 0) = .ok c)
    (hrec : recordsToShow parsed c = some (DataRecords.new d false)) (he : parsed.applicationError = none)
    (hdec : c.decrypted = true) :
    (∀ rs : List DataRecord, parseDataRecords cfg false d = rs.map .ok →
      ∃ o, finish cfg aes protocol frame data normalized stripped payload parsed link options = .ok o ∧
        o.records = recordOutputs rs ∧ o.decodeState = "complete".toList) ∧
    (∀ (rs : List DataRecord) e, parseDataRecords cfg false d = rs.map .ok ++ [.err e] →
      ∃ o, finish cfg aes protocol frame data normalized stripped payload parsed link options = .ok o ∧
        o.records = recordOutputs rs ∧ o.decodeState = "partial".toList) ∧
    (∀ rs : List DataRecord, parseDataRecords cfg false d = rs.map .ok ++ [.panic] →
      finish cfg aes protocol frame data normalized stripped payload parsed link options = .panic) := by
  unfold finish
  rw [hc]
  simp only [buildOutput, hrec]
  refine ⟨?_, ?_, ?_⟩
  · intro rs h
    have h := C54_no_error cfg (DataRecords.new d false) rs h
    simp only [h]
    exact ⟨_, rfl, rfl, by simp [he, hdec]⟩
  · intro rs e h
    have h := C54_reported cfg (DataRecords.new d false) rs e h
    simp only [h]
    exact ⟨_, rfl, rfl, by simp⟩
  · intro rs h
    have h : collectRecords cfg (some (DataRecords.new d false)) = none := by
      have := collectItems_panic rs [] 0
      rw [← h] at this
      exact this
    simp only [h]

/-- The records of an encrypted telegram. -/
theorem sealed_decode {cfg : Cfg} {key data d : List UInt8} (hk : key.length = 16) (h : SealedData key data d) (enrich : Bool) :
    (∀ rs : List DataRecord, parseDataRecords cfg false d = rs.map .ok →
      ∃ o, decodeBytes cfg Aes.aes128 data ⟨some key, enrich⟩ = .ok o ∧ o.records = recordOutputs rs ∧
        o.decodeState = "complete".toList) ∧
    (∀ (rs : List DataRecord) e, parseDataRecords cfg false d = rs.map .ok ++ [.err e] →
      ∃ o, decodeBytes cfg Aes.aes128 data ⟨some key, enrich⟩ = .ok o ∧ o.records = recordOutputs rs ∧
        o.decodeState = "partial".toList) ∧
    (∀ rs : List DataRecord, parseDataRecords cfg false d = rs.map .ok ++ [.panic] →
      decodeBytes cfg Aes.aes128 data ⟨some key, enrich⟩ = .panic) := by
  have hlen : ∀ b, b.length = 16 → (Aes.encrypt key b).length = 16 := fun b hb => (C124_cipher key b hk hb).1
  have hinv : ∀ b, b.length = 16 → Aes.aes128 key (Aes.encrypt key b) = b := fun b hb => (C124_cipher key b hk hb).2.2
  cases h with
  | long i0 i1 i2 i3 m0 m1 version device acc st c0 c1 code iv blocks tail link hb hcode hiv hbl hne ht hs =>
    have hsz := telegram_length _ _ _ hs
    have hivl : iv.length = 16 := by cases hiv <;> simp [headerIv]
    rw [List.length_append, List.length_append, cbcEncrypt_length _ key hlen blocks iv hivl hbl] at hsz
    obtain ⟨pr, fr, no, sp, hd⟩ := decode_telegram cfg Aes.aes128 data link _ hs
    have u := (C32_accepts_iff _ _).2 (.long false i0 i1 i2 i3 m0 m1 version device acc st c0 c1
      (cbcEncrypt Aes.encrypt key iv blocks ++ tail) hb)
    rw [show longCi false = 0x72 from rfl] at u
    rw [hd, u]
    exact finish_decrypted _ _ _ _ _ _ _ _ _ _ _ _ _
      (prepare_long Aes.encrypt Aes.aes128 key hk hlen hinv none _ code hcode iv
        (headerIv_context m0 m1 i0 i1 i2 i3 version device acc st c0 c1 hb code hcode iv hiv)
        blocks hbl hne tail ht (by simp at hsz; omega) link) rfl rfl rfl
  | short header acc st c0 c1 m0 m1 d0 d1 d2 d3 device link iv blocks tail hh hb hcode hid hdev hiv hbl hne ht hs =>
    have hsz := telegram_length _ _ _ hs
    have hivl : iv.length = 16 := by cases hiv <;> simp [headerIv]
    rw [List.length_append, List.length_append, cbcEncrypt_length _ key hlen blocks iv hivl hbl] at hsz
    obtain ⟨pr, fr, no, sp, hd⟩ := decode_telegram cfg Aes.aes128 data (some link) _ hs
    obtain ⟨ell, hell⟩ := shortHeader_block hh (cbcEncrypt Aes.encrypt key iv blocks ++ tail)
    have u := (C32_accepts_iff _ _).2 hell
    rw [hd, u]
    have hmm := headerIv_context m0 m1 d0 d1 d2 d3 link.version device acc st c0 c1 hb _ hcode iv hiv
    rw [← hid, ← hdev] at hmm
    obtain ⟨l, hl⟩ := prepare_short Aes.encrypt Aes.aes128 key hk hlen hinv ell ⟨acc, st, ⟨le16 c0 c1⟩⟩ link iv hmm
      blocks hbl hne tail ht (by omega)
    exact finish_decrypted _ _ _ _ _ _ _ _ _ _ _ _ _ hl rfl rfl rfl

theorem carries_decode {cfg : Cfg} {key data d : List UInt8} (hk : key.length = 16) (h : CarriesData key data d) (enrich : Bool) :
    (∀ rs : List DataRecord, parseDataRecords cfg false d = rs.map .ok →
      ∃ o, decodeBytes cfg Aes.aes128 data ⟨some key, enrich⟩ = .ok o ∧ o.records = recordOutputs rs ∧
        o.decodeState = "complete".toList) ∧
    (∀ (rs : List DataRecord) e, parseDataRecords cfg false d = rs.map .ok ++ [.err e] →
      ∃ o, decodeBytes cfg Aes.aes128 data ⟨some key, enrich⟩ = .ok o ∧ o.records = recordOutputs rs ∧
        o.decodeState = "partial".toList) ∧
    (∀ rs : List DataRecord, parseDataRecords cfg false d = rs.map .ok ++ [.panic] →
      decodeBytes cfg Aes.aes128 data ⟨some key, enrich⟩ = .panic) := by
  cases h with
  | clear link payload ht hd =>
    obtain ⟨h1, h2, h3⟩ := clear_decode cfg Aes.aes128 data link payload d ⟨some key, enrich⟩ ht hd
    refine ⟨fun rs h => ?_, fun rs e h => ?_, h3⟩
    · obtain ⟨o, ho, hr, hs, -⟩ := h1 rs h
      exact ⟨o, ho, hr, hs⟩
    · obtain ⟨o, ho, hr, hs, -⟩ := h2 rs e h
      exact ⟨o, ho, hr, hs⟩
  | sealed h => exact sealed_decode hk h enrich

/-- C159: the telegram shows, with the key it is encrypted under, exactly the records its data show alone. -/
theorem C159_records (cfg : Cfg) (key data d : List UInt8) (hk : key.length = 16) (h : CarriesData key data d)
    (hne : d ≠ []) (enrich : Bool) :
    (∀ records, decodeDataRecords cfg d = .ok records ↔
      ∃ o, decodeBytes cfg Aes.aes128 data ⟨some key, enrich⟩ = .ok o ∧ o.decodeState = "complete".toList ∧
        o.records = records) ∧
    ((∃ e, decodeDataRecords cfg d = .err e) ↔
      ∃ o, decodeBytes cfg Aes.aes128 data ⟨some key, enrich⟩ = .ok o ∧ o.decodeState = "partial".toList) ∧
    (decodeDataRecords cfg d = .panic ↔ decodeBytes cfg Aes.aes128 data ⟨some key, enrich⟩ = .panic) := by
  obtain ⟨h1, h2, h3⟩ := carries_decode (cfg := cfg) hk h enrich
  have hcp : "partial".toList ≠ "complete".toList := by decide
  obtain ⟨rs, hi | ⟨e, hi⟩ | hi⟩ := items_shape cfg d
  · obtain ⟨o, ho, hr, hs⟩ := h1 rs hi
    rw [(decode_items hne rs).1 hi, ho]
    refine ⟨fun records => ?_, ?_, by simp⟩
    · simp only [Res.ok.injEq]
      constructor
      · rintro rfl; exact ⟨o, rfl, hs, hr⟩
      · rintro ⟨o', rfl, _, h⟩; rw [← h, hr]
    · simp only [reduceCtorEq, exists_false, false_iff, not_exists, not_and, Res.ok.injEq]
      rintro o' rfl h
      rw [hs] at h
      exact hcp h.symm
  · obtain ⟨o, ho, hr, hs⟩ := h2 rs e hi
    obtain ⟨k, hx⟩ := (decode_items hne rs).2.1 e hi
    rw [hx, ho]
    refine ⟨fun records => ?_, ?_, by simp⟩
    · simp only [reduceCtorEq, false_iff, not_exists, not_and, Res.ok.injEq]
      rintro o' rfl h
      rw [hs] at h
      exact absurd h hcp
    · exact ⟨fun _ => ⟨o, rfl, hs⟩, fun _ => ⟨_, rfl⟩⟩
  · rw [(decode_items hne rs).2.2 hi, h3 rs hi]
    simp

theorem carries_shown {cfg : Cfg} {key data d : List UInt8} {enrich : Bool} (hk : key.length = 16) (h : CarriesData key data d)
    {o : DecodedOutput} (ho : decodeBytes cfg Aes.aes128 data ⟨some key, enrich⟩ = .ok o) :
    ∃ rs t, o.records = recordOutputs rs ∧ parseDataRecords cfg false d = rs.map .ok ++ t ∧ (∀ r, .ok r ∉ t) ∧
      (o.decodeState = "partial".toList → t ≠ []) ∧ (t = [] ∨ ∃ x, t = [.err x]) := by
  obtain ⟨h1, h2, h3⟩ := carries_decode (cfg := cfg) hk h enrich
  obtain ⟨rs, hi | ⟨x, hi⟩ | hi⟩ := items_shape cfg d
  · obtain ⟨o', ho', hr, hs⟩ := h1 rs hi
    rw [ho] at ho'; cases ho'
    refine ⟨rs, [], hr, by simpa using hi, by simp, fun hp => ?_, .inl rfl⟩
    rw [hs] at hp
    exact absurd hp (by decide)
  · obtain ⟨o', ho', hr, -⟩ := h2 rs x hi
    rw [ho] at ho'; cases ho'
    exact ⟨rs, [.err x], hr, hi, by simp, by simp, .inr ⟨x, rfl⟩⟩
  · rw [h3 rs hi] at ho; cases ho

/-- C159: two telegrams that carry the same data, each in the clear or encrypted, show the same records. -/
theorem C159_same (cfg : Cfg) (key key' data data' d : List UInt8) (hk : key.length = 16) (hk' : key'.length = 16)
    (h : CarriesData key data d) (h' : CarriesData key' data' d) (enrich enrich' : Bool) (o o' : DecodedOutput)
    (ho : decodeBytes cfg Aes.aes128 data ⟨some key, enrich⟩ = .ok o)
    (ho' : decodeBytes cfg Aes.aes128 data' ⟨some key', enrich'⟩ = .ok o') : o.records = o'.records := by
  obtain ⟨r1, t1, e1, i1, -, -, n1⟩ := carries_shown hk h ho
  obtain ⟨r2, t2, e2, i2, -, -, n2⟩ := carries_shown hk' h' ho'
  rw [e1, e2, items_inj n1 n2 (i1.symm.trans i2)]

/-- C157 for telegrams that are encrypted or not. -/
theorem C157_sealed (cfg : Cfg) (k1 k2 k3 first second both d e : List UInt8) (enrich : Bool) (o1 o2 o3 : DecodedOutput)
    (h : EndsWell cfg d) (hk1 : k1.length = 16) (hk2 : k2.length = 16) (hk3 : k3.length = 16)
    (h1 : CarriesData k1 first d) (h2 : CarriesData k2 second e) (h3 : CarriesData k3 both (d ++ e))
    (ho1 : decodeBytes cfg Aes.aes128 first ⟨some k1, enrich⟩ = .ok o1)
    (ho2 : decodeBytes cfg Aes.aes128 second ⟨some k2, enrich⟩ = .ok o2)
    (ho3 : decodeBytes cfg Aes.aes128 both ⟨some k3, enrich⟩ = .ok o3) :
    o3.records = o1.records ++ numberedFrom o1.records.length o2.records := by
  obtain ⟨hne, rs, hi, hr, hall⟩ := ends_well h
  obtain ⟨r1, t1, e1, i1, -, -, n1⟩ := carries_shown hk1 h1 ho1
  obtain ⟨r2, t2, e2, i2, -, -, n2⟩ := carries_shown hk2 h2 ho2
  obtain ⟨r3, t3, e3, i3, -, -, n3⟩ := carries_shown hk3 h3 ho3
  obtain rfl : r1 = rs := items_inj n1 (.inl rfl) (by simpa using i1.symm.trans hi)
  have hj := hall e
  rw [i2, i3, ← List.append_assoc, ← List.map_append] at hj
  rw [e1, e2, e3, items_inj n3 n2 hj, outputs_append]

/-- C158 for telegrams that are encrypted or not. -/
theorem C158_sealed_partial (cfg : Cfg) (k1 k2 short long d e : List UInt8) (enrich : Bool) (o1 o2 : DecodedOutput)
    (hk1 : k1.length = 16) (hk2 : k2.length = 16) (h1 : CarriesData k1 short d) (h2 : CarriesData k2 long (d ++ e))
    (ho1 : decodeBytes cfg Aes.aes128 short ⟨some k1, enrich⟩ = .ok o1)
    (ho2 : decodeBytes cfg Aes.aes128 long ⟨some k2, enrich⟩ = .ok o2) :
    o1.records.dropLast <+: o2.records ∧ (o1.decodeState = "partial".toList → o1.records <+: o2.records) := by
  obtain ⟨r1, t1, e1, i1, n1, s1, -⟩ := carries_shown hk1 h1 ho1
  obtain ⟨r2, t2, e2, i2, n2, s2, -⟩ := carries_shown hk2 h2 ho2
  obtain ⟨⟨m1, h3⟩, h4⟩ := items_cut (e := e) ((C27_items cfg false d _).1 rfl) i1 n1
  rw [← C27_items, i2] at h3
  rw [e1, e2, outputs_dropLast]
  refine ⟨outputs_prefix n2 h3, fun hp => ?_⟩
  obtain ⟨m2, h5⟩ := h4 (s1 hp)
  rw [← C27_items, i2] at h5
  exact outputs_prefix n2 h5

/-- The record of data of the manufacturer at the end of a message. -/
theorem tail_record (cfg : Cfg) (marker : UInt8) (bytes : List UInt8) (hk : marker = 0x0F ∨ marker = 0x1F) :
    ∃ r, parseDataRecords cfg false (marker :: bytes) = [r].map .ok ∧ ∀ n,
      (recordOutput n r).function = (functionText marker).toList ∧
      (recordOutput n r).value = ⟨"manufacturer_specific".toList, none⟩ ∧
      (recordOutput n r).unit = none ∧ (recordOutput n r).quantities = [] ∧ ShowsBytes (recordOutput n r) (marker :: bytes) := by
  obtain ⟨r, hp, hraw, hda⟩ := parse_rest cfg false marker hk bytes
  have hsk : ¬ isSkipped marker := by rcases hk with rfl | rfl <;> decide
  have hs : parseDataRecords cfg false (marker :: bytes) = [r].map .ok := by
    rw [C27_items]
    exact .record marker bytes [] r _ hsk hp (by rw [hraw]; simp) (by rw [hraw]; simp) .nil
  refine ⟨r, hs, fun n => ?_⟩
  obtain ⟨dif, difes, rest, e1, -, -, -, -, e2⟩ := C89_fields cfg false _ r n hp
  obtain rfl : marker = dif := by injection e1
  have hvi : r.header.processed.valueInfo = none := by
    obtain ⟨g1, g2⟩ := recordHeader_ok _ _ _ ((record_ok _ _ _ _).mp hp).1
    have h0 : marker.toNat < 128 := by rcases hk with rfl | rfl <;> decide
    have hsf : isSpecialFunction marker = true := by rcases hk with rfl | rfl <;> decide
    unfold RawHeader.tryFrom at g1
    rw [show DIB.tryFrom (marker :: bytes) = .ok ⟨marker, none⟩ from
      (dib_ok _ _).mpr (.inl ⟨_, _, rfl, h0, rfl⟩)] at g1
    simp [hsf] at g1
    rw [← g1] at g2
    rcases hk with rfl | rfl
    · rw [← Res.ok.inj g2]
    · rw [← Res.ok.inj g2]
  refine ⟨e2, ?_, ?_, ?_, ?_⟩
  · show valueOutput r = _
    unfold valueOutput
    rw [hda]
  · simp [recordOutput, hvi]
  · simp [recordOutput, hvi]
  · exact ⟨r.headerBytes, r.dataBytes, by rw [← hraw]; exact ((C29_raw_bytes cfg false _ r hp).2.1).symm,
      hexSpaced_tokens _, hexSpaced_tokens _⟩

/-- C123 with data of the manufacturer (0F, or 1F if more records follow) at the end of the message, in a telegram that is
encrypted or not: one more record has these bytes. -/
theorem C123_sealed_tail_partial (cfg : Cfg) (key data d : List UInt8) (hk : key.length = 16) (marker : UInt8)
    (bytes : List UInt8) (readings : List MeterReading) (hmk : marker = 0x0F ∨ marker = 0x1F)
    (hd : CarriesData key data (d ++ marker :: bytes)) (hm : Message 7 readings d) (hr : ∀ r ∈ readings, Readable r)
    (enrich : Bool) :
    ∃ o rs last, decodeBytes cfg Aes.aes128 data ⟨some key, enrich⟩ = .ok o ∧ o.decodeState = "complete".toList ∧
      o.records = rs ++ [last] ∧ List.Forall₂ Shown readings rs ∧
      last.function = (functionText marker).toList ∧ last.value = ⟨"manufacturer_specific".toList, none⟩ ∧
      last.unit = none ∧ last.quantities = [] ∧ ShowsBytes last (marker :: bytes) := by
  obtain ⟨r, hs, hlast⟩ := tail_record cfg marker bytes hmk
  obtain ⟨rs, h1, h2⟩ := message_items_before cfg readings d _ [r] hs hm hr
  obtain ⟨o, h3, h4, h5⟩ := (carries_decode hk hd enrich).1 _ h1
  have h6 : recordOutputs (rs ++ [r]) = recordOutputs rs ++ [recordOutput rs.length r] := by
    simp [recordOutputs, List.zipIdx_append]
  exact ⟨o, recordOutputs rs, recordOutput rs.length r, h3, h5, by rw [h4, h6], shown_outputs readings rs h2, hlast _⟩

/-- C123 for every telegram that carries the message, encrypted under long and short headers, also below extended link
layers, or in the clear. -/
theorem C123_carried_partial (cfg : Cfg) (key data d : List UInt8) (hk : key.length = 16) (readings : List MeterReading)
    (hd : CarriesData key data d) (hm : Message 7 readings d) (hr : ∀ r ∈ readings, Readable r) (enrich : Bool) :
    ∃ o, decodeBytes cfg Aes.aes128 data ⟨some key, enrich⟩ = .ok o ∧ o.decodeState = "complete".toList ∧
      List.Forall₂ Shown readings o.records := by
  obtain ⟨rs, h1, h2⟩ := message_items cfg readings d hm hr
  obtain ⟨o, h3, h4, h5⟩ := (carries_decode hk hd enrich).1 _ h1
  exact ⟨o, h3, h5, by rw [h4]; exact shown_outputs readings rs h2⟩

/-- A wireless telegram with an extended link layer and a short header, encrypted under the key 00 01 .. 0F. -/
def ellSealed : List UInt8 :=
  [0x21, 0x44, 0xE6, 0x1E, 0x78, 0x56, 0x34, 0x12, 0x3C, 0x07, 0x8C, 0x00, 0x2B, 0x7A, 0x2A, 0x00, 0x10, 0x05, 0x2F, 0x10, 0x36, 0xE4, 0xFB, 0x84, 0x31, 0x08, 0xEA, 0x1E, 0x21, 0x01, 0x7D, 0xBA, 0x39, 0xF1]

def ellKey : List UInt8 := [0, 1, 2, 3, 4, 5, 6, 7, 8, 9, 10, 11, 12, 13, 14, 15]

set_option maxRecDepth 20000 in
/-- It carries a volume of 1313 litres and fillers. -/
example : SealedData ellKey ellSealed
    ([0x2F, 0x2F, 0x04, 0x13, 0x21, 0x05, 0x00, 0x00, 0x2F, 0x2F, 0x2F, 0x2F, 0x2F, 0x2F, 0x2F, 0x2F] ++ []) := by
  have ht := wireless_telegram ellSealed .invalidStartByte (none, List.replicate 512 0)
    ⟨0x44, some .sndNr, sampleMeter, ellSealed.drop 10⟩ (by decide +kernel) (by decide +kernel) (by decide +kernel)
  refine SealedData.short (key := ellKey) [0x8C, 0x00, 0x2B, 0x7A, 0x2A, 0x00, 0x10, 0x05] 0x2A 0x00 0x10 0x05 0xE6 0x1E 0x78
    0x56 0x34 0x12 0x07 sampleMeter _
    [[0x2F, 0x2F, 0x04, 0x13, 0x21, 0x05, 0x00, 0x00, 0x2F, 0x2F, 0x2F, 0x2F, 0x2F, 0x2F, 0x2F, 0x2F]] []
    (.ellI 0x00 0x2B _ (.short 0x7A (by decide))) (by decide +kernel) (by decide +kernel) (by decide +kernel)
    (by decide +kernel) (.address (by decide)) (by decide) (by decide) (by decide) ?_
  have he : [0x8C, 0x00, 0x2B, 0x7A, 0x2A, 0x00, 0x10, 0x05] ++ (cbcEncrypt Aes.encrypt ellKey
      (headerIv 0xE6 0x1E [0x78, 0x56, 0x34, 0x12] sampleMeter.version 0x07 0x2A)
      [[0x2F, 0x2F, 0x04, 0x13, 0x21, 0x05, 0x00, 0x00, 0x2F, 0x2F, 0x2F, 0x2F, 0x2F, 0x2F, 0x2F, 0x2F]] ++ []) =
      ellSealed.drop 10 := by decide +kernel
  rw [he]
  exact ht

end MBus
