import Verif.Spec.ReadAgain
import Verif.Props.Joined
import Verif.Props.SealedData
/-!
# C160: What is shown of a record can be read again
-/
namespace MBus
open MBus.Spec

/-- The records found, put one behind the other, are found again. -/
theorem items_again {cfg : Cfg} {lsb : Bool} {d : List UInt8} {items t : List (Res RecordError DataRecord)} {rs : List DataRecord}
    (h : Items (DataRecord.parse cfg lsb) d items) (hi : items = rs.map .ok ++ t) (ht : t = [] ∨ ∃ x rest, t = x :: rest ∧ ∀ r, x ≠ .ok r) :
    Items (DataRecord.parse cfg lsb) (rs.map (·.rawBytes)).flatten (rs.map .ok) := by
  induction h generalizing rs with
  | nil =>
    obtain ⟨rfl, rfl⟩ : rs = [] ∧ t = [] := by simpa using hi.symm
    exact .nil
  | skip b data items _ _ ih => exact ih hi
  | record b data rest r items hb hp hr hn hrest ih =>
    cases rs with
    | nil =>
      obtain rfl | ⟨x, more, rfl, hx⟩ := ht
      · simp at hi
      · simp only [List.map_nil, List.nil_append, List.cons.injEq] at hi
        exact absurd hi.1.symm (hx r)
    | cons r' rs =>
      simp only [List.map_cons, List.cons_append, List.cons.injEq, Res.ok.injEq] at hi
      obtain ⟨rfl, hi⟩ := hi
      have ih' := ih hi
      simp only [List.map_cons, List.flatten_cons]
      have hp' : DataRecord.parse cfg lsb (r.rawBytes ++ (rs.map (·.rawBytes)).flatten) = .ok r := by
        by_cases he : rest = []
        · subst he
          have : items = [] := by cases hrest; rfl
          subst this
          obtain ⟨rfl, rfl⟩ : rs = [] ∧ t = [] := by simpa using hi.symm
          simpa [← hr] using hp
        · exact record_followed he (hr ▸ hp) _
      obtain ⟨b', raw, hraw⟩ := List.exists_cons_of_ne_nil hn
      have hbb : b' = b := by rw [hraw] at hr; simpa using (List.cons.inj hr).1.symm
      subst hbb
      have := Items.record (parse := DataRecord.parse cfg lsb) b' (raw ++ (rs.map (·.rawBytes)).flatten)
        (rs.map (·.rawBytes)).flatten r (rs.map .ok) hb (by rw [← List.cons_append, ← hraw]; exact hp')
        (by rw [← List.cons_append, ← hraw]) hn ih'
      rwa [← List.cons_append, ← hraw] at this
  | fail b data hb hf =>
    cases rs with
    | nil => exact .nil
    | cons r rs =>
      simp only [List.map_cons, List.cons_append, List.cons.injEq] at hi
      exact absurd hi.1 (hf r)

/-- Each record found is found again in its own bytes. -/
theorem item_alone {cfg : Cfg} {lsb : Bool} {d : List UInt8} {items : List (Res RecordError DataRecord)} {r : DataRecord}
    (h : Items (DataRecord.parse cfg lsb) d items) (hr : .ok r ∈ items) :
    r.rawBytes ≠ [] ∧ Items (DataRecord.parse cfg lsb) r.rawBytes [.ok r] := by
  induction h with
  | nil => simp at hr
  | skip b data items _ _ ih => exact ih hr
  | record b data rest r' items hb hp hraw hn hrest ih =>
    rw [List.mem_cons] at hr
    obtain hr | hr := hr
    · cases hr
      refine ⟨hn, ?_⟩
      have hp' : DataRecord.parse cfg lsb r.rawBytes = .ok r := by
        by_cases he : rest = []
        · subst he; simpa [hraw] using hp
        · simpa using record_followed he (hraw ▸ hp) []
      obtain ⟨b', raw, h1⟩ := List.exists_cons_of_ne_nil hn
      have hbb : b' = b := by rw [h1] at hraw; simpa using (List.cons.inj hraw).1.symm
      subst hbb
      have := Items.record (parse := DataRecord.parse cfg lsb) b' raw [] r [] hb (by rw [← h1]; exact hp') (by simp [h1]) hn .nil
      rwa [← h1] at this
    · exact ih hr
  | fail b data _ hf =>
    simp only [List.mem_singleton] at hr
    exact absurd hr.symm (hf r)

theorem shown_again {cfg : Cfg} {d : List UInt8} {rs : List DataRecord} {t : List (Res RecordError DataRecord)}
    (hi : parseDataRecords cfg false d = rs.map .ok ++ t) (ht : t = [] ∨ ∃ x rest, t = x :: rest ∧ ∀ r, x ≠ .ok r) :
    (∀ r ∈ recordOutputs rs, ReadAgain cfg r) ∧ (rs ≠ [] → ReadAgainTogether cfg (recordOutputs rs)) := by
  have hall : ∀ r ∈ rs, .ok r ∈ parseDataRecords cfg false d := by intro r hr; rw [hi]; simp [hr]
  have hit := (C27_items cfg false d _).1 hi
  refine ⟨fun out ho => ?_, fun hn => ?_⟩
  · simp only [recordOutputs, List.mem_map, Prod.exists] at ho
    obtain ⟨r, i, hm, rfl⟩ := ho
    have hr : r ∈ rs := by
      have := List.mem_zipIdx hm
      exact this.2.2 ▸ List.getElem_mem _
    obtain ⟨hne, hone⟩ := item_alone hit (r := r) (by simp [hr])
    obtain ⟨rest, -, hp⟩ := parsed_from cfg false d r (hall r hr)
    refine ⟨r.rawBytes, ⟨r.headerBytes, r.dataBytes, ((C29_raw_bytes cfg false rest r hp).2.1).symm,
      hexSpaced_tokens _, hexSpaced_tokens _⟩, ?_⟩
    exact (decode_items hne [r]).1 ((C27_items cfg false _ _).2 hone)
  · refine ⟨rs.map (·.rawBytes), shown_pieces cfg false d rs hall, ?_⟩
    refine (decode_items ?_ rs).1 ((C27_items cfg false _ _).2 (items_again hit rfl ht))
    obtain ⟨r, rs', rfl⟩ := List.exists_cons_of_ne_nil hn
    have := (item_alone hit (r := r) (by simp)).1
    simp [this]

/-- C160: every record shown of given data can be read again from the bytes shown for it, and so can all together. -/
theorem C160_data (cfg : Cfg) (data : List UInt8) (records : List RecordOutput)
    (h : decodeDataRecords cfg data = .ok records) :
    (∀ r ∈ records, ReadAgain cfg r) ∧ (records ≠ [] → ReadAgainTogether cfg records) := by
  have hd : data ≠ [] := by rintro rfl; cases h
  obtain ⟨rs, hi | ⟨x, hi⟩ | hi⟩ := items_shape cfg data
  · rw [(decode_items hd rs).1 hi] at h
    cases h
    obtain ⟨h1, h2⟩ := shown_again (t := []) (by simpa using hi) (.inl rfl)
    exact ⟨h1, fun hn => h2 (by rintro rfl; exact hn rfl)⟩
  · obtain ⟨k, h2⟩ := (decode_items hd rs).2.1 x hi
    rw [h] at h2; cases h2
  · rw [(decode_items hd rs).2.2 hi] at h; cases h

theorem collected {cfg : Cfg} {s : DataRecords} {outs : List DataRecord} {err : Option (Nat × RecordError)}
    (h : collectRecords cfg (some s) = some (outs, err)) :
    ∃ t, s.collect cfg = outs.map .ok ++ t ∧ (t = [] ∨ ∃ x rest, t = .err x :: rest) := by
  have key : ∀ (items : List (Res RecordError DataRecord)) (acc outs : List DataRecord) (o : Nat),
      collectItems items acc o = some (outs, err) →
      ∃ rs t, outs = acc ++ rs ∧ items = rs.map .ok ++ t ∧ (t = [] ∨ ∃ x rest, t = .err x :: rest) := by
    intro items
    induction items with
    | nil => intro acc outs o h; simp [collectItems] at h; exact ⟨[], [], by simp [h], by simp, .inl rfl⟩
    | cons x items ih =>
      intro acc outs o h
      cases x with
      | ok r =>
        obtain ⟨rs, t, h1, h2, h3⟩ := ih _ _ _ h
        exact ⟨r :: rs, t, by simp [h1], by simp [h2], h3⟩
      | err e => simp [collectItems] at h; exact ⟨[], _, by simp [h], by simp, .inr ⟨e, items, rfl⟩⟩
      | panic => simp [collectItems] at h
  obtain ⟨rs, t, h1, h2, h3⟩ := key _ _ _ _ h
  simp at h1
  subst h1
  exact ⟨t, h2, h3⟩

theorem decrypted_order {payload : List UInt8} {blk : UserDataBlock} (hb : Block payload blk) (hp : payload.head? ≠ some 0x76)
    (d : List UInt8) : decryptedRecords (some blk) d = none ∨ decryptedRecords (some blk) d = some (DataRecords.new d false) := by
  cases blk with
  | long ell header block =>
    right
    have : header.lsbOrder = false := by
      cases hb with
      | long reversed =>
        cases reversed with
        | false => rfl
        | true => exact absurd rfl hp
      | ellI cc acc inner b b' hb hw => cases b <;> simp [withEll] at hw
    simp [decryptedRecords, this]
  | short => right; rfl
  | noTpl => right; rfl
  | _ => left; rfl

/-- Which records are shown of a telegram. -/
theorem to_show {F : Type} {aes : AesBlock} {payload : List UInt8} {blk : UserDataBlock} {frame : F} {link : Option ManufacturerId}
    {key : Option (List UInt8)} {out : List UInt8} {c : SecurityContext} (hb : Block payload blk)
    (hk : key = none ∨ payload.head? ≠ some 0x76) (h : prepareSecurity aes (some blk) link key out = .ok c) :
    recordsToShow (⟨frame, some blk, blk.attachedRecords, none⟩ : MbusData F) c = none ∨
      ∃ d, recordsToShow (⟨frame, some blk, blk.attachedRecords, none⟩ : MbusData F) c = some (DataRecords.new d false) := by
  have hatt : blk.attachedRecords = none ∨ ∃ d, blk.attachedRecords = some (DataRecords.new d false) := by
    cases blk <;> simp only [UserDataBlock.attachedRecords, reduceCtorEq, true_or, false_or] <;> exact ⟨_, rfl⟩
  unfold recordsToShow
  cases hd : c.decryptedPayload with
  | none =>
    simp only
    split
    · exact .inl rfl
    · exact hatt
  | some d =>
    simp only
    have hp : payload.head? ≠ some 0x76 := by
      obtain rfl | hp := hk
      · exfalso
        unfold prepareSecurity at h
        rcases hf : securityFields (some blk) with ⟨enc, mode, ell⟩
        rw [hf] at h
        cases enc <;> simp at h <;> subst h <;> cases hd
      · exact hp
    obtain h1 | h1 := decrypted_order hb hp d
    · exact .inl h1
    · exact .inr ⟨_, h1⟩

/-- C160: every record shown of a telegram, wired or wireless, encrypted or not, complete or not, can be read again from the
bytes shown for it, and so can all together.  Missing: telegrams in the byte order of CI 76 that are decrypted, see
`C160_fails`. -/
theorem C160_telegrams_partial (cfg : Cfg) (aes : AesBlock) (data : List UInt8) (link : Option ManufacturerId)
    (payload : List UInt8) (options : DecodeOptions) (ht : Telegram data link payload)
    (hk : options.key = none ∨ payload.head? ≠ some 0x76) (o : DecodedOutput) (h : decodeBytes cfg aes data options = .ok o) :
    (∀ r ∈ o.records, ReadAgain cfg r) ∧ (o.records ≠ [] → ReadAgainTogether cfg o.records) := by
  obtain ⟨protocol, frame, normalized, stripped, hd⟩ := decode_telegram cfg aes data link payload ht
  rw [hd] at h
  cases hu : UserDataBlock.tryFrom payload with
  | panic => rw [hu] at h; cases h
  | err e =>
    rw [hu] at h
    obtain ⟨c, outs, err, hc, hcol, -, -, -, ho, -⟩ := finish_ok _ _ _ _ _ _ _ _ _ _ _ _ h
    have hn : outs = [] := by
      have hds : recordsToShow (⟨(), none, none, some e⟩ : MbusData Unit) c = none := by
        unfold recordsToShow
        cases c.decryptedPayload <;> simp [decryptedRecords]
      rw [hds] at hcol
      exact (by simpa [collectRecords] using hcol.symm : outs = [] ∧ _).1
    rw [ho, hn]
    simp [recordOutputs]
  | ok blk =>
    rw [hu] at h
    obtain ⟨c, outs, err, hc, hcol, -, -, -, ho, -⟩ := finish_ok _ _ _ _ _ _ _ _ _ _ _ _ h
    obtain hs | ⟨d, hs⟩ := to_show (frame := ()) ((C32_accepts_iff _ _).1 hu) hk hc
    · rw [hs] at hcol
      have hn : outs = [] := (by simpa [collectRecords] using hcol.symm : outs = [] ∧ _).1
      rw [ho, hn]
      simp [recordOutputs]
    · rw [hs] at hcol
      obtain ⟨t, h1, h2⟩ := collected hcol
      obtain ⟨h3, h4⟩ := shown_again (t := t) h1 (h2.imp id fun ⟨x, rest, hx⟩ => ⟨_, rest, hx, by simp⟩)
      rw [ho]
      exact ⟨h3, fun hn => h4 (by rintro rfl; exact hn rfl)⟩

/-- A telegram in the byte order of CI 76, encrypted with AES-128. -/
def reversedPayload : List UInt8 :=
  ([0x76, 0x12, 0x34, 0x56, 0x78, 0xE6, 0x1E, 0x3C, 0x07, 0x2A, 0, 0x10, 0x05] ++
    cbcEncrypt Aes.encrypt ellKey (headerIv 0xE6 0x1E [0x78, 0x56, 0x34, 0x12] 0x3C 0x07 0x2A)
      [[0x0A, 0x13, 0x12, 0x34] ++ List.replicate 12 0x2F])

def reversedSealed : List UInt8 := wiredLong reversedPayload

/-- The bytes and the text of the value of each record. -/
def recordTexts (records : List RecordOutput) : List (List Char × List Char × Option (List Char)) :=
  records.map fun r => (r.headerHex, r.dataHex, match r.value.value with | some (.str s) => some s | _ => none)

set_option maxRecDepth 20000 in
/-- C160 is false of telegrams in the byte order of CI 76 that are decrypted: 1.234 is shown with the bytes 0A 13 12 34, which
alone are 3.412. -/
theorem C160_fails (cfg : Cfg) : ¬ ∀ data link payload key o, Telegram data link payload →
    decodeBytes cfg Aes.aes128 data ⟨some key, true⟩ = .ok o → ∀ r ∈ o.records, ReadAgain cfg r := by
  intro hall
  have ht : Telegram reversedSealed none reversedPayload := wired_telegram _ _ (.rspUd false false) (.primary 1) (by decide +kernel)
  have h1 : (decodeBytes cfg Aes.aes128 reversedSealed ⟨some ellKey, true⟩).toOption.map (recordTexts ·.records) =
      some [("0A 13".toList, "12 34".toList, some "1.234".toList)] := by
    obtain ⟨a, b⟩ := cfg
    cases a <;> cases b <;> decide +kernel
  have h2 : (decodeDataRecords cfg [0x0A, 0x13, 0x12, 0x34]).toOption.map recordTexts =
      some [("0A 13".toList, "12 34".toList, some "3.412".toList)] := by
    obtain ⟨a, b⟩ := cfg
    cases a <;> cases b <;> decide +kernel
  cases ho : decodeBytes cfg Aes.aes128 reversedSealed ⟨some ellKey, true⟩ with
  | ok o =>
    rw [ho] at h1
    simp only [Res.toOption, Option.map_some, Option.some.injEq, recordTexts] at h1
    obtain ⟨r, rs, hr⟩ := List.exists_cons_of_ne_nil (l := o.records) (by rintro h; rw [h] at h1; cases h1)
    rw [hr] at h1
    simp only [List.map_cons, List.cons.injEq, Prod.mk.injEq] at h1
    obtain ⟨bytes, ⟨x, y, hb, hx, hy⟩, hd⟩ := hall _ _ _ _ o ht ho r (by rw [hr]; simp)
    rw [h1.1.1] at hx
    rw [h1.1.2.1] at hy
    have ex : x = [0x0A, 0x13] := tokens_unique _ _ le_rfl _ _ hx (hexSpaced_tokens [0x0A, 0x13])
    have ey : y = [0x12, 0x34] := tokens_unique _ _ le_rfl _ _ hy (hexSpaced_tokens [0x12, 0x34])
    subst ex ey hb
    rw [show ([0x0A, 0x13] ++ [0x12, 0x34] : List UInt8) = [0x0A, 0x13, 0x12, 0x34] from rfl] at hd
    rw [hd] at h2
    simp only [Res.toOption, Option.map_some, Option.some.injEq, recordTexts, List.map_cons, List.cons.injEq,
      Prod.mk.injEq] at h2
    have := h1.1.2.2.symm.trans h2.1.2.2
    revert this
    decide
  | err e => rw [ho] at h1; cases h1
  | panic => rw [ho] at h1; cases h1

set_option maxRecDepth 20000 in
/-- The records of an encrypted telegram below an extended link layer, with its key. -/
example (cfg : Cfg) (o : DecodedOutput) (h : decodeBytes cfg Aes.aes128 ellSealed ⟨some ellKey, true⟩ = .ok o) :
    ∀ r ∈ o.records, ReadAgain cfg r :=
  (C160_telegrams_partial cfg _ ellSealed (some sampleMeter) (ellSealed.drop 10) _
    (wireless_telegram ellSealed .invalidStartByte (none, List.replicate 512 0) ⟨0x44, some .sndNr, sampleMeter, ellSealed.drop 10⟩
      (by decide +kernel) (by decide +kernel) (by decide +kernel)) (.inr (by decide +kernel)) o h).1

/-- Two records with fillers between them. -/
example (cfg : Cfg) : ∃ records, decodeDataRecords cfg [0x01, 0x13, 0x05, 0x2F, 0x0A, 0x13, 0x12, 0x34] = .ok records ∧
    records.length = 2 ∧ ReadAgainTogether cfg records := by
  have h1 : (decodeDataRecords cfg [0x01, 0x13, 0x05, 0x2F, 0x0A, 0x13, 0x12, 0x34]).toOption.map List.length = some 2 := by
    obtain ⟨a, b⟩ := cfg
    cases a <;> cases b <;> decide +kernel
  cases h : decodeDataRecords cfg [0x01, 0x13, 0x05, 0x2F, 0x0A, 0x13, 0x12, 0x34] with
  | ok records =>
    rw [h] at h1
    have hl : records.length = 2 := by simpa [Res.toOption] using h1
    exact ⟨records, rfl, hl, (C160_data cfg _ records h).2 (by rintro rfl; simp at hl)⟩
  | err e => rw [h] at h1; cases h1
  | panic => rw [h] at h1; cases h1

end MBus
