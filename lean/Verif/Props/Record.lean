import Verif.Lemmas.Record
import Verif.Props.ValueInfo
/-!
# Properties of data records and their iteration: C27-C30, C63, C64
-/
namespace MBus
open Spec

/-- A telegram body: 24-bit volume, two fillers, 32-bit energy with storage 1, date, and
manufacturer specific data. -/
def sampleRecords : List UInt8 :=
  [0x03, 0x13, 0x15, 0x31, 0x00, 0x2F, 0x2F, 0x44, 0x06, 0x01, 0x02, 0x03, 0x04,
   0x02, 0x6C, 0xF3, 0x35, 0x0F, 0xAA, 0xBB]

/-! ## C27 -/

/-- C27: for every byte string there is a list of at most as many items as bytes, all but the last
of them records, such that any number of calls of `next` returns these items in order and then
`None` for ever (unless the last item is a panic, which ends the caller). -/
theorem C27_calls (cfg : Cfg) (lsb : Bool) (data : List UInt8) :
    ∃ items : List (Res RecordError DataRecord), items.length ≤ data.length ∧
      (∀ x ∈ items.dropLast, ∃ r, x = .ok r ∧ r.rawBytes ≠ []) ∧
      ∀ n, (DataRecords.new data lsb).calls cfg n = (items.map some ++
        if items.getLast? = some Res.panic then [] else List.replicate n none).take n := by
  obtain ⟨items, h1, h2, h3⟩ := calls_spec cfg (DataRecords.new data lsb) (Nat.zero_le _)
  refine ⟨items, h2, ?_, h3⟩
  clear h2 h3
  simp only [DataRecords.new, List.drop_zero] at h1
  induction h1 with
  | nil => simp
  | skip _ _ _ _ _ ih => exact ih
  | record b data rest r items _ _ _ hne _ ih =>
    cases items with
    | nil => simp
    | cons a as =>
      rw [List.dropLast_cons₂]
      intro x hx
      rcases List.mem_cons.mp hx with rfl | hx
      · exact ⟨r, rfl, hne⟩
      · exact ih x hx
  | fail => simp

/-- C27: what a loop over the iterator sees are exactly the items of the specification. -/
theorem C27_items (cfg : Cfg) (lsb : Bool) (data : List UInt8)
    (items : List (Res RecordError DataRecord)) :
    parseDataRecords cfg lsb data = items ↔ Items (DataRecord.parse cfg lsb) data items :=
  parseDataRecords_iff cfg lsb data items

/-- C27: after an error the iterator yields nothing more, whatever its state was. -/
theorem C27_fused_after_error (cfg : Cfg) (s s' : DataRecords) (e : RecordError) (n : Nat)
    (hle : s.offset ≤ s.data.length) (h : s.next cfg = (some (.err e), s')) :
    s'.calls cfg n = List.replicate n none := by
  have key : ∀ m, m = s.data.length - s.offset → s'.data.length ≤ s'.offset := by
    intro m hm
    induction m using Nat.strong_induction_on generalizing s with
    | _ m ih =>
      by_cases hlt : s.offset < s.data.length
      · by_cases hs : isSkipped s.data[s.offset]
        · rw [next_skip cfg s hlt hs] at h
          exact ih (m - 1) (by omega) _ (by simp; omega) h (by simp; omega)
        · rcases next_record cfg s hlt hs with ⟨r, _, hn⟩ | ⟨e', _, hn⟩ | ⟨_, hn⟩
          · rw [hn] at h; simp at h
          · rw [hn] at h
            simp only [Prod.mk.injEq] at h
            rw [← h.2]
          · rw [hn] at h; simp at h
      · rw [next_end cfg s (by omega)] at h; simp at h
  exact calls_end cfg n s' (key _ rfl)

example : (parseDataRecords cfgDebug false sampleRecords).length = 4 ∧
    ((DataRecords.new sampleRecords false).calls cfgDebug 7).map Option.isSome =
      [true, true, true, true, false, false, false] := by
  decide +kernel

/-! ## C28 -/

/-- C28: when the iteration ends without error, the raw bytes of the records in order, with skipped
filler and reserved bytes between them, make up the whole input. -/
theorem C28_records_tile (cfg : Cfg) (lsb : Bool) (data : List UInt8) (rs : List DataRecord)
    (h : parseDataRecords cfg lsb data = rs.map .ok) : Tiles data (rs.map (·.rawBytes)) := by
  rw [C27_items] at h
  generalize hi : rs.map Res.ok = items at h
  induction h generalizing rs with
  | nil =>
    have : rs = [] := by simpa using hi
    subst this; exact .nil
  | skip b data items hs _ ih => exact .skip _ _ _ hs (ih rs hi)
  | record b data rest r items _ _ hr hne _ ih =>
    cases rs with
    | nil => simp at hi
    | cons r' rs =>
      simp only [List.map_cons, List.cons.injEq, Res.ok.injEq] at hi
      obtain ⟨rfl, hi⟩ := hi
      rw [hr]
      exact .piece _ _ _ hne (ih rs hi)
  | fail b data _ hf =>
    cases rs with
    | nil => simp at hi
    | cons r rs =>
      simp only [List.map_cons, List.cons.injEq] at hi
      exact absurd hi.1.symm (hf r)

/-- C28: when the iteration ends with an error (or panic), the records before it tile the bytes in
front of the place where the error occurred, and parsing a record there gives that error. -/
theorem C28_records_tile_before_error (cfg : Cfg) (lsb : Bool) (data : List UInt8)
    (rs : List DataRecord) (x : Res RecordError DataRecord) (hx : ∀ r, x ≠ .ok r)
    (h : parseDataRecords cfg lsb data = rs.map .ok ++ [x]) :
    ∃ done rest, data = done ++ rest ∧ Tiles done (rs.map (·.rawBytes)) ∧
      DataRecord.parse cfg lsb rest = x := by
  rw [C27_items] at h
  generalize hi : rs.map Res.ok ++ [x] = items at h
  induction h generalizing rs with
  | nil => simp at hi
  | skip b data items hs _ ih =>
    obtain ⟨d, r, h1, h2, h3⟩ := ih rs hi
    exact ⟨b :: d, r, by simp [h1], .skip _ _ _ hs h2, h3⟩
  | record b data rest r items _ _ hr hne _ ih =>
    cases rs with
    | nil =>
      simp only [List.map_nil, List.nil_append, List.cons.injEq] at hi
      exact absurd hi.1 (hx r)
    | cons r' rs =>
      simp only [List.map_cons, List.cons_append, List.cons.injEq, Res.ok.injEq] at hi
      obtain ⟨rfl, hi⟩ := hi
      obtain ⟨d, rr, h1, h2, h3⟩ := ih rs hi
      exact ⟨r'.rawBytes ++ d, rr, by rw [hr, h1, List.append_assoc], .piece _ _ _ hne h2, h3⟩
  | fail b data _ hf =>
    cases rs with
    | nil =>
      simp only [List.map_nil, List.nil_append, List.cons.injEq, and_true] at hi
      exact ⟨[], b :: data, rfl, .nil, hi.symm⟩
    | cons r rs =>
      simp only [List.map_cons, List.cons_append, List.cons.injEq] at hi
      exact absurd hi.1.symm (hf r)

example : ∃ rs : List DataRecord, parseDataRecords cfgDebug false sampleRecords = rs.map .ok ∧
    rs.map (·.rawBytes) = [[0x03, 0x13, 0x15, 0x31, 0x00], [0x44, 0x06, 0x01, 0x02, 0x03, 0x04],
      [0x02, 0x6C, 0xF3, 0x35], [0x0F, 0xAA, 0xBB]] := by
  refine ⟨(parseDataRecords cfgDebug false sampleRecords).filterMap Res.toOption, ?_⟩
  decide +kernel

/-! ## C29 -/

/-- C29: the raw bytes of a record are a prefix of the parsed data; they are the DIF, the DIFEs and
the value information block (the header part, whose length is the sum of the two block sizes),
followed by the data part, which has the size announced by the data field unless the data ends
before. -/
theorem C29_raw_bytes (cfg : Cfg) (lsb : Bool) (data : List UInt8) (r : DataRecord)
    (h : DataRecord.parse cfg lsb data = .ok r) :
    r.rawBytes <+: data ∧ r.headerBytes ++ r.dataBytes = r.rawBytes ∧
    r.headerBytes = headerBytes cfg.plaintextFirst r.header.raw ∧
    r.headerBytes.length = r.header.raw.dib.size + (r.header.raw.vib.map VIB.size).getD 0 ∧
    r.rawBytes.length = min (r.headerBytes.length + r.data.size) data.length := by
  obtain ⟨h1, rest, di, hr, hdi, hp, hraw⟩ := (record_ok _ _ _ _).mp h
  have hsz := headerSize_eq cfg.plaintextFirst r.header
  have hle : r.header.size ≤ r.rawBytes.length := by rw [hraw, hsz]; simp
  have hh : r.headerBytes = headerBytes cfg.plaintextFirst r.header.raw := by
    unfold DataRecord.headerBytes slice?
    rw [if_pos ⟨Nat.zero_le _, hle⟩, hsz, hraw]; simp
  have hd : r.dataBytes = rest.take r.data.size := by
    unfold DataRecord.dataBytes slice? DataRecord.size
    rw [if_pos ⟨hle, Nat.le_refl _⟩, hsz, List.take_length]
    simp only [Option.getD_some]
    conv_lhs => rw [hraw]
    simp
  refine ⟨?_, by rw [hh, hd, hraw], hh, ?_, ?_⟩
  · obtain ⟨⟨t, ht⟩, _⟩ := raw_prefix _ _ _ _ h
    exact ⟨t, ht.symm⟩
  · rw [hh, ← hsz]
    unfold RecordHeader.size
    cases r.header.raw.vib <;> simp
  · rw [hh, hraw, hr]
    simp only [List.length_append, List.length_take]
    omega

example : ∃ r, DataRecord.parse cfgDebug false [0x84, 0x01, 0x93, 0x3A, 1, 2, 3, 4, 5] = .ok r ∧
    r.headerBytes = [0x84, 0x01, 0x93, 0x3A] ∧ r.dataBytes = [1, 2, 3, 4] := by
  refine ⟨((DataRecord.parse cfgDebug false [0x84, 0x01, 0x93, 0x3A, 1, 2, 3, 4, 5]).toOption).get
    (by decide +kernel), ?_⟩
  decide +kernel

/-! ## C30 -/

/-- C30, what holds of the statement: a record whose VIFE chain is closed and whose data field is
complete parses to the same record whatever follows it.  Missing: records whose header or data is
cut off by the end of the data but is accepted nevertheless (`C30_fails`). -/
theorem C30_local_partial (cfg : Cfg) (lsb : Bool) (data : List UInt8) (r : DataRecord)
    (h : DataRecord.parse cfg lsb data = .ok r)
    (hc : ∀ d ∈ r.header.processed.dataInfo, ¬ toTheEnd d.coding)
    (hv : ∀ v ∈ r.header.raw.vib, vibClosed v)
    (hd : r.header.size + r.data.size ≤ data.length) (suffix : List UInt8) :
    DataRecord.parse cfg lsb (r.rawBytes ++ suffix) = .ok r := by
  obtain ⟨h1, rest, di, hr, hdi, hp, hraw⟩ := (record_ok _ _ _ _).mp h
  have hsz := headerSize_eq cfg.plaintextFirst r.header
  have hl : r.data.size ≤ rest.length := by
    rw [hr, hsz] at hd; simp at hd; omega
  obtain ⟨h1a, h1b⟩ := recordHeader_ok _ _ _ h1
  obtain ⟨_, _, _, hsuf⟩ := rawHeader_ok _ _ _ h1a
  rw [record_ok]
  refine ⟨?_, rest.take r.data.size ++ suffix, di, by rw [hraw, List.append_assoc], hdi, ?_, ?_⟩
  · unfold RecordHeader.tryFrom
    rw [hraw, List.append_assoc, hsuf hv, Res.bind_ok, h1b]; rfl
  · refine coding_local cfg lsb di.coding (hc di hdi) (rest.take r.data.size) suffix
      (rest.drop r.data.size) r.data ?_ ?_
    · rw [List.take_append_drop]; exact hp
    · simp; omega
  · rw [hraw, List.take_append_of_le_length (by simp; omega), List.take_take, Nat.min_self]

/-- C30 is false of the code: a record whose VIFE chain is cut off by the end of the data is
accepted but changes when bytes follow, and so does a date and time field with its sixth byte
missing. -/
theorem C30_fails (cfg : Cfg) :
    (∃ r, DataRecord.parse cfg false [0x00, 0x93, 0x92] = .ok r ∧ r.rawBytes = [0x00, 0x93, 0x92] ∧
      DataRecord.parse cfg false ([0x00, 0x93, 0x92] ++ [0x13]) ≠ .ok r) ∧
    (∃ r, DataRecord.parse cfg false [0x06, 0x6D, 1, 2, 3, 4, 5] = .ok r ∧
      r.rawBytes = [0x06, 0x6D, 1, 2, 3, 4, 5] ∧
      DataRecord.parse cfg false ([0x06, 0x6D, 1, 2, 3, 4, 5] ++ [6]) ≠ .ok r) := by
  obtain ⟨oc, tf⟩ := cfg
  have key : ∀ d d' : List UInt8, (DataRecord.parse ⟨oc, tf⟩ false d).toOption.any (fun r =>
      r.rawBytes == d && DataRecord.parse ⟨oc, tf⟩ false d' != .ok r) = true →
      ∃ r, DataRecord.parse ⟨oc, tf⟩ false d = .ok r ∧ r.rawBytes = d ∧
        DataRecord.parse ⟨oc, tf⟩ false d' ≠ .ok r := by
    intro d d' h
    cases hp : DataRecord.parse ⟨oc, tf⟩ false d with
    | ok r =>
      rw [hp] at h
      simp at h
      exact ⟨r, rfl, h⟩
    | err e => rw [hp] at h; simp at h
    | panic => rw [hp] at h; simp [Res.toOption] at h
  constructor
  · apply key; cases oc <;> cases tf <;> decide +kernel
  · apply key; cases oc <;> cases tf <;> decide +kernel

/-- A record that meets the hypotheses of `C30_local_partial`. -/
example : ∃ r, DataRecord.parse cfgDebug false [0x84, 0x01, 0x93, 0x3A, 1, 2, 3, 4, 5] = .ok r ∧
    (∀ d ∈ r.header.processed.dataInfo, d.coding = .integer32) ∧
    (∀ v ∈ r.header.raw.vib, vibClosed v) ∧ r.header.size + r.data.size = 8 := by
  refine ⟨((DataRecord.parse cfgDebug false [0x84, 0x01, 0x93, 0x3A, 1, 2, 3, 4, 5]).toOption).get
    (by decide +kernel), ?_⟩
  decide +kernel

/-! ## C63 -/

/-- C63: parsing a record panics exactly when reading the value information block panics, when
interpreting it panics, or, with overflow checks, when a variable length field announces a zero-byte
integer. -/
theorem C63_record_panics_iff (cfg : Cfg) (lsb : Bool) (data : List UInt8) :
    DataRecord.parse cfg lsb data = .panic ↔
    (∃ dib, DIB.tryFrom data = .ok dib ∧ dib.dif.toNat % 16 ≠ 15 ∧
      (VIB.tryFrom cfg (data.drop dib.size) = .panic ∨
        ∃ v, VIB.tryFrom cfg (data.drop dib.size) = .ok v ∧ ValueInfo.tryFrom v = .panic)) ∨
    (cfg.overflowChecks = true ∧ ∃ h d, RecordHeader.tryFrom cfg data = .ok h ∧
      h.processed.dataInfo = some d ∧ d.coding = .variableLength ∧
      data[h.size]? = some 0xE0) := by
  have hdi : ∀ b : DIB, DIB.tryFrom data = .ok b → ∃ d, DataInfo.tryFrom b = .ok d := by
    intro b hb
    have : (b.difes.getD []).length ≤ 11 := by
      rcases (dib_ok _ _).mp hb with ⟨_, _, _, _, rfl⟩ | ⟨_, _, _, _, _, _, hl, rfl⟩
      · simp
      · simpa using hl
    obtain ⟨d, h, _⟩ := dataInfo_ok b this
    exact ⟨d, h⟩
  have hdrop : ∀ b : DIB, DIB.tryFrom data = .ok b → sliceFrom? data b.size = some (data.drop b.size) := by
    intro b hb
    obtain ⟨rest, hr, _⟩ := dib_prefix data b hb
    rw [sliceFrom?_length]
    rw [dib_size, hr]; simp
  have hhead : RecordHeader.tryFrom cfg data = .panic ↔
      ∃ dib, DIB.tryFrom data = .ok dib ∧ dib.dif.toNat % 16 ≠ 15 ∧
      (VIB.tryFrom cfg (data.drop dib.size) = .panic ∨
        ∃ v, VIB.tryFrom cfg (data.drop dib.size) = .ok v ∧ ValueInfo.tryFrom v = .panic) := by
    unfold RecordHeader.tryFrom RawHeader.tryFrom
    cases hd : DIB.tryFrom data with
    | err e => simp
    | panic => exact absurd hd (dib_ne_panic data)
    | ok dib =>
      obtain ⟨d, hd'⟩ := hdi dib hd
      simp only [Res.mapErr_ok, Res.bind_ok, hdrop dib hd, Res.ofOption_some, Res.ok.injEq,
        exists_eq_left']
      by_cases hs : isSpecialFunction dib.dif = true
      · have := (special_iff _).mp hs
        simp only [hs, Bool.not_true, Bool.false_eq_true, if_false, Res.bind_ok]
        unfold ProcessedHeader.tryFrom
        simp [hs, hd', this]
      · have hs' : dib.dif.toNat % 16 ≠ 15 := fun h => hs ((special_iff _).mpr h)
        simp only [hs, Bool.not_false, if_true, hs', ne_eq, not_false_eq_true, true_and]
        cases hv : VIB.tryFrom cfg (data.drop dib.size) with
        | err e => simp
        | panic => simp
        | ok v =>
          simp only [Res.mapErr_ok, Res.bind_ok]
          unfold ProcessedHeader.tryFrom
          simp only [hd', Res.mapErr_ok, Res.bind_ok]
          cases hi : ValueInfo.tryFrom v <;> simp [hi]
  rw [← hhead]
  cases hh : RecordHeader.tryFrom cfg data with
  | err e => simp [DataRecord.parse, hh]
  | panic => simp [DataRecord.parse, hh]
  | ok h =>
    obtain ⟨di, hdi'⟩ := processed_isSome _ _ _ hh
    obtain ⟨h1a, _⟩ := recordHeader_ok _ _ _ hh
    obtain ⟨⟨rest, hr⟩, _, _, _⟩ := rawHeader_ok _ _ _ h1a
    have hsz := headerSize_eq cfg.plaintextFirst h
    have hle : h.size ≤ data.length := by rw [hsz, hr]; simp
    have hsl : sliceFrom? data h.size = some (data.drop h.size) := sliceFrom?_length _ _ hle
    have hget : (data.drop h.size).head? = data[h.size]? := by rw [List.head?_drop]
    unfold DataRecord.parse
    simp only [hh, Res.bind_ok, show ¬ data.length < h.size by omega, if_false, hsl,
      Res.ofOption_some, hdi']
    rw [Res.bind_eq_panic]
    have hpt : ∀ d : Data, ¬ ((Res.ofOption RecordError.insufficientData
        (sliceTo? data (min (h.size + d.size) data.length)) >>= fun rawBytes =>
          (Res.ok ⟨h, d, rawBytes⟩ : Res RecordError DataRecord)) = .panic) := by
      intro d hp
      rw [Res.bind_eq_panic] at hp
      rcases hp with hp | ⟨_, _, hp⟩
      · exact Res.ofOption_ne_panic hp
      · simp at hp
    constructor
    · rintro (hp | ⟨d, _, hp⟩)
      · rw [coding_panic_iff, hget] at hp
        exact .inr ⟨hp.2.2, h, di, rfl, hdi', hp.1, hp.2.1⟩
      · exact absurd hp (hpt d)
    · rintro (hp | ⟨ho, h', d, he, hd, hc, hz⟩)
      · simp at hp
      · cases he
        rw [hdi'] at hd
        cases hd
        left
        rw [coding_panic_iff, hget]
        exact ⟨hc, hz, ho⟩

/-- C63 is false of the code: three bytes suffice for a panic in every build configuration, and a
variable length field with LVAR E0 panics with overflow checks. -/
theorem C63_fails (cfg : Cfg) (lsb : Bool) :
    DataRecord.parse cfg lsb [0x01, 0x7D, 0x00] = .panic ∧
    DataRecord.parse cfg lsb ([0x01, 0x93] ++ List.replicate 11 0xBA) = .panic ∧
    (cfg.overflowChecks = true → DataRecord.parse cfg lsb [0x0D, 0x13, 0xE0] = .panic) := by
  obtain ⟨oc, tf⟩ := cfg
  refine ⟨?_, ?_, ?_⟩
  · cases oc <;> cases tf <;> cases lsb <;> decide +kernel
  · cases oc <;> cases tf <;> cases lsb <;> decide +kernel
  · cases oc <;> cases tf <;> cases lsb <;> decide +kernel

/-- C63, what holds of the statement: records whose VIF is neither 7C, 7D nor FC, with at most four
VIFEs, and without variable length data never panic. -/
theorem C63_never_panics_partial (cfg : Cfg) (lsb : Bool) (dif vif : UInt8) (vifes data : List UInt8)
    (hd : dif.toNat < 128) (hl : dif.toNat % 16 ≠ 0xD) (hv : vif ≠ 0x7C ∧ vif ≠ 0x7D ∧ vif ≠ 0xFC)
    (hc : vif.toNat < 128 ∧ vifes = [] ∨ 128 ≤ vif.toNat ∧ Chain vifes ∧ vifes.length ≤ 4) :
    DataRecord.parse cfg lsb (dif :: vif :: (vifes ++ data)) ≠ .panic := by
  intro h
  have hdib : DIB.tryFrom (dif :: vif :: (vifes ++ data)) = .ok ⟨dif, none⟩ :=
    (dib_ok _ _).mpr (.inl ⟨_, _, rfl, hd, rfl⟩)
  have hvib : VIB.tryFrom cfg (vif :: (vifes ++ data)) = .ok
      ⟨vif, if vifes = [] then none else some vifes, none⟩ := by
    rw [vib_ok]
    rcases hc with ⟨h1, rfl⟩ | ⟨h1, h2, h3⟩
    · have := VibLayout.single (textFirst := cfg.plaintextFirst) vif ([] ++ data) h1 (by simp [hv.1])
      simpa using this
    · have := VibLayout.extended (textFirst := cfg.plaintextFirst) vif vifes data h1 hv.2.2 h2 (by omega)
      simpa [h2.ne_nil] using this
  rw [C63_record_panics_iff] at h
  rcases h with ⟨dib, h1, h2, h3⟩ | ⟨_, hh, d, h1, h2, h3, _⟩
  · rw [hdib] at h1
    cases h1
    simp only [DIB.size, List.drop_succ_cons, List.drop_zero] at h3
    rw [hvib] at h3
    rcases h3 with h3 | ⟨v, h3, h4⟩
    · simp at h3
    · cases h3
      refine (C21_never_panics_partial cfg _).2 _ hvib hv.2.1 ?_ h4
      rw [getD_ifNil]
      rcases hc with ⟨_, rfl⟩ | ⟨_, _, h⟩
      · simp
      · exact h
  · obtain ⟨h4, h5⟩ := recordHeader_ok _ _ _ h1
    obtain ⟨_, _, h6, _⟩ := rawHeader_ok _ _ _ h4
    rw [hdib] at h6
    have hdif : hh.raw.dib = ⟨dif, none⟩ := by injection h6 with h6; exact h6.symm
    have hcod : codingOf dif ≠ .variableLength := by
      have : ∀ b : UInt8, b.toNat % 16 ≠ 0xD → codingOf b ≠ .variableLength := by decide +kernel
      exact this dif hl
    obtain ⟨d', hd', _, _, _, _, hcd, _⟩ := dataInfo_ok hh.raw.dib (by rw [hdif]; simp)
    have hcd' : d'.coding ≠ .variableLength := by rw [hcd, hdif]; exact hcod
    unfold ProcessedHeader.tryFrom at h5
    cases hvv : hh.raw.vib with
    | none =>
      rw [hvv] at h5
      simp only [hd', Res.mapErr_ok, Res.bind_ok] at h5
      split at h5
      · cases hpp : hh.processed
        rw [hpp] at h5 h2
        simp at h5 h2
        rw [← h5.1] at h2
        cases h2
        exact hcd' h3
      · cases hpp : hh.processed
        rw [hpp] at h5 h2
        simp at h5 h2
        simp_all
    | some v =>
      rw [hvv] at h5
      simp only [hd', Res.mapErr_ok, Res.bind_ok] at h5
      rw [Res.bind_eq_ok] at h5
      obtain ⟨vi, _, h5⟩ := h5
      cases hpp : hh.processed
      rw [hpp] at h5 h2
      simp only [Res.ok.injEq, ProcessedHeader.mk.injEq] at h5 h2
      obtain ⟨h5a, _⟩ := h5
      rw [h2] at h5a
      cases h5a
      simp only at h3
      unfold dateCoding at h3
      split at h3
      · simp at h3
      split at h3
      · split at h3 <;> simp at h3
      split at h3
      · simp at h3
      split at h3
      · simp at h3
      · exact hcd' h3

example : Chain [0xBA, 0x3A] ∧ ∃ r, DataRecord.parse cfgDebug false [0x02, 0x93, 0xBA, 0x3A, 1, 2] = .ok r := by
  refine ⟨.more _ _ (by decide) (.last _ (by decide)), ((DataRecord.parse cfgDebug false
    [0x02, 0x93, 0xBA, 0x3A, 1, 2]).toOption).get (by decide +kernel), ?_⟩
  decide +kernel

/-! ## C64 -/

/-- C64: the data field of a record is decoded as a date (type G), a date and time (type F, or type
I for a 48-bit field) exactly when its value information carries the corresponding label, otherwise
by the coding of its DIF. -/
theorem C64_date_coding (cfg : Cfg) (lsb : Bool) (data : List UInt8) (r : DataRecord)
    (h : DataRecord.parse cfg lsb data = .ok r) (hs : r.header.raw.dib.dif.toNat % 16 ≠ 15) :
    ∃ d v, r.header.processed.dataInfo = some d ∧ r.header.processed.valueInfo = some v ∧
      (.date ∈ v.labels → d.coding = .dateTypeG) ∧
      (.date ∉ v.labels → .dateTime ∈ v.labels → d.coding =
        if r.header.raw.dib.dif.toNat % 16 = 6 then .dateTimeTypeI else .dateTimeTypeF) ∧
      (.date ∉ v.labels → .dateTime ∉ v.labels → .time ∉ v.labels →
        .dateTimeWithSeconds ∉ v.labels →
          codings[r.header.raw.dib.dif.toNat % 16]? = some d.coding) := by
  obtain ⟨h1, rest, di, hr, hdi, hp, hraw⟩ := (record_ok _ _ _ _).mp h
  obtain ⟨h4, h5⟩ := recordHeader_ok _ _ _ h1
  obtain ⟨_, h6, h7, _⟩ := rawHeader_ok _ _ _ h4
  have h11 : (r.header.raw.dib.difes.getD []).length ≤ 11 := by
    rcases (dib_ok _ _).mp h7 with ⟨_, _, _, _, hb⟩ | ⟨_, _, _, _, _, _, hl, hb⟩
    · rw [hb]; simp
    · rw [hb]; simpa using hl
  obtain ⟨d', hd', _, _, _, _, hcd, _⟩ := dataInfo_ok r.header.raw.dib h11
  unfold ProcessedHeader.tryFrom at h5
  cases hvv : r.header.raw.vib with
  | none => exact absurd (h6.mp hvv) hs
  | some v =>
    rw [hvv] at h5
    simp only [hd', Res.mapErr_ok, Res.bind_ok] at h5
    rw [Res.bind_eq_ok] at h5
    obtain ⟨vi, _, h5⟩ := h5
    have hc48 : ∀ b : UInt8, codingOf b = .integer48 ↔ b.toNat % 16 = 6 := by decide +kernel
    simp only [Res.ok.injEq] at h5
    rw [← h5]
    refine ⟨_, vi, rfl, rfl, ?_, ?_, ?_⟩
    · intro h; simp [dateCoding, h]
    · intro h1 h2
      simp only [dateCoding, h1, h2, if_false, if_true, hcd]
      simp only [hc48]
    · intro h1 h2 h3 h4
      simp only [dateCoding, h1, h2, h3, h4, if_false, hcd]
      have : ∀ b : UInt8, b.toNat % 16 ≠ 15 → codings[b.toNat % 16]? = some (codingOf b) := by
        decide +kernel
      exact this _ hs

example : ∃ r, DataRecord.parse cfgDebug false [0x02, 0x6C, 0xF3, 0x35] = .ok r ∧
    r.data.value = some (.date (.single 19) (.single .may) (.single 31)) := by
  refine ⟨((DataRecord.parse cfgDebug false [0x02, 0x6C, 0xF3, 0x35]).toOption).get
    (by decide +kernel), ?_⟩
  decide +kernel

end MBus
