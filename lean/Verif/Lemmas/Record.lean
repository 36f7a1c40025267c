import Verif.Lemmas.ValueInfo
import Verif.Props.DataInfo
import Verif.Spec.Record
/-! # Lemmas about data records and their iteration -/
namespace MBus
open Spec

/-! ## Headers -/

/-- The bytes of a value information block. -/
def vibBytes (textFirst : Bool) (v : VIB) : List UInt8 :=
  v.vif :: (if textFirst then textBytes v.plaintext ++ v.vifes.getD []
    else v.vifes.getD [] ++ textBytes v.plaintext)

def dibBytes (b : DIB) : List UInt8 := b.dif :: b.difes.getD []

theorem getD_ifNil (vifes : List UInt8) :
    (if vifes = [] then none else some vifes).getD [] = vifes := by
  split <;> simp_all

theorem vib_size (tf : Bool) (b : VIB) : b.size = (vibBytes tf b).length := by
  obtain ⟨_, v, p⟩ := b
  cases v <;> cases p <;> cases tf <;> simp [VIB.size, textBytes, vibBytes] <;> omega

theorem vib_prefix (cfg : Cfg) (data : List UInt8) (b : VIB) (h : VIB.tryFrom cfg data = .ok b) :
    ∃ rest, data = vibBytes cfg.plaintextFirst b ++ rest := by
  rw [vib_ok] at h
  cases h with
  | single vif rest hv ht => exact ⟨rest, by simp [textBytes, vibBytes]⟩
  | singleText text rest ht h9 => exact ⟨rest, by simp [textBytes, vibBytes, ht]⟩
  | extended vif vifes rest hv hf hc hl => exact ⟨rest, by simp [textBytes, vibBytes]⟩
  | textLast vifes text rest ht hc hl h9 => exact ⟨rest, by simp [textBytes, vibBytes, ht]⟩
  | textBefore vifes text rest ht hc hl h9 => exact ⟨rest, by simp [textBytes, vibBytes, ht]⟩
  | cutOff vif vifes hv hf ha hl => exact ⟨[], by simp [textBytes, vibBytes, getD_ifNil]⟩
  | cutOffText vifes text ht ha hl h9 => exact ⟨[], by simp [textBytes, vibBytes, getD_ifNil, ht]⟩

theorem not_closed (vif : UInt8) (vifes : List UInt8) (p : Option (List UInt8))
    (hv : 128 ≤ vif.toNat) (ha : ∀ b ∈ vifes, 128 ≤ b.toNat) :
    ¬ vibClosed ⟨vif, if vifes = [] then none else some vifes, p⟩ := by
  unfold vibClosed
  simp only [getD_ifNil]
  have : ((vif :: vifes).getLast (by simp)) ∈ vif :: vifes := List.getLast_mem _
  simp only [List.mem_cons] at this
  rcases this with h | h
  · rw [h]; omega
  · have := ha _ h; omega

theorem vib_suffix (cfg : Cfg) (data s : List UInt8) (b : VIB) (h : VIB.tryFrom cfg data = .ok b)
    (hc : vibClosed b) : VIB.tryFrom cfg (vibBytes cfg.plaintextFirst b ++ s) = .ok b := by
  rw [vib_ok] at h ⊢
  cases h with
  | single vif rest hv ht =>
    have := VibLayout.single (textFirst := cfg.plaintextFirst) vif s hv ht
    simpa [vibBytes, textBytes] using this
  | singleText text rest ht h9 =>
    have := VibLayout.singleText (textFirst := cfg.plaintextFirst) text s ht h9
    simpa [vibBytes, textBytes, ht] using this
  | extended vif vifes rest hv hf hch hl =>
    have := VibLayout.extended (textFirst := cfg.plaintextFirst) vif vifes s hv hf hch hl
    simpa [vibBytes, textBytes] using this
  | textLast vifes text rest ht hch hl h9 =>
    have := VibLayout.textLast (textFirst := cfg.plaintextFirst) vifes text s ht hch hl h9
    simpa [vibBytes, textBytes, ht] using this
  | textBefore vifes text rest ht hch hl h9 =>
    have := VibLayout.textBefore (textFirst := cfg.plaintextFirst) vifes text s ht hch hl h9
    simpa [vibBytes, textBytes, ht] using this
  | cutOff vif vifes hv hf ha hl => exact absurd hc (not_closed _ _ _ hv ha)
  | cutOffText vifes text ht ha hl h9 => exact absurd hc (not_closed _ _ _ (by decide) ha)

theorem dib_size (b : DIB) : b.size = (dibBytes b).length := by
  obtain ⟨_, v⟩ := b
  cases v <;> simp [DIB.size, dibBytes] <;> omega

theorem dib_prefix (data : List UInt8) (b : DIB) (h : DIB.tryFrom data = .ok b) :
    ∃ rest, data = dibBytes b ++ rest ∧ ∀ s, DIB.tryFrom (dibBytes b ++ s) = .ok b := by
  rcases (dib_ok _ _).mp h with ⟨dif, rest, rfl, hd, rfl⟩ | ⟨dif, difes, rest, rfl, hd, hc, hl, rfl⟩
  · exact ⟨rest, by simp [dibBytes], fun s => (dib_ok _ _).mpr (.inl ⟨dif, s, by simp [dibBytes], hd, rfl⟩)⟩
  · exact ⟨rest, by simp [dibBytes],
      fun s => (dib_ok _ _).mpr (.inr ⟨dif, difes, s, by simp [dibBytes], hd, hc, hl, rfl⟩)⟩

theorem special_iff (dif : UInt8) : isSpecialFunction dif = true ↔ dif.toNat % 16 = 15 := by
  revert dif; decide +kernel

theorem headerBytes_eq (tf : Bool) (h : RawHeader) : headerBytes tf h = dibBytes h.dib ++
    (match h.vib with | none => [] | some v => vibBytes tf v) := by
  obtain ⟨d, v⟩ := h
  cases v <;> simp [headerBytes, dibBytes, vibBytes]

theorem headerSize_eq (tf : Bool) (h : RecordHeader) : h.size = (headerBytes tf h.raw).length := by
  rw [headerBytes_eq, List.length_append, ← dib_size]
  unfold RecordHeader.size
  cases h.raw.vib with
  | none => rfl
  | some v => simp only [← vib_size]

theorem rawHeader_ok (cfg : Cfg) (data : List UInt8) (h : RawHeader)
    (hh : RawHeader.tryFrom cfg data = .ok h) :
    (∃ rest, data = headerBytes cfg.plaintextFirst h ++ rest) ∧
    (h.vib = none ↔ h.dib.dif.toNat % 16 = 15) ∧ DIB.tryFrom data = .ok h.dib ∧
    ((∀ v ∈ h.vib, vibClosed v) →
      ∀ s, RawHeader.tryFrom cfg (headerBytes cfg.plaintextFirst h ++ s) = .ok h) := by
  unfold RawHeader.tryFrom at hh
  rw [Res.bind_eq_ok] at hh
  obtain ⟨dib, h1, h2⟩ := hh
  have h1' : DIB.tryFrom data = .ok dib := by
    cases hd : DIB.tryFrom data <;> rw [hd] at h1 <;> simp_all
  obtain ⟨rest, hr, hs⟩ := dib_prefix data dib h1'
  cases hsp : isSpecialFunction dib.dif with
  | true =>
    rw [hsp] at h2
    simp only [Bool.not_true, Bool.false_eq_true, if_false, Res.ok.injEq] at h2
    subst h2
    refine ⟨⟨rest, by simpa [headerBytes_eq] using hr⟩, by simpa using (special_iff _).mp hsp, h1', ?_⟩
    intro _ s
    unfold RawHeader.tryFrom
    simp [headerBytes_eq, hs s, hsp]
  | false =>
    rw [hsp] at h2
    have hsl : sliceFrom? data dib.size = some rest := by
      rw [dib_size, sliceFrom?_length _ _ (by rw [hr]; simp), hr]; simp
    simp only [Bool.not_false, if_true, hsl, Res.ofOption_some, Res.bind_ok] at h2
    rw [Res.bind_eq_ok] at h2
    obtain ⟨v, h3, h4⟩ := h2
    have h3' : VIB.tryFrom cfg rest = .ok v := by
      cases hd : VIB.tryFrom cfg rest <;> rw [hd] at h3 <;> simp_all
    cases h4
    obtain ⟨r', hr'⟩ := vib_prefix _ _ _ h3'
    refine ⟨⟨r', by rw [hr, hr', headerBytes_eq]; simp⟩, ?_, h1', ?_⟩
    · constructor
      · intro h; simp at h
      · intro h; rw [← special_iff, hsp] at h; simp at h
    · intro hc s
      have hv := vib_suffix cfg rest s v h3' (hc v rfl)
      unfold RawHeader.tryFrom
      have hsl' : sliceFrom? (headerBytes cfg.plaintextFirst ⟨dib, some v⟩ ++ s) dib.size =
          some (vibBytes cfg.plaintextFirst v ++ s) := by
        rw [dib_size, headerBytes_eq, List.append_assoc, sliceFrom?_length _ _ (by simp)]; simp
      have hd : DIB.tryFrom (headerBytes cfg.plaintextFirst ⟨dib, some v⟩ ++ s) = .ok dib := by
        rw [headerBytes_eq, List.append_assoc]; exact hs _
      rw [hd]
      simp only [Res.mapErr_ok, Res.bind_ok, hsp, Bool.not_false, if_true, hsl', Res.ofOption_some, hv]

theorem recordHeader_ok (cfg : Cfg) (data : List UInt8) (h : RecordHeader)
    (hh : RecordHeader.tryFrom cfg data = .ok h) :
    RawHeader.tryFrom cfg data = .ok h.raw ∧ ProcessedHeader.tryFrom h.raw = .ok h.processed := by
  unfold RecordHeader.tryFrom at hh
  rw [Res.bind_eq_ok] at hh
  obtain ⟨raw, h1, h2⟩ := hh
  rw [Res.bind_eq_ok] at h2
  obtain ⟨p, h3, h4⟩ := h2
  cases h4
  exact ⟨h1, h3⟩

theorem processed_isSome (cfg : Cfg) (data : List UInt8) (h : RecordHeader)
    (hh : RecordHeader.tryFrom cfg data = .ok h) : ∃ d, h.processed.dataInfo = some d := by
  obtain ⟨h1, h2⟩ := recordHeader_ok cfg data h hh
  obtain ⟨_, hn, _, _⟩ := rawHeader_ok cfg data h.raw h1
  unfold ProcessedHeader.tryFrom at h2
  cases hv : h.raw.vib with
  | none =>
    rw [hv] at h2
    simp only [(special_iff _).mpr (hn.mp hv), if_true] at h2
    rw [Res.bind_eq_ok] at h2
    obtain ⟨d, _, h4⟩ := h2
    cases h4' : h.processed
    rw [h4'] at h4
    cases h4
    exact ⟨d, rfl⟩
  | some v =>
    rw [hv] at h2
    simp only at h2
    rw [Res.bind_eq_ok] at h2
    obtain ⟨_, _, h2⟩ := h2
    rw [Res.bind_eq_ok] at h2
    obtain ⟨d, _, h4⟩ := h2
    cases h4' : h.processed
    rw [h4'] at h4
    cases h4
    exact ⟨_, rfl⟩

/-! ## Records -/

theorem record_ok (cfg : Cfg) (lsb : Bool) (data : List UInt8) (r : DataRecord) :
    DataRecord.parse cfg lsb data = .ok r ↔
    RecordHeader.tryFrom cfg data = .ok r.header ∧ ∃ rest di,
      data = headerBytes cfg.plaintextFirst r.header.raw ++ rest ∧
      r.header.processed.dataInfo = some di ∧ di.coding.parse cfg lsb rest = .ok r.data ∧
      r.rawBytes = headerBytes cfg.plaintextFirst r.header.raw ++ rest.take r.data.size := by
  unfold DataRecord.parse
  constructor
  · intro h
    rw [Res.bind_eq_ok] at h
    obtain ⟨hd, h1, h2⟩ := h
    obtain ⟨h1a, h1b⟩ := recordHeader_ok _ _ _ h1
    obtain ⟨⟨rest, hr⟩, _, _, _⟩ := rawHeader_ok _ _ _ h1a
    obtain ⟨di, hdi⟩ := processed_isSome _ _ _ h1
    have hsz := headerSize_eq cfg.plaintextFirst hd
    have hle : hd.size ≤ data.length := by rw [hsz, hr]; simp
    have hsl : sliceFrom? data hd.size = some rest := by
      rw [sliceFrom?_length _ _ hle, hsz, hr]; simp
    simp only [show ¬ data.length < hd.size by omega, if_false, hsl, Res.ofOption_some, Res.bind_ok,
      hdi] at h2
    rw [Res.bind_eq_ok] at h2
    obtain ⟨d, h3, h4⟩ := h2
    rw [sliceTo?_le _ _ (by omega), Res.ofOption_some, Res.bind_ok] at h4
    cases h4
    refine ⟨h1, rest, di, hr, hdi, h3, ?_⟩
    simp only
    rw [← List.take_eq_take_min, hsz]
    conv_lhs => rw [hr]
    rw [List.take_length_add_append]
  · rintro ⟨h1, rest, di, hr, hdi, h3, h4⟩
    have hsz := headerSize_eq cfg.plaintextFirst r.header
    have hle : r.header.size ≤ data.length := by rw [hsz, hr]; simp
    have hsl : sliceFrom? data r.header.size = some rest := by
      rw [sliceFrom?_length _ _ hle, hsz, hr]; simp
    rw [h1, Res.bind_ok]
    simp only [show ¬ data.length < r.header.size by omega, if_false, hsl, Res.ofOption_some,
      Res.bind_ok, hdi, h3]
    rw [sliceTo?_le _ _ (by omega), Res.ofOption_some, Res.bind_ok, ← List.take_eq_take_min, hsz]
    have : List.take ((headerBytes cfg.plaintextFirst r.header.raw).length + r.data.size) data =
        r.rawBytes := by
      rw [h4]
      conv_lhs => rw [hr]
      rw [List.take_length_add_append]
    rw [this]

theorem raw_prefix (cfg : Cfg) (lsb : Bool) (data : List UInt8) (r : DataRecord)
    (h : DataRecord.parse cfg lsb data = .ok r) :
    (∃ rest, data = r.rawBytes ++ rest) ∧ r.rawBytes ≠ [] := by
  obtain ⟨_, rest, _, hr, _, _, hraw⟩ := (record_ok _ _ _ _).mp h
  rw [hraw]
  refine ⟨⟨rest.drop r.data.size, ?_⟩, ?_⟩
  · rw [List.append_assoc, List.take_append_drop]; exact hr
  · simp [headerBytes]

/-! ## Special functions -/

theorem parse_7F (cfg : Cfg) (lsb : Bool) (rest : List UInt8) :
    ∃ r, DataRecord.parse cfg lsb (0x7F :: rest) = .ok r ∧ r.rawBytes = [0x7F] := by
  have h1 : RawHeader.tryFrom cfg (0x7F :: rest) = .ok ⟨⟨0x7F, none⟩, none⟩ := by
    unfold RawHeader.tryFrom
    rw [show DIB.tryFrom (0x7F :: rest) = .ok ⟨0x7F, none⟩ from
      (dib_ok _ _).mpr (.inl ⟨_, _, rfl, by decide, rfl⟩)]
    rfl
  have h2 : ∃ d, ProcessedHeader.tryFrom ⟨⟨0x7F, none⟩, none⟩ = .ok ⟨some d, none⟩ ∧
      d.coding = .specialFunctions .globalReadoutRequest :=
    ⟨_, rfl, rfl⟩
  obtain ⟨d, h2, h3⟩ := h2
  refine ⟨⟨⟨⟨⟨0x7F, none⟩, none⟩, ⟨some d, none⟩⟩, ⟨none, 0⟩, [0x7F]⟩, ?_, rfl⟩
  rw [record_ok]
  refine ⟨by unfold RecordHeader.tryFrom; rw [h1, Res.bind_ok, h2]; rfl, rest, d, rfl, rfl, ?_, ?_⟩
  · rw [h3]; rfl
  · simp [headerBytes]

theorem parse_rest (cfg : Cfg) (lsb : Bool) (dif : UInt8) (h : dif = 0x0F ∨ dif = 0x1F)
    (rest : List UInt8) :
    ∃ r, DataRecord.parse cfg lsb (dif :: rest) = .ok r ∧ r.rawBytes = dif :: rest ∧
      r.data = ⟨some (.manufacturerSpecific rest), rest.length⟩ := by
  have h0 : dif.toNat < 128 := by rcases h with rfl | rfl <;> decide
  have hs : isSpecialFunction dif = true := by rcases h with rfl | rfl <;> decide
  have h1 : RawHeader.tryFrom cfg (dif :: rest) = .ok ⟨⟨dif, none⟩, none⟩ := by
    unfold RawHeader.tryFrom
    rw [show DIB.tryFrom (dif :: rest) = .ok ⟨dif, none⟩ from
      (dib_ok _ _).mpr (.inl ⟨_, _, rfl, h0, rfl⟩)]
    simp [hs]
  have h2 : ∃ d, ProcessedHeader.tryFrom ⟨⟨dif, none⟩, none⟩ = .ok ⟨some d, none⟩ ∧
      (d.coding = .specialFunctions .manufacturerSpecific ∨
        d.coding = .specialFunctions .moreRecordsFollow) := by
    rcases h with rfl | rfl
    · exact ⟨_, rfl, .inl rfl⟩
    · exact ⟨_, rfl, .inr rfl⟩
  obtain ⟨d, h2, h3⟩ := h2
  refine ⟨⟨⟨⟨⟨dif, none⟩, none⟩, ⟨some d, none⟩⟩, ⟨some (.manufacturerSpecific rest), rest.length⟩,
    dif :: rest⟩, ?_, rfl, rfl⟩
  rw [record_ok]
  refine ⟨by unfold RecordHeader.tryFrom; rw [h1, Res.bind_ok, h2]; rfl, rest, d, rfl, rfl, ?_, ?_⟩
  · rcases h3 with h3 | h3 <;> rw [h3] <;> rfl
  · simp [headerBytes]

/-! ## Iteration -/

theorem next_skip (cfg : Cfg) (s : DataRecords) (h : s.offset < s.data.length)
    (hs : isSkipped s.data[s.offset]) :
    s.next cfg = DataRecords.next cfg { s with offset := s.offset + 1 } := by
  rw [DataRecords.next]
  simp only [h, dite_true]
  have h1 : isSpecialFunction s.data[s.offset] = true := (special_iff _).mpr hs.1
  have h2 : specialFunction s.data[s.offset] = .idleFiller ∨
      specialFunction s.data[s.offset] = .reserved := by
    have : ∀ b : UInt8, isSkipped b → specialFunction b = .idleFiller ∨
      specialFunction b = .reserved := by decide +kernel
    exact this _ hs
  rw [h1]
  rcases h2 with h2 | h2 <;> rw [h2] <;> rfl

theorem next_end (cfg : Cfg) (s : DataRecords) (h : s.data.length ≤ s.offset) :
    s.next cfg = (none, s) := by
  rw [DataRecords.next]
  simp [show ¬ s.offset < s.data.length by omega]

theorem next_record (cfg : Cfg) (s : DataRecords) (h : s.offset < s.data.length)
    (hs : ¬ isSkipped s.data[s.offset]) :
    (∃ r, DataRecord.parse cfg s.lsb (s.data.drop s.offset) = .ok r ∧
      s.next cfg = (some (.ok r), { s with offset := s.offset + r.rawBytes.length })) ∨
    (∃ e, DataRecord.parse cfg s.lsb (s.data.drop s.offset) = .err e ∧
      s.next cfg = (some (.err e), { s with offset := s.data.length })) ∨
    (DataRecord.parse cfg s.lsb (s.data.drop s.offset) = .panic ∧ s.next cfg = (some .panic, s)) := by
  rw [DataRecords.next]
  simp only [h, dite_true]
  have hd : s.data.drop s.offset = s.data[s.offset] :: s.data.drop (s.offset + 1) :=
    List.drop_eq_getElem_cons h
  by_cases hsp : isSpecialFunction s.data[s.offset] = true
  · have hm := (special_iff _).mp hsp
    have hc : s.data[s.offset] = 0x0F ∨ s.data[s.offset] = 0x1F ∨ s.data[s.offset] = 0x7F := by
      by_contra hc
      simp only [not_or] at hc
      exact hs ⟨hm, hc⟩
    left
    rcases hc with hc | hc | hc
    · obtain ⟨r, h1, h2, _⟩ := parse_rest cfg s.lsb 0x0F (.inl rfl) (s.data.drop (s.offset + 1))
      rw [hc] at hd
      refine ⟨r, by rw [hd]; exact h1, ?_⟩
      rw [hc, hd, h1, h2, ← hd]
      simp only [List.length_drop, show isSpecialFunction 0x0F = true by decide, if_true,
        show specialFunction 0x0F = .manufacturerSpecific by decide]
      rw [show s.offset + (s.data.length - s.offset) = s.data.length by omega]
    · obtain ⟨r, h1, h2, _⟩ := parse_rest cfg s.lsb 0x1F (.inr rfl) (s.data.drop (s.offset + 1))
      rw [hc] at hd
      refine ⟨r, by rw [hd]; exact h1, ?_⟩
      rw [hc, hd, h1, h2, ← hd]
      simp only [List.length_drop, show isSpecialFunction 0x1F = true by decide, if_true,
        show specialFunction 0x1F = .moreRecordsFollow by decide]
      rw [show s.offset + (s.data.length - s.offset) = s.data.length by omega]
    · obtain ⟨r, h1, h2⟩ := parse_7F cfg s.lsb (s.data.drop (s.offset + 1))
      rw [hc] at hd
      refine ⟨r, by rw [hd]; exact h1, ?_⟩
      rw [hc, hd, h1, h2]
      simp [show isSpecialFunction 0x7F = true by decide,
        show specialFunction 0x7F = .globalReadoutRequest by decide]
  · simp only [hsp, Bool.false_eq_true, if_false]
    cases hp : DataRecord.parse cfg s.lsb (s.data.drop s.offset) with
    | ok r => left; exact ⟨r, rfl, rfl⟩
    | err e => right; left; exact ⟨e, rfl, rfl⟩
    | panic => right; right; exact ⟨rfl, rfl⟩

theorem calls_end (cfg : Cfg) (n : Nat) (s : DataRecords) (h : s.data.length ≤ s.offset) :
    s.calls cfg n = List.replicate n none := by
  induction n with
  | zero => rfl
  | succ n ih => rw [DataRecords.calls, next_end _ _ h]; simp [ih, List.replicate_succ]

/-- What follows the items: `None` for ever, or nothing after a panic. -/
def afterItems (items : List (Res RecordError DataRecord)) (n : Nat) :
    List (Option (Res RecordError DataRecord)) :=
  if items.getLast? = some .panic then [] else List.replicate n none

theorem calls_spec (cfg : Cfg) (s : DataRecords) (h : s.offset ≤ s.data.length) :
    ∃ items, Items (DataRecord.parse cfg s.lsb) (s.data.drop s.offset) items ∧
      items.length ≤ s.data.length - s.offset ∧
      ∀ n, s.calls cfg n = (items.map some ++ afterItems items n).take n := by
  generalize hm : s.data.length - s.offset = m
  induction m using Nat.strong_induction_on generalizing s with
  | _ m ih =>
    by_cases hlt : s.offset < s.data.length
    · have hd : s.data.drop s.offset = s.data[s.offset] :: s.data.drop (s.offset + 1) :=
        List.drop_eq_getElem_cons hlt
      by_cases hs : isSkipped s.data[s.offset]
      · obtain ⟨items, h1, h2, h3⟩ := ih (m - 1) (by omega) { s with offset := s.offset + 1 }
          (by simp; omega) (by simp; omega)
        refine ⟨items, ?_, by omega, ?_⟩
        · rw [hd]; exact .skip _ _ _ hs h1
        · intro n
          rw [← h3 n]
          cases n with
          | zero => rfl
          | succ n => rw [DataRecords.calls, next_skip _ _ hlt hs, DataRecords.calls]
      · rcases next_record cfg s hlt hs with ⟨r, hp, hn⟩ | ⟨e, hp, hn⟩ | ⟨hp, hn⟩
        · obtain ⟨⟨rest, hr⟩, hne⟩ := raw_prefix _ _ _ _ hp
          have hpos : 0 < r.rawBytes.length := List.length_pos_iff.mpr hne
          have hlen : r.rawBytes.length + rest.length = s.data.length - s.offset := by
            rw [← List.length_append, ← hr, List.length_drop]
          have hdrop : s.data.drop (s.offset + r.rawBytes.length) = rest := by
            rw [← List.drop_drop, hr]; simp
          obtain ⟨items, h1, h2, h3⟩ := ih (m - r.rawBytes.length) (by omega)
            { s with offset := s.offset + r.rawBytes.length } (by simp; omega) (by simp; omega)
          refine ⟨.ok r :: items, ?_, by simp; omega, ?_⟩
          · rw [hd] at hr hp ⊢
            simp only [hdrop] at h1
            exact .record _ _ rest r items hs hp hr hne h1
          · intro n
            cases n with
            | zero => simp [DataRecords.calls]
            | succ n =>
              rw [DataRecords.calls, hn]
              simp only [h3 n, List.map_cons, List.cons_append, List.take_succ_cons]
              congr 1
              have he : (Res.ok r :: items).getLast? = some .panic ↔ items.getLast? = some .panic := by
                cases items with
                | nil => simp
                | cons a as => simp
              unfold afterItems
              by_cases hq : items.getLast? = some .panic
              · simp [hq, he.mpr hq]
              · rw [if_neg hq, if_neg (fun h => hq (he.mp h)), List.replicate_succ', ← List.append_assoc]
                exact (List.take_append_of_le_length (by simp)).symm
        · refine ⟨[.err e], ?_, by simp; omega, ?_⟩
          · rw [hd] at hp ⊢
            rw [← hp]
            exact .fail _ _ hs (by rw [hp]; simp)
          · intro n
            cases n with
            | zero => simp [DataRecords.calls]
            | succ n =>
              rw [DataRecords.calls, hn]
              simp only [calls_end cfg n { s with offset := s.data.length } (Nat.le_refl _)]
              simp [afterItems]
        · refine ⟨[.panic], ?_, by simp; omega, ?_⟩
          · rw [hd] at hp ⊢
            rw [← hp]
            exact .fail _ _ hs (by rw [hp]; simp)
          · intro n
            cases n with
            | zero => simp [DataRecords.calls]
            | succ n =>
              rw [DataRecords.calls, hn]
              simp [afterItems]
    · refine ⟨[], ?_, by simp, ?_⟩
      · rw [List.drop_eq_nil_of_le (by omega)]; exact .nil
      · intro n
        rw [calls_end _ _ _ (by omega)]
        simp [afterItems]

theorem items_unique {parse : List UInt8 → Res RecordError DataRecord} {data : List UInt8}
    {i j : List (Res RecordError DataRecord)} (hi : Items parse data i) (hj : Items parse data j) :
    i = j := by
  induction hi generalizing j with
  | nil => cases hj; rfl
  | skip b data items hs _ ih =>
    cases hj with
    | skip _ _ _ _ h => exact ih h
    | record _ _ _ _ _ hn => exact absurd hs hn
    | fail _ _ hn => exact absurd hs hn
  | record b data rest r items hn hp hr hne _ ih =>
    cases hj with
    | skip _ _ _ hs => exact absurd hs hn
    | record _ _ rest' r' items' _ hp' hr' _ h' =>
      rw [hp] at hp'
      cases hp'
      have : rest = rest' := List.append_cancel_left (hr.symm.trans hr')
      subst this
      rw [ih h']
    | fail _ _ _ hf => exact absurd hp (hf r)
  | fail b data hn hf =>
    cases hj with
    | skip _ _ _ hs => exact absurd hs hn
    | record _ _ _ r _ _ hp => exact absurd hp (hf r)
    | fail _ _ _ _ => rfl

theorem collect_of_calls (cfg : Cfg) (s : DataRecords) (items : List (Res RecordError DataRecord))
    (hl : items.length ≤ s.data.length)
    (h : ∀ n, s.calls cfg n = (items.map some ++ afterItems items n).take n) :
    s.collect cfg = items := by
  unfold DataRecords.collect
  rw [h]
  have h1 : ((items.map some ++ afterItems items (s.data.length + 1)).take
      (s.data.length + 1)).takeWhile Option.isSome = items.map some := by
    rw [List.take_append, List.takeWhile_append_of_pos]
    · rw [List.take_of_length_le (by simp; omega)]
      have : (List.take (s.data.length + 1 - (List.map some items).length)
          (afterItems items (s.data.length + 1))).takeWhile Option.isSome = [] := by
        unfold afterItems
        split
        · simp
        · rw [List.take_replicate]
          cases min (s.data.length + 1 - (List.map some items).length) (s.data.length + 1) with
          | zero => simp
          | succ k => simp [List.replicate_succ]
      rw [this, List.append_nil]
    · intro x hx
      have := List.mem_of_mem_take hx
      simp at this
      obtain ⟨a, _, rfl⟩ := this
      rfl
  rw [h1]
  simp [List.filterMap_map]

theorem parseDataRecords_iff (cfg : Cfg) (lsb : Bool) (data : List UInt8)
    (items : List (Res RecordError DataRecord)) :
    parseDataRecords cfg lsb data = items ↔ Items (DataRecord.parse cfg lsb) data items := by
  obtain ⟨i, h1, h2, h3⟩ := calls_spec cfg (DataRecords.new data lsb) (Nat.zero_le _)
  have hc := collect_of_calls cfg (DataRecords.new data lsb) i h2 h3
  simp only [DataRecords.new, List.drop_zero] at h1
  unfold parseDataRecords
  rw [hc]
  constructor
  · rintro rfl; exact h1
  · intro h; exact items_unique h1 h

/-! ## Locality of the data field -/

theorem getElem?_left {p s t : List UInt8} {i : Nat} (h : i < p.length) :
    (p ++ s)[i]? = (p ++ t)[i]? := by
  rw [List.getElem?_append_left h, List.getElem?_append_left h]

theorem bcdDigitLoop_local (p s t : List UInt8) (n : Nat) (lsb : Bool) (hn : (n + 1) / 2 ≤ p.length) :
    ∀ (rem i : Nat) (v w : Int), i + rem ≤ n →
      bcdDigitLoop (p ++ s) n lsb rem i v w = bcdDigitLoop (p ++ t) n lsb rem i v w := by
  intro rem
  induction rem with
  | zero => intros; rfl
  | succ rem ih =>
    intro i v w h
    have hi : (if lsb then (n - i - 1) / 2 else i / 2) < p.length := by
      split <;> omega
    rw [bcdDigitLoop, bcdDigitLoop, getElem?_left (s := s) (t := t) hi]
    congr 1
    funext b
    simp only
    split <;> split <;> first | rfl | exact ih _ _ _ (by omega)

theorem bcd_local (p s t : List UInt8) (n : Nat) (sign : Int) (lsb : Bool) (hn : (n + 1) / 2 ≤ p.length) :
    bcdToValue (p ++ s) n sign lsb = bcdToValue (p ++ t) n sign lsb := by
  unfold bcdToValue
  rw [if_neg (by simp; omega), if_neg (by simp; omega), bcdDigitLoop_local p s t n lsb hn n 0 0 1 (by omega)]

theorem bcd_size {p : List UInt8} {n : Nat} {sign : Int} {lsb : Bool} {d : Data}
    (h : bcdToValue p n sign lsb = .ok d) : d.size = (n + 1) / 2 := by
  unfold bcdToValue at h
  split at h
  · simp at h
  · rw [Res.bind_eq_ok] at h
    obtain ⟨v, _, h⟩ := h
    cases h; rfl

theorem integer_local (cfg : Cfg) (p s t : List UInt8) (n : Nat) (hn : n ≤ p.length) :
    integerChecked cfg (p ++ s) n = integerChecked cfg (p ++ t) n := by
  have : ∀ u : List UInt8, (p ++ u).take (if n > 8 then 8 else n) = p.take (if n > 8 then 8 else n) := by
    intro u
    rw [List.take_append_of_le_length]
    split <;> omega
  have h1 : ∀ u : List UInt8, ¬ (p ++ u).length < n := by intro u; simp; omega
  unfold integerChecked integerToValue
  simp only [h1, if_false, this]

theorem integer_size {cfg : Cfg} {p : List UInt8} {n : Nat} {d : Data}
    (h : integerChecked cfg p n = .ok d) : d.size = n := by
  unfold integerChecked at h
  by_cases h1 : p.length < n
  · rw [if_pos h1] at h; simp at h
  rw [if_neg h1] at h
  unfold integerToValue at h
  generalize leLoop (p.take (if n > 8 then 8 else n)) 0 0 = q at h
  obtain ⟨v, sh⟩ := q
  simp only at h
  by_cases h2 : sh = 0 ∧ cfg.overflowChecks = true
  · rw [if_pos h2] at h; simp at h
  · rw [if_neg h2] at h
    cases h; rfl

theorem byteAt_local {p s t : List UInt8} {i : Nat} (h : i < p.length) :
    byteAt (p ++ s) i = byteAt (p ++ t) i := by
  unfold byteAt; rw [getElem?_left h]

theorem parseYear_local {p s t : List UInt8} (h : 2 ≤ p.length) :
    parseYear (p ++ s) = parseYear (p ++ t) := by
  unfold parseYear
  rw [getElem?_left (s := s) (t := t) (show 1 < p.length by omega),
    getElem?_left (s := s) (t := t) (show 0 < p.length by omega)]

theorem coding_local (cfg : Cfg) (lsb : Bool) (c : Coding) (hc : ¬ toTheEnd c) (p s t : List UInt8)
    (d : Data) (h : c.parse cfg lsb (p ++ t) = .ok d) (hs : d.size ≤ p.length) :
    c.parse cfg lsb (p ++ s) = .ok d := by
  have hint : ∀ n, integerChecked cfg (p ++ t) n = .ok d → integerChecked cfg (p ++ s) n = .ok d := by
    intro n hn
    rw [← hn]
    exact integer_local cfg p s t n (by rw [← integer_size hn]; exact hs)
  have hbcd : ∀ n, bcdToValue (p ++ t) n 1 lsb = .ok d → bcdToValue (p ++ s) n 1 lsb = .ok d := by
    intro n hn
    rw [← hn]
    exact bcd_local p s t n 1 lsb (by rw [← bcd_size hn]; exact hs)
  cases c with
  | noData => exact h
  | integer8 => exact hint 1 h
  | integer16 => exact hint 2 h
  | integer24 => exact hint 3 h
  | integer32 => exact hint 4 h
  | integer48 => exact hint 6 h
  | integer64 => exact hint 8 h
  | selectionForReadout => exact h
  | bcd2 => exact hbcd 2 h
  | bcd4 => exact hbcd 4 h
  | bcd6 => exact hbcd 6 h
  | bcd8 => exact hbcd 8 h
  | bcd12 => exact hbcd 12 h
  | specialFunctions f =>
    cases f with
    | manufacturerSpecific => exact absurd (.inl rfl) hc
    | moreRecordsFollow => exact absurd (.inr rfl) hc
    | idleFiller => exact h
    | globalReadoutRequest => exact h
    | reserved => exact h
  | real32 =>
    have hz : d.size = 4 := by
      simp only [Coding.parse, Res.bind_eq_ok] at h
      obtain ⟨_, _, _, _, _, _, _, _, h⟩ := h
      cases h; rfl
    rw [← h]
    simp only [Coding.parse]
    rw [byteAt_local (t := t) (i := 0) (by omega), byteAt_local (t := t) (i := 1) (by omega),
      byteAt_local (t := t) (i := 2) (by omega), byteAt_local (t := t) (i := 3) (by omega)]
  | dateTypeG =>
    have hz : d.size = 2 := by
      simp only [Coding.parse, Res.bind_eq_ok] at h
      obtain ⟨_, _, _, _, h⟩ := h
      cases h; rfl
    rw [← h]
    simp only [Coding.parse]
    rw [byteAt_local (t := t) (i := 0) (by omega), byteAt_local (t := t) (i := 1) (by omega),
      parseYear_local (t := t) (by omega)]
  | dateTimeTypeF =>
    have hz : d.size = 4 := by
      simp only [Coding.parse, Res.bind_eq_ok] at h
      obtain ⟨_, _, _, _, _, _, _, _, h⟩ := h
      cases h; rfl
    rw [← h]
    simp only [Coding.parse]
    rw [byteAt_local (t := t) (i := 0) (by omega), byteAt_local (t := t) (i := 1) (by omega),
      byteAt_local (t := t) (i := 2) (by omega), byteAt_local (t := t) (i := 3) (by omega),
      parseYear_local (t := t) (by omega)]
  | dateTimeTypeJ =>
    have hz : d.size = 4 := by
      simp only [Coding.parse, Res.bind_eq_ok] at h
      obtain ⟨_, _, _, _, _, _, h⟩ := h
      cases h; rfl
    rw [← h]
    simp only [Coding.parse]
    rw [byteAt_local (t := t) (i := 0) (by omega), byteAt_local (t := t) (i := 1) (by omega),
      byteAt_local (t := t) (i := 2) (by omega)]
  | dateTimeTypeI =>
    have hz : d.size = 6 := by
      simp only [Coding.parse, Res.bind_eq_ok] at h
      obtain ⟨_, _, _, _, _, _, _, _, _, _, h⟩ := h
      cases h; rfl
    rw [← h]
    simp only [Coding.parse]
    rw [byteAt_local (t := t) (i := 0) (by omega), byteAt_local (t := t) (i := 1) (by omega),
      byteAt_local (t := t) (i := 2) (by omega), byteAt_local (t := t) (i := 3) (by omega),
      byteAt_local (t := t) (i := 4) (by omega), parseYear_local (t := t) (by omega)]
  | variableLength =>
    cases p with
    | nil =>
      cases t with
      | nil => simp [Coding.parse, parseVariableLength] at h
      | cons b t =>
        obtain ⟨_, n, _, hz, _⟩ := C31_consumed cfg lsb b t d h
        simp at hs; omega
    | cons b p =>
      obtain ⟨k, n, hk, hz, hl⟩ := C31_consumed cfg lsb b (p ++ t) d h
      simp at hs
      rw [← h, List.cons_append, List.cons_append, lvar_parse cfg lsb b (p ++ t) k n hk hl,
        lvar_parse cfg lsb b (p ++ s) k n hk (by simp; omega),
        List.take_append_of_le_length (by omega), List.take_append_of_le_length (by omega)]

/-! ## Panics -/

theorem bcdDigits_ne_panic (data : List UInt8) (n : Nat) (lsb : Bool) :
    ∀ (rem i : Nat) (v w : Int), bcdDigitLoop data n lsb rem i v w ≠ .panic := by
  intro rem
  induction rem with
  | zero => intros; simp [bcdDigitLoop]
  | succ rem ih =>
    intro i v w h
    rw [bcdDigitLoop, Res.bind_eq_panic] at h
    rcases h with h | ⟨b, _, h⟩
    · exact Res.ofOption_ne_panic h
    · simp only at h
      split at h
      · split at h
        · simp at h
        · exact ih _ _ _ h
      · split at h
        · simp at h
        · exact ih _ _ _ h

theorem bcd_ne_panic (data : List UInt8) (n : Nat) (sign : Int) (lsb : Bool) :
    bcdToValue data n sign lsb ≠ .panic := by
  unfold bcdToValue
  split
  · simp
  · intro h
    rw [Res.bind_eq_panic] at h
    rcases h with h | ⟨v, _, h⟩
    · exact bcdDigits_ne_panic _ _ _ _ _ _ _ h
    · simp at h

theorem integer_ne_panic (cfg : Cfg) (data : List UInt8) (n : Nat) (hn : 0 < n) :
    integerChecked cfg data n ≠ .panic := by
  unfold integerChecked
  split
  · simp
  · rw [integerToValue_eq cfg data n (by omega) hn]; simp

theorem coding_panic_iff (cfg : Cfg) (lsb : Bool) (c : Coding) (input : List UInt8) :
    c.parse cfg lsb input = .panic ↔
      c = .variableLength ∧ input.head? = some 0xE0 ∧ cfg.overflowChecks = true := by
  have hb : ∀ i, byteAt input i ≠ .panic := fun i => Res.ofOption_ne_panic
  cases c with
  | noData => simp [Coding.parse]
  | integer8 => simpa [Coding.parse] using integer_ne_panic cfg input 1 (by omega)
  | integer16 => simpa [Coding.parse] using integer_ne_panic cfg input 2 (by omega)
  | integer24 => simpa [Coding.parse] using integer_ne_panic cfg input 3 (by omega)
  | integer32 => simpa [Coding.parse] using integer_ne_panic cfg input 4 (by omega)
  | integer48 => simpa [Coding.parse] using integer_ne_panic cfg input 6 (by omega)
  | integer64 => simpa [Coding.parse] using integer_ne_panic cfg input 8 (by omega)
  | selectionForReadout => simp [Coding.parse]
  | bcd2 => simpa [Coding.parse] using bcd_ne_panic input 2 1 lsb
  | bcd4 => simpa [Coding.parse] using bcd_ne_panic input 4 1 lsb
  | bcd6 => simpa [Coding.parse] using bcd_ne_panic input 6 1 lsb
  | bcd8 => simpa [Coding.parse] using bcd_ne_panic input 8 1 lsb
  | bcd12 => simpa [Coding.parse] using bcd_ne_panic input 12 1 lsb
  | specialFunctions f => cases f <;> simp [Coding.parse]
  | real32 => simp [Coding.parse, Res.bind_eq_panic, hb]
  | dateTypeG => simp [Coding.parse, Res.bind_eq_panic, hb]
  | dateTimeTypeF => simp [Coding.parse, Res.bind_eq_panic, hb]
  | dateTimeTypeJ => simp [Coding.parse, Res.bind_eq_panic, hb]
  | dateTimeTypeI => simp [Coding.parse, Res.bind_eq_panic, hb]
  | variableLength =>
    simp only [true_and]
    cases input with
    | nil => simp [Coding.parse, parseVariableLength]
    | cons b rest =>
      simp only [List.head?_cons, Option.some.injEq]
      by_cases hE : b = 0xE0
      · subst hE
        rw [C31_empty_integer]
        cases cfg.overflowChecks <;> simp
      simp only [hE, false_and, iff_false]
      cases hk : lvar b with
      | none =>
        obtain ⟨m, hm⟩ := C31_reserved cfg lsb b rest hk
        rw [hm]; simp
      | some kn =>
        obtain ⟨kind, n⟩ := kn
        by_cases hl : n ≤ rest.length
        · rw [lvar_parse cfg lsb b rest kind n hk hl]
          have hpos : kind = .binary → 0 < n := by
            have : ∀ b : UInt8, b ≠ 0xE0 → ∀ kn ∈ lvar b, kn.1 = .binary → 0 < kn.2 := by
              decide +kernel
            exact this b hE _ hk
          intro h
          unfold addLvarByte at h
          rw [Res.bind_eq_panic] at h
          rcases h with h | ⟨_, _, h⟩
          · cases kind with
            | text => simp [lvarValue] at h
            | positiveBcd => exact bcd_ne_panic _ _ _ _ h
            | negativeBcd => exact bcd_ne_panic _ _ _ _ h
            | binary =>
              refine integer_ne_panic _ _ _ ?_ h
              simp; have := hpos rfl; omega
          · simp at h
        · rw [C31_truncated cfg lsb b rest kind n hk (by omega)]; simp

end MBus
