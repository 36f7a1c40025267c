import Verif.Spec.PlainText
import Verif.Props.OutputRecords
/-!
# Lemmas for C163: the feature `plaintext-before-extension`
-/
namespace MBus
open MBus.Spec

variable {c p q : Bool}

theorem ascii_iff (vif : UInt8) : containsAscii vif = true ↔ vif = 0x7C ∨ vif = 0xFC := by
  revert vif; decide +kernel

theorem feature_vib (vif : UInt8) (rest : List UInt8) (h : ¬ (vif = 0x7C ∨ vif = 0xFC)) :
    VIB.tryFrom ⟨c, p⟩ (vif :: rest) = VIB.tryFrom ⟨c, q⟩ (vif :: rest) := by
  have h' : containsAscii vif = false := by
    rw [← Bool.not_eq_true]; exact fun hx => h ((ascii_iff vif).1 hx)
  unfold VIB.tryFrom
  simp only [List.head?_cons, Res.ofOption_some, Res.bind_ok, h', Bool.false_eq_true, and_false, if_false]

theorem dib_then (data : List UInt8) (d : DIB) (vif : UInt8) (rest : List UInt8) (h : DIB.tryFrom data = .ok d)
    (hs : isSpecialFunction d.dif = false) (hv : vif = 0x7C ∨ vif = 0xFC) : PlainTextHeader (dibBytes d ++ vif :: rest) := by
  have hs' : d.dif.toNat % 16 ≠ 15 := by
    intro hx; rw [(special_iff _).2 hx] at hs; cases hs
  rcases (dib_ok _ _).mp h with ⟨dif, r, -, hd, rfl⟩ | ⟨dif, difes, r, -, hd, hc, -, rfl⟩
  · exact ⟨dif, [], vif, rest, by simp [dibBytes], hs', .inl ⟨hd, rfl⟩, hv⟩
  · exact ⟨dif, difes, vif, rest, by simp [dibBytes], hs', .inr ⟨hd, hc⟩, hv⟩

theorem feature_header (data : List UInt8) (h : ¬ PlainTextHeader data) :
    RawHeader.tryFrom ⟨c, p⟩ data = RawHeader.tryFrom ⟨c, q⟩ data := by
  unfold RawHeader.tryFrom
  cases hd : DIB.tryFrom data with
  | err e => rfl
  | panic => rfl
  | ok d =>
    simp only [Res.mapErr, Res.bind_ok]
    cases hs : isSpecialFunction d.dif with
    | true => rfl
    | false =>
      obtain ⟨rest, hr, -⟩ := dib_prefix data d hd
      have hsl : sliceFrom? data d.size = some rest := by
        rw [dib_size, sliceFrom?_length _ _ (by rw [hr]; simp), hr]; simp
      simp only [Bool.not_false, if_true, hsl, Res.ofOption_some, Res.bind_ok]
      cases rest with
      | nil => rfl
      | cons vif rest =>
        rw [feature_vib (c := c) (p := p) (q := q) vif rest]
        intro hv
        exact h (hr ▸ dib_then data d vif rest hd hs hv)

theorem feature_integer (data : List UInt8) (n : Nat) : integerChecked ⟨c, p⟩ data n = integerChecked ⟨c, q⟩ data n := rfl

theorem feature_coding (k : Coding) (lsb : Bool) (data : List UInt8) :
    k.parse ⟨c, p⟩ lsb data = k.parse ⟨c, q⟩ lsb data := by
  unfold Coding.parse parseVariableLength
  simp only [feature_integer (c := c) (p := p) (q := q)]

theorem feature_parse_of {lsb : Bool} {data : List UInt8}
    (h : RawHeader.tryFrom ⟨c, p⟩ data = RawHeader.tryFrom ⟨c, q⟩ data) :
    DataRecord.parse ⟨c, p⟩ lsb data = DataRecord.parse ⟨c, q⟩ lsb data := by
  unfold DataRecord.parse RecordHeader.tryFrom
  rw [h]
  simp only [feature_coding (c := c) (p := p) (q := q)]

theorem feature_record (lsb : Bool) (data : List UInt8) (h : ¬ PlainTextHeader data) :
    DataRecord.parse ⟨c, p⟩ lsb data = DataRecord.parse ⟨c, q⟩ lsb data :=
  feature_parse_of (feature_header data h)

theorem feature_shown (lsb : Bool) (data : List UInt8) (r : DataRecord) (hp : DataRecord.parse ⟨c, p⟩ lsb data = .ok r)
    (h : ¬ PlainTextHeader r.headerBytes) : DataRecord.parse ⟨c, q⟩ lsb data = .ok r := by
  rw [← hp]
  refine (feature_parse_of ?_).symm
  obtain ⟨h1, rest, di, hr, hdi, hpp, hraw⟩ := (record_ok _ _ _ _).mp hp
  obtain ⟨h2, -⟩ := recordHeader_ok _ _ _ h1
  have hb := (C29_raw_bytes _ _ _ _ hp).2.2.1
  obtain ⟨-, hn, hd, -⟩ := rawHeader_ok _ _ _ h2
  obtain ⟨drest, hdr, -⟩ := dib_prefix data _ hd
  by_cases hx : PlainTextHeader data
  · cases hv : r.header.raw.vib with
    | none =>
      have hs : isSpecialFunction r.header.raw.dib.dif = true := (special_iff _).2 (hn.1 hv)
      unfold RawHeader.tryFrom
      simp [hd, hs]
    | some v =>
      have hs : isSpecialFunction r.header.raw.dib.dif = false := by
        rw [← Bool.not_eq_true]
        intro hsp
        rw [hn.2 ((special_iff _).1 hsp)] at hv
        cases hv
      have hvif : ¬ (v.vif = 0x7C ∨ v.vif = 0xFC) := by
        intro hvf
        apply h
        rw [hb, headerBytes_eq, hv]
        exact dib_then data _ v.vif _ hd hs hvf
      have hv2 : drest = v.vif :: drest.tail := by
        rw [hr, headerBytes_eq, hv] at hdr
        simp only [List.append_assoc, List.append_cancel_left_eq] at hdr
        rw [← hdr]
        simp [vibBytes]
      have hsl : sliceFrom? data r.header.raw.dib.size = some drest := by
        rw [dib_size, sliceFrom?_length _ _ (by rw [hdr]; simp), hdr]; simp
      unfold RawHeader.tryFrom
      simp only [hd, Res.mapErr, Res.bind_ok, hs, Bool.not_false, if_true, hsl, Res.ofOption_some]
      rw [hv2, feature_vib (c := c) (p := p) (q := q) v.vif _ hvif]
  · exact feature_header data hx

theorem feature_items {lsb : Bool} {d : List UInt8} {items : List (Res RecordError DataRecord)}
    (h : Items (DataRecord.parse ⟨c, p⟩ lsb) d items) (hi : ∀ x ∈ items, ∃ r, x = .ok r ∧ ¬ PlainTextHeader r.headerBytes) :
    Items (DataRecord.parse ⟨c, q⟩ lsb) d items := by
  induction h with
  | nil => exact .nil
  | skip b data items hs _ ih => exact .skip b data items hs (ih hi)
  | record b data rest r items hb hp hr hn hrest ih =>
    obtain ⟨r', hr', hpl⟩ := hi _ List.mem_cons_self
    cases hr'
    exact .record b data rest r items hb (feature_shown lsb _ r hp hpl) hr hn (ih fun x hx => hi x (List.mem_cons_of_mem _ hx))
  | fail b data hb hf =>
    obtain ⟨r, hr, -⟩ := hi _ List.mem_cons_self
    exact absurd hr (hf r)

theorem feature_without {lsb : Bool} {d : List UInt8} {items : List (Res RecordError DataRecord)}
    (h : Items (DataRecord.parse ⟨c, p⟩ lsb) d items) (hi : ∀ b ∈ d, b ≠ 0x7C ∧ b ≠ 0xFC) :
    Items (DataRecord.parse ⟨c, q⟩ lsb) d items := by
  have key : ∀ d : List UInt8, (∀ b ∈ d, b ≠ 0x7C ∧ b ≠ 0xFC) → ¬ PlainTextHeader d := by
    rintro d hd ⟨dif, difes, vif, rest, rfl, -, -, hv⟩
    have := hd vif (by simp)
    rcases hv with hv | hv
    · exact this.1 hv
    · exact this.2 hv
  induction h with
  | nil => exact .nil
  | skip b data items hs _ ih => exact .skip b data items hs (ih fun x hx => hi x (List.mem_cons_of_mem _ hx))
  | record b data rest r items hb hp hr hn hrest ih =>
    rw [feature_record (q := q) lsb _ (key _ hi)] at hp
    exact .record b data rest r items hb hp hr hn (ih fun x hx => hi x (by rw [hr]; simp [hx]))
  | fail b data hb hf =>
    have e := feature_record (c := c) (p := p) (q := q) lsb _ (key _ hi)
    rw [e] at hf ⊢
    exact .fail b data hb hf

theorem feature_collect (s : DataRecords)
    (hi : ∀ x ∈ s.collect ⟨c, p⟩, ∃ r, x = .ok r ∧ ¬ PlainTextHeader r.headerBytes) :
    s.collect ⟨c, q⟩ = s.collect ⟨c, p⟩ := by
  by_cases ho : s.offset ≤ s.data.length
  · obtain ⟨i, h1, h2, h3⟩ := calls_spec ⟨c, p⟩ s ho
    obtain ⟨j, k1, k2, k3⟩ := calls_spec ⟨c, q⟩ s ho
    have e1 := collect_of_calls ⟨c, p⟩ s i (by omega) h3
    have e2 := collect_of_calls ⟨c, q⟩ s j (by omega) k3
    rw [e1] at hi
    rw [e1, e2]
    exact items_unique k1 (feature_items h1 hi)
  · have e : ∀ cfg, s.collect cfg = [] := by
      intro cfg
      have hn : s.next cfg = (none, s) := by
        unfold DataRecords.next
        rw [dif_neg (by omega)]
      unfold DataRecords.collect DataRecords.calls
      rw [hn]
      rfl
    rw [e, e]

theorem collect_complete (items : List (Res RecordError DataRecord)) (out rs : List DataRecord) (o : Nat)
    (h : collectItems items out o = some (rs, none)) : ∃ l : List DataRecord, items = l.map .ok ∧ rs = out ++ l := by
  induction items generalizing out o with
  | nil => exact ⟨[], rfl, by simpa [collectItems] using h.symm⟩
  | cons x items ih =>
    cases x with
    | ok r =>
      obtain ⟨l, hl, hr⟩ := ih _ _ h
      exact ⟨r :: l, by simp [hl], by simp [hr]⟩
    | err e => simp [collectItems] at h
    | panic => simp [collectItems] at h

theorem feature_records (records : Option DataRecords) (outs : List DataRecord)
    (h : collectRecords ⟨c, p⟩ records = some (outs, none)) (ho : ∀ r ∈ outs, ¬ PlainTextHeader r.headerBytes) :
    collectRecords ⟨c, q⟩ records = some (outs, none) := by
  cases records with
  | none => exact h
  | some s =>
    unfold collectRecords at h ⊢
    simp only at h ⊢
    obtain ⟨l, hl, hr⟩ := collect_complete _ _ _ _ h
    simp only [List.nil_append] at hr
    subst hr
    rw [feature_collect (c := c) (p := p) (q := q) s, h]
    intro x hx
    rw [hl] at hx
    obtain ⟨r, hr, rfl⟩ := List.mem_map.1 hx
    exact ⟨r, rfl, ho r hr⟩

theorem shown_plain (rs : List DataRecord) (h : ∀ r ∈ recordOutputs rs, ¬ ShowsPlainText r) :
    ∀ r ∈ rs, ¬ PlainTextHeader r.headerBytes := by
  intro r hr hx
  obtain ⟨i, hi, he⟩ := List.mem_iff_getElem.1 hr
  refine h (recordOutput i r) ?_ ⟨r.headerBytes, hexSpaced_tokens _, hx⟩
  unfold recordOutputs
  refine List.mem_map.2 ⟨(r, i), ?_, rfl⟩
  rw [List.mem_zipIdx_iff_getElem?]
  simp [hi, he]

theorem feature_output (protocol : List Char) (frame : FrameOutput) (original normalized : List UInt8) (stripped : Bool)
    (payload : Option (List UInt8)) (userData : Option UserDataBlock) (records : Option DataRecords)
    (applicationError : Option AppError) (wirelessId : Option ManufacturerId) (sc : SecurityContext) (b : Bool)
    (o : DecodedOutput)
    (h : buildOutput ⟨c, p⟩ protocol frame original normalized stripped payload userData records applicationError wirelessId
        sc b = some o) (hc : ∀ d ∈ o.diagnostics, d.code ≠ "application.record_partial".toList)
    (hp : ∀ r ∈ o.records, ¬ ShowsPlainText r) :
    buildOutput ⟨c, q⟩ protocol frame original normalized stripped payload userData records applicationError wirelessId
        sc b = some o := by
  unfold buildOutput at h ⊢
  cases hr : collectRecords ⟨c, p⟩ records with
  | none => rw [hr] at h; cases h
  | some x =>
    obtain ⟨outs, err⟩ := x
    rw [hr] at h
    cases err with
    | some e =>
      simp only [Option.some.injEq] at h
      subst h
      exact absurd rfl (hc (recordDiagnostic e) (by simp))
    | none =>
      rw [feature_records (q := q) records outs hr]
      · exact h
      · simp only [Option.some.injEq] at h
        subst h
        exact shown_plain outs hp

end MBus
