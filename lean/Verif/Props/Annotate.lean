import Verif.Lemmas.AnnotateAgree
/-!
# C42, C95–C98: annotated telegrams

The text of a record's value in tooltips is the parameter `dt` of the model; every theorem holds for
all choices of it.
-/
namespace MBus
open Spec

/-- A tooltip text for the examples. -/
abbrev noText : Data → List Char := fun _ => []

/-- A wired telegram with four records: 4 byte volume with a DIFE, plain text unit, filler, and
manufacturer specific data. -/
def annotatedWired : List UInt8 :=
  wiredLong ([0x72, 0x78, 0x56, 0x34, 0x12, 0x24, 0x40, 0x01, 0x07, 0x55, 0x00, 0x00, 0x00] ++
    [0x84, 0x10, 0x13, 0x01, 0x02, 0x03, 0x04] ++ [0x2F] ++
    [0x01, 0xFC, 0x74, 0x02, 0x42, 0x41, 0x09] ++ [0x02, 0x93, 0x3A, 0x07, 0x00] ++ [0x0F, 0xAA, 0xBB])

/-! ## C42 -/

/-- C42 (partial: not for a single character followed by further bytes, see `C42_fails`): the segments
of an annotated telegram cover all its bytes in order, without gap or overlap. -/
theorem C42_covers_partial (cfg : Cfg) (dt : Data → List Char) (data : List UInt8)
    (segs : List ByteSegment) (h : annotateFrame cfg dt data = .ok segs)
    (he : ∀ x rest, data ≠ 0xE5 :: x :: rest) : Covers 0 data.length segs :=
  frame_covers _ _ _ _ h he

/-- C42: every byte then has exactly one label. -/
theorem C42_label_partial (cfg : Cfg) (dt : Data → List Char) (data : List UInt8)
    (segs : List ByteSegment) (h : annotateFrame cfg dt data = .ok segs)
    (he : ∀ x rest, data ≠ 0xE5 :: x :: rest) (p : Nat) (hp : p < data.length) :
    ∃ l, Labelled segs p l ∧ ∀ l', Labelled segs p l' → l' = l := by
  have hc := frame_covers _ _ _ _ h he
  obtain ⟨l, hl⟩ := covers_labelled hc (Nat.zero_le p) hp
  exact ⟨l, hl, fun l' h' => labelled_unique hc h' hl⟩

/-- C42 is not vacuous. -/
example : (match annotateFrame cfgRelease noText annotatedWired with
    | .ok segs => decide (segs.length = 30 ∧ Covers 0 annotatedWired.length segs)
    | _ => false) = true := by decide +kernel

/-- C42 is not vacuous: a wireless telegram with CRC. -/
example : (match annotateFrame cfgRelease noText sampleWireless with
    | .ok segs => decide (segs.length = 13 ∧ Covers 0 sampleWireless.length segs)
    | _ => false) = true := by decide +kernel

/-- C42 is false: after a single character only the first byte is annotated. -/
theorem C42_fails (cfg : Cfg) (dt : Data → List Char) :
    ∃ segs, annotateFrame cfg dt [0xE5, 0x00] = .ok segs ∧ ¬ Covers 0 2 segs := by
  obtain ⟨oc, tf⟩ := cfg
  refine ⟨[⟨0, 1, .startByte, "Single Character: 0xE5".toList, none, .frame⟩], ?_, by decide⟩
  cases oc <;> cases tf <;> rfl

/-! ## C95: Format A -/

/-- Towards C95, with the annotation of the link frame by the internal function. -/
theorem formatA_labels (cfg : Cfg) (dt : Data → List Char) (l : UInt8) (rest enc : List UInt8)
    (segs inner : List ByteSegment) (hf : FormatA (l :: rest) enc) (hl : l.toNat = rest.length)
    (hw : ∃ e, WiredFrame.tryFrom cfg enc = .err e)
    (hi : annotateWirelessInner cfg dt (l :: rest) = .ok inner)
    (h : annotateFrame cfg dt enc = .ok segs) :
    (∀ i, i < (l :: rest).length → ∀ label,
      Labelled segs (formatAPos i) label ↔ Labelled inner i label) ∧
    ∀ p, p < enc.length → (∀ i, i < (l :: rest).length → formatAPos i ≠ p) →
      ∃ text, Labelled segs p (.crc, text, none, .frame) := by
  have hlen := formatA_length hf
  obtain ⟨b, hb⟩ := C14_format_a_roundtrip_exact l rest enc (List.replicate 512 0) hf hl (by
    have := l.toNat_lt; simp only [List.length_replicate, List.length_cons] at hlen ⊢; omega)
  have hm := strip_maps hb
  have hA : annotateFormatA cfg dt enc (l :: rest) = .ok segs := by
    rcases frame_cases h with h | ⟨_, ⟨stripped, b', hs, h⟩ | ⟨h, hno⟩⟩
    · obtain ⟨e, he⟩ := hw
      unfold annotateWired at h
      rw [he] at h; cases h
    · rw [hb] at hs; cases hs; exact h
    · obtain ⟨e, he⟩ := hno _ _ hb
      unfold annotateFormatA at he
      rw [hi, Res.bind_ok] at he
      cases he
  obtain ⟨k1, k2, k3⟩ := formatA_ok _ _ _ _ _ _ hm hi hA
  have hmap := offsetMap_formatA hf
  have hcov := inner_covers _ _ _ _ hi
  have carry : ∀ i, i < (l :: rest).length → ∀ label, Labelled inner i label →
      Labelled segs (formatAPos i) label := by
    intro i hi' label hlab
    have := k2 i (by rw [hmap]; simpa using hi') label hlab
    simpa [hmap] using this
  refine ⟨?_, ?_⟩
  · intro i hi' label
    refine ⟨fun hlab => ?_, carry i hi' label⟩
    obtain ⟨l', hl'⟩ := covers_labelled hcov (Nat.zero_le i) hi'
    rw [labelled_unique k1 hlab (carry i hi' l' hl')]
    exact hl'
  · intro p hp hno
    rcases hm.all p (Nat.zero_le p) hp with hmem | ⟨q, hq, hpq⟩
    · rw [hmap, List.mem_map] at hmem
      obtain ⟨i, hi', he⟩ := hmem
      exact absurd he (hno i (List.mem_range.mp hi'))
    · exact ⟨_, k3 q hq p hpq⟩

/-- C95: in a telegram with Format A framing of a frame with a correct L field, every byte of the
frame carries the label it has in the annotation of the frame on its own, and every other byte is
labelled as CRC. -/
theorem C95_format_a (cfg : Cfg) (dt : Data → List Char) (l : UInt8) (rest enc : List UInt8)
    (segs inner : List ByteSegment) (hf : FormatA (l :: rest) enc) (hl : l.toNat = rest.length)
    (hw : ∃ e, WiredFrame.tryFrom cfg enc = .err e)
    (hw' : ∃ e, WiredFrame.tryFrom cfg (l :: rest) = .err e) (ha : ¬ BlockAt (l :: rest) 10)
    (hi : annotateFrame cfg dt (l :: rest) = .ok inner)
    (h : annotateFrame cfg dt enc = .ok segs) :
    (∀ i, i < (l :: rest).length → ∀ label,
      Labelled segs (formatAPos i) label ↔ Labelled inner i label) ∧
    ∀ p, p < enc.length → (∀ i, i < (l :: rest).length → formatAPos i ≠ p) →
      ∃ text, Labelled segs p (.crc, text, none, .frame) := by
  refine formatA_labels cfg dt l rest enc segs inner hf hl hw ?_ h
  rcases frame_cases hi with h | ⟨_, ⟨stripped, b, hs, _⟩ | ⟨h, _⟩⟩
  · obtain ⟨e, he⟩ := hw'
    unfold annotateWired at h
    rw [he] at h; cases h
  · obtain ⟨head, hi, lo, tl, tail, hl, hc, hd, _⟩ := strip_some hs
    exact absurd ⟨head, hi, lo, tl, hl, hd, hc⟩ ha
  · exact h

/-- A wireless frame of 27 bytes. -/
def formatAFrame : List UInt8 :=
  [0x1A, 0x44, 0xAE, 0x0C, 0x78, 0x56, 0x34, 0x12, 0x01, 0x07] ++
  ([0x78, 0x0B, 0x13, 0x43, 0x65, 0x87, 0x0C, 0x14, 0x01, 0x02, 0x03, 0x04, 0x02, 0xFD, 0x17, 0x00] ++
  [0x01])

/-- The same in Format A. -/
def formatABytes : List UInt8 :=
  [0x1A, 0x44, 0xAE, 0x0C, 0x78, 0x56, 0x34, 0x12, 0x01, 0x07] ++ [0x6F, 0x07] ++
  ([0x78, 0x0B, 0x13, 0x43, 0x65, 0x87, 0x0C, 0x14, 0x01, 0x02, 0x03, 0x04, 0x02, 0xFD, 0x17, 0x00] ++
  [0x90, 0xBB] ++ ([0x01] ++ [0xC2, 0x9A]))

theorem formatABytes_ok : FormatA formatAFrame formatABytes := by
  unfold formatAFrame formatABytes
  exact .mk _ _ _ _ _ rfl (by rw [← crc16_iff]; decide +kernel)
    (.cons _ _ _ _ _ rfl (by rw [← crc16_iff]; decide +kernel)
      (.last _ _ _ (by decide) (by decide) (by rw [← crc16_iff]; decide +kernel)))

/-- C95 is not vacuous: the data of the record at offset 23 of the frame continues after a CRC. -/
example : FormatA formatAFrame formatABytes ∧
    ¬ BlockAt formatAFrame 10 ∧
    (match annotateFrame cfgRelease noText formatAFrame,
        annotateFrame cfgRelease noText formatABytes with
      | .ok inner, .ok segs =>
        decide ((segs.filter (·.kind == .crc)).map (fun s => (s.start, s.stop)) =
            [(10, 12), (28, 30), (31, 33)] ∧
          (inner.filter (·.group == some 2)).map (fun s => (s.start, s.stop, s.kind)) =
            [(22, 23, .dif), (23, 24, .vif), (24, 25, .vife), (25, 27, .dataPayload)] ∧
          (segs.filter (·.group == some 2)).map (fun s => (s.start, s.stop, s.kind)) =
            [(24, 25, .dif), (25, 26, .vif), (26, 27, .vife), (27, 28, .dataPayload),
              (30, 31, .dataPayload)])
      | _, _ => false) = true := by
  refine ⟨formatABytes_ok, ?_, by decide +kernel⟩
  rw [blockAt_iff]
  rintro ⟨h, l, h1, h2, h3⟩
  have e1 : formatAFrame[10]? = some 0x78 := rfl
  have e2 : formatAFrame[10 + 1]? = some 0x0B := rfl
  rw [e1] at h1; rw [e2] at h2
  cases h1; cases h2
  exact absurd h3 (by decide +kernel)

/-! ## C96: records -/

/-- C96 (partial: without a global readout request among the records, see `C96_fails`): the annotation
of a telegram with an unprotected payload numbers exactly the records the library reports, and the
segments with the number of a record contain the bytes of this record. -/
theorem C96_records_partial (cfg : Cfg) (dt : Data → List Char) (data : List UInt8)
    (blk : UserDataBlock) (s : DataRecords) (segs : List ByteSegment) (block : List UInt8)
    (hp : ParsedAs cfg data blk (some s)) (h : annotateFrame cfg dt data = .ok segs)
    (hv : securedData blk = some (false, block))
    (h7 : ∀ r, .ok r ∈ s.collect cfg → r.header.raw.dib.dif ≠ 0x7F) :
    RecordsAnnotated data segs (s.collect cfg) := by
  obtain ⟨h1, payload, hb, ⟨A⟩⟩ := parsedAs_appAt hp h
  have hs : s.collect cfg = parseDataRecords cfg false block := by
    cases blk <;> simp only [securedData, Option.some.injEq, Prod.mk.injEq, reduceCtorEq] at hv <;>
      (simp only [UserDataBlock.attachedRecords, Option.some.injEq] at h1; rw [h1, hv.2]; rfl)
  rw [hs] at h7 ⊢
  exact (appAt_records A hb hv h7).1

/-- C96 (partial: without a global readout request among the records, and, when plain text units are
expected before the VIFEs, for records that do not have both): the segments of the fields of a record
contain the bytes of these fields. -/
theorem C96_fields_partial (cfg : Cfg) (dt : Data → List Char) (data : List UInt8)
    (blk : UserDataBlock) (s : DataRecords) (segs : List ByteSegment) (block : List UInt8)
    (hp : ParsedAs cfg data blk (some s)) (h : annotateFrame cfg dt data = .ok segs)
    (hv : securedData blk = some (false, block))
    (h7 : ∀ r, .ok r ∈ s.collect cfg → r.header.raw.dib.dif ≠ 0x7F)
    (i : Nat) (r : DataRecord) (hr : (s.collect cfg)[i]? = some (.ok r))
    (ht : cfg.plaintextFirst = false ∨
      ∀ v, r.header.raw.vib = some v → v.plaintext = none ∨ v.vifes.getD [] = []) :
    if r.header.raw.dib.dif.toNat % 16 = 15
      then recordPart data segs i .manufacturerSpecific = r.rawBytes
      else FieldsAnnotated data segs i r := by
  obtain ⟨h1, payload, hb, ⟨A⟩⟩ := parsedAs_appAt hp h
  have hs : s.collect cfg = parseDataRecords cfg false block := by
    cases blk <;> simp only [securedData, Option.some.injEq, Prod.mk.injEq, reduceCtorEq] at hv <;>
      (simp only [UserDataBlock.attachedRecords, Option.some.injEq] at h1; rw [h1, hv.2]; rfl)
  rw [hs] at h7 hr
  obtain ⟨g1, g2⟩ := (appAt_records A hb hv h7).2 i r hr
  split
  · exact g2 (by assumption)
  · exact g1 (by assumption) ht

/-- C96 is not vacuous: four records, one of them with a plain text unit and one manufacturer
specific. -/
example : (match MbusData.tryFromWired cfgRelease annotatedWired,
      annotateFrame cfgRelease noText annotatedWired with
    | .ok ⟨_, some blk, some s, _⟩, .ok segs =>
      decide ((securedData blk).map (·.1) = some false ∧
        (s.collect cfgRelease).map (fun x => x.toOption.map (·.header.raw.dib.dif)) =
          [some 0x84, some 0x01, some 0x02, some 0x0F] ∧
        recordBytes annotatedWired segs 1 = [0x01, 0xFC, 0x74, 0x02, 0x42, 0x41, 0x09] ∧
        recordPart annotatedWired segs 1 .plaintextVif = [0x02, 0x42, 0x41] ∧
        recordPart annotatedWired segs 0 .dataPayload = [0x01, 0x02, 0x03, 0x04] ∧
        recordPart annotatedWired segs 3 .manufacturerSpecific = [0x0F, 0xAA, 0xBB])
    | _, _ => false) = true := by decide +kernel

theorem append_mid {α : Type} (p r a b : List α) (x : α) :
    p ++ x :: r ++ a ++ b = (p ++ [x]) ++ (r ++ (a ++ b)) := by simp

/-- The annotation of a telegram without transport header, around its records. -/
theorem annotate_noTpl (cfg : Cfg) (dt : Data → List Char) (block : List UInt8)
    (rs : List ByteSegment) (hr : annotateRecords cfg dt 7 block = .ok rs) (hne : block ≠ [])
    (fn : Function) (ad : Address)
    (hf : WiredFrame.tryFrom cfg (wiredLong (0x78 :: block)) = .ok (.longFrame fn ad (0x78 :: block))) :
    ∃ pre post, annotateFrame cfg dt (wiredLong (0x78 :: block)) = .ok (pre ++ (rs ++ post)) ∧
      ∀ s, s ∈ pre ∨ s ∈ post → s.group = none := by
  have happ : annotateApp cfg dt 6 (0x78 :: block) = .ok (headerSeg 6 7 .ciField
      "CI: 0x78 (Application Layer, no TPL header)".toList :: rs) := by
    have he : block.isEmpty = false := by cases block <;> simp at hne ⊢
    rw [annotateApp, if_neg (by decide), if_neg (by decide), if_pos (by decide), recordsIfAny, he]
    simp only [Bool.false_eq_true, if_false]
    rw [hr, Res.bind_ok]
  unfold annotateFrame annotateWired
  rw [hf]
  simp only [Res.mapErr, Res.bind_ok, annotateLong, annotateUserData, List.isEmpty_cons,
    Bool.not_false, Bool.and_self, if_true, happ]
  refine ⟨_, _, congrArg Res.ok (append_mid _ _ _ _ _), ?_⟩
  intro s hs
  rcases hs with hs | hs
  · rw [List.mem_append] at hs
    rcases hs with hs | hs
    · simp only [List.mem_cons, List.not_mem_nil, or_false] at hs
      rcases hs with rfl | rfl | rfl | rfl | rfl <;> rfl
    · rw [List.mem_singleton] at hs; subst hs; rfl
  · rw [List.mem_append] at hs
    rcases hs with hs | hs
    · split at hs
      · rw [List.mem_singleton] at hs; subst hs; rfl
      · simp at hs
    · split at hs
      · rw [List.mem_singleton] at hs; subst hs; rfl
      · simp at hs

/-- C96 is false: a global readout request is a record of the library, but has no number in the
annotation, so that the next record gets its number. -/
theorem C96_fails (cfg : Cfg) (dt : Data → List Char) :
    ∃ m s segs, MbusData.tryFromWired cfg (wiredLong [0x78, 0x7F, 0x01, 0x13, 0x05]) = .ok m ∧
      m.dataRecords = some s ∧
      annotateFrame cfg dt (wiredLong [0x78, 0x7F, 0x01, 0x13, 0x05]) = .ok segs ∧
      (s.collect cfg).map (fun x => x.toOption.map (·.rawBytes)) =
        [some [0x7F], some [0x01, 0x13, 0x05]] ∧
      recordBytes (wiredLong [0x78, 0x7F, 0x01, 0x13, 0x05]) segs 0 = [0x01, 0x13, 0x05] := by
  obtain ⟨r, hr, h1, h2, h3, h4⟩ : ∃ r, DataRecord.parse cfg false [0x01, 0x13, 0x05] = .ok r ∧
      r.size = 3 ∧ r.header.size = 2 ∧ r.header.raw.dib.size = 1 ∧
      r.header.raw.vib = some ⟨0x13, none, none⟩ := by
    have : (match DataRecord.parse cfg false [0x01, 0x13, 0x05] with
      | .ok r => decide (r.size = 3 ∧ r.header.size = 2 ∧ r.header.raw.dib.size = 1 ∧
          r.header.raw.vib = some ⟨0x13, none, none⟩)
      | _ => false) = true := by
      obtain ⟨oc, tf⟩ := cfg
      cases oc <;> cases tf <;> decide +kernel
    split at this
    · rename_i r hr; exact ⟨r, hr, by simpa using this⟩
    · cases this
  have hrec : annotateRecords cfg dt 7 [0x7F, 0x01, 0x13, 0x05] = .ok
      [recordSeg 7 8 .unknown "Special DIF: 0x7F".toList none,
       recordSeg 8 9 .dif "DIF: 0x01".toList (some 0), recordSeg 9 10 .vif "VIF: 0x13".toList (some 0),
       recordSeg 10 11 .dataPayload (dt r.data) (some 0)] := by
    rw [annotateRecords, annotateRecordsFrom, if_pos (by decide), if_neg (by decide),
      if_neg (by decide), annotate_step _ _ _ _ _ _ _ (by decide) hr, h1, h2]
    simp only [recordHeaderSegs, h3, h4, List.drop_succ_cons, List.drop_zero, List.drop_nil]
    rw [annotateRecordsFrom]
    rfl
  obtain ⟨pre, post, hfr, hgr⟩ := annotate_noTpl cfg dt _ _ hrec (by simp) (.rspUd false false)
    (.primary 1) (by obtain ⟨oc, tf⟩ := cfg; cases oc <;> cases tf <;> decide +kernel)
  have hm : (match MbusData.tryFromWired cfg (wiredLong [0x78, 0x7F, 0x01, 0x13, 0x05]) with
      | .ok m => (match m.dataRecords with
        | some s => decide ((s.collect cfg).map (fun x => x.toOption.map (·.rawBytes)) =
            [some [0x7F], some [0x01, 0x13, 0x05]])
        | none => false)
      | _ => false) = true := by
    obtain ⟨oc, tf⟩ := cfg
    cases oc <;> cases tf <;> decide +kernel
  split at hm
  · rename_i m hm'
    split at hm
    · rename_i s hs
      refine ⟨m, s, _, hm', hs, hfr, by simpa using hm, ?_⟩
      unfold recordBytes
      rw [bytes_mid]
      · rfl
      · intro x hx; simp [hgr x (.inl hx)]
      · intro x hx; simp [hgr x (.inr hx)]
    · cases hm
  · cases hm

/-- C96 is false for the fields when plain text units are expected before the VIFEs: the annotation
then shows the length of the text as VIFE. -/
theorem C96_fails_text_first (oc : Bool) (dt : Data → List Char) :
    ∃ m s segs r, MbusData.tryFromWired ⟨oc, true⟩
        (wiredLong [0x78, 0x01, 0xFC, 0x02, 0x42, 0x41, 0x74, 0x09]) = .ok m ∧
      m.dataRecords = some s ∧ s.collect ⟨oc, true⟩ = [.ok r] ∧
      r.header.raw.vib = some ⟨0xFC, some [0x74], some [0x42, 0x41]⟩ ∧
      annotateFrame ⟨oc, true⟩ dt (wiredLong [0x78, 0x01, 0xFC, 0x02, 0x42, 0x41, 0x74, 0x09]) =
        .ok segs ∧
      recordPart (wiredLong [0x78, 0x01, 0xFC, 0x02, 0x42, 0x41, 0x74, 0x09]) segs 0 .vife = [0x02] := by
  obtain ⟨r, hr, h1, h2, h3, h4, h5⟩ : ∃ r, DataRecord.parse ⟨oc, true⟩ false
      [0x01, 0xFC, 0x02, 0x42, 0x41, 0x74, 0x09] = .ok r ∧
      r.size = 7 ∧ r.header.size = 6 ∧ r.header.raw.dib.size = 1 ∧
      r.header.raw.vib = some ⟨0xFC, some [0x74], some [0x42, 0x41]⟩ ∧
      r.rawBytes = [0x01, 0xFC, 0x02, 0x42, 0x41, 0x74, 0x09] := by
    have : (match DataRecord.parse ⟨oc, true⟩ false [0x01, 0xFC, 0x02, 0x42, 0x41, 0x74, 0x09] with
      | .ok r => decide (r.size = 7 ∧ r.header.size = 6 ∧ r.header.raw.dib.size = 1 ∧
          r.header.raw.vib = some ⟨0xFC, some [0x74], some [0x42, 0x41]⟩ ∧
          r.rawBytes = [0x01, 0xFC, 0x02, 0x42, 0x41, 0x74, 0x09])
      | _ => false) = true := by
      cases oc <;> decide +kernel
    split at this
    · rename_i r hr; exact ⟨r, hr, by simpa using this⟩
    · cases this
  have hrec : annotateRecords ⟨oc, true⟩ dt 7 [0x01, 0xFC, 0x02, 0x42, 0x41, 0x74, 0x09] = .ok
      [recordSeg 7 8 .dif "DIF: 0x01".toList (some 0), recordSeg 8 9 .vif "VIF: 0xFC".toList (some 0),
       recordSeg 9 10 .vife "VIFE: 1 byte(s)".toList (some 0),
       recordSeg 10 13 .plaintextVif "Plaintext VIF: \"BA\"".toList (some 0),
       recordSeg 13 14 .dataPayload (dt r.data) (some 0)] := by
    rw [annotateRecords, annotate_step _ _ _ _ _ _ _ (by decide) hr, h1, h2]
    simp only [recordHeaderSegs, h3, h4, List.drop_succ_cons, List.drop_zero, VIB.vifeCount]
    rw [annotateRecordsFrom]
    rfl
  obtain ⟨pre, post, hfr, hgr⟩ := annotate_noTpl _ dt _ _ hrec (by simp) (.rspUd false false)
    (.primary 1) (by cases oc <;> decide +kernel)
  have hm : (match MbusData.tryFromWired ⟨oc, true⟩
      (wiredLong [0x78, 0x01, 0xFC, 0x02, 0x42, 0x41, 0x74, 0x09]) with
      | .ok m => decide (m.dataRecords = some (DataRecords.new
          [0x01, 0xFC, 0x02, 0x42, 0x41, 0x74, 0x09] false))
      | _ => false) = true := by
    cases oc <;> decide +kernel
  have hc : (DataRecords.new [0x01, 0xFC, 0x02, 0x42, 0x41, 0x74, 0x09] false).collect ⟨oc, true⟩ =
      [.ok r] := by
    exact (parseDataRecords_iff ⟨oc, true⟩ false _ _).2
      (.record _ _ [] r [] (by decide) hr (by rw [h5]; rfl) (by rw [h5]; simp) .nil)
  split at hm
  · rename_i m hm'
    refine ⟨m, _, _, r, hm', of_decide_eq_true hm, hc, h4, hfr, ?_⟩
    unfold recordPart
    rw [bytes_mid]
    · rfl
    · intro x hx; simp [hgr x (.inl hx)]
    · intro x hx; simp [hgr x (.inr hx)]
  · cases hm

/-! ## C97: header fields -/

theorem slice_at {data before p : List UInt8} (h : data = before ++ p) (n m : Nat) :
    (data.drop (before.length + n)).take (before.length + m - (before.length + n)) =
      (p.drop n).take (m - n) := by
  rw [h, Nat.add_sub_add_left, ← List.drop_drop, List.drop_left]


/-- C97: in the annotation of a telegram with a long transport header the fields of the header are
the bytes from which the library reports them. -/
theorem C97_long (cfg : Cfg) (dt : Data → List Char) (data : List UInt8) (ell : Option ExtendedLinkLayer)
    (hd : LongTplHeader) (block : List UInt8) (rs : Option DataRecords) (segs : List ByteSegment)
    (hp : ParsedAs cfg data (.long ell hd block) rs) (h : annotateFrame cfg dt data = .ok segs) :
    ∃ i0 i1 i2 i3 m0 m1 dev c0 c1,
      headerField data segs .identificationNumber = [i0, i1, i2, i3] ∧
      hd.identificationNumber = bcdValue (idBytes hd.lsbOrder i0 i1 i2 i3) ∧
      headerField data segs .manufacturerCode = [m0, m1] ∧
      hd.manufacturer = ManufacturerCode.fromId (le16 m0 m1) ∧
      headerField data segs .version = [hd.version] ∧
      headerField data segs .deviceType = [dev] ∧ hd.deviceType = DeviceType.fromByte dev ∧
      headerField data segs .accessNumber = [hd.short.accessNumber] ∧
      headerField data segs .status = [hd.short.status] ∧
      headerField data segs .configurationField = [c0, c1] ∧
      hd.short.configurationField.raw = le16 c0 c1 := by
  obtain ⟨_, payload, hb, ⟨A⟩⟩ := parsedAs_appAt hp h
  obtain ⟨before, behind, pre, app, post, hsplit, hsegs, hframe, happ⟩ := A
  cases hb with
  | ellI cc acc inner blk _ hin hw => cases blk <;> cases hw
  | long reversed i0 i1 i2 i3 m0 m1 ver dev acc st c0 c1 _ hbcd =>
    simp only [List.cons_append, List.nil_append] at happ
    rw [annotateApp, if_pos (by cases reversed <;> decide), if_neg (by simp), Res.bind_eq_ok] at happ
    obtain ⟨vs, h1, h2⟩ := happ
    cases h2
    have hfld : ∀ k, headerField data segs k = bytesWhere data (longTplSegs before.length (longCi reversed ::
        i0 :: i1 :: i2 :: i3 :: m0 :: m1 :: ver :: dev :: acc :: st :: c0 :: c1 :: block))
        (fun s => s.layer == .appHeader && s.kind == k) := fun k => by
      rw [hsegs]
      exact headerField_of k (fun s hs => (hframe s hs).1) (variableData_layer _ _ _ _ _ _ h1)
    have hdr := slice_at hsplit
    refine ⟨i0, i1, i2, i3, m0, m1, dev, c0, c1, ?_⟩
    simp only [hfld, longTplSegs, bytesWhere_cons, bytesWhere_nil, headerSeg, hdr]
    simp

/-- C97 is not vacuous. -/
example : (match MbusData.tryFromWired cfgRelease annotatedWired,
      annotateFrame cfgRelease noText annotatedWired with
    | .ok ⟨_, some (.long _ hd _), _, _⟩, .ok segs =>
      decide (headerField annotatedWired segs .identificationNumber = [0x78, 0x56, 0x34, 0x12] ∧
        hd.identificationNumber = 12345678 ∧
        headerField annotatedWired segs .accessNumber = [0x55] ∧ hd.short.accessNumber = 0x55)
    | _, _ => false) = true := by decide +kernel

/-- C97: the same for a short transport header. -/
theorem C97_short (cfg : Cfg) (dt : Data → List Char) (data : List UInt8) (hd : ShortTplHeader)
    (block : List UInt8) (rs : Option DataRecords) (segs : List ByteSegment)
    (hp : ParsedAs cfg data (.short none hd block) rs) (h : annotateFrame cfg dt data = .ok segs) :
    ∃ c0 c1, headerField data segs .accessNumber = [hd.accessNumber] ∧
      headerField data segs .status = [hd.status] ∧
      headerField data segs .configurationField = [c0, c1] ∧
      hd.configurationField.raw = le16 c0 c1 := by
  obtain ⟨_, payload, hb, ⟨A⟩⟩ := parsedAs_appAt hp h
  obtain ⟨before, behind, pre, app, post, hsplit, hsegs, hframe, happ⟩ := A
  cases hb with
  | ellI cc acc inner blk _ hin hw => cases blk <;> cases hw
  | short ci acc st c0 c1 b hci =>
    obtain ⟨n1, n2, n3, n4⟩ := shortCi_ite ci hci
    simp only [List.cons_append, List.nil_append] at happ
    rw [annotateApp, if_neg (by simp [n1, n2]), if_pos n3,
      if_neg (by simp [shortTplOffset, n4]), Res.bind_eq_ok] at happ
    obtain ⟨vs, h1, h2⟩ := happ
    cases h2
    have hfld : ∀ k, headerField data segs k = bytesWhere data
        (shortTplSegs before.length (ci :: acc :: st :: c0 :: c1 :: block) ci)
        (fun s => s.layer == .appHeader && s.kind == k) := fun k => by
      rw [hsegs]
      exact headerField_of k (fun s hs => (hframe s hs).1) (variableData_layer _ _ _ _ _ _ h1)
    have hdr := slice_at hsplit
    have e1 : shortTplSkip ci = 1 := by simp [shortTplSkip, n4]
    have e2 : (ci == 0xA0) = false := by simp [n4]
    refine ⟨c0, c1, ?_⟩
    simp only [hfld, shortTplSegs, e1, e2, bytesWhere_append, bytesWhere_cons, bytesWhere_nil,
      headerSeg, Nat.add_assoc, hdr]
    simp [bytesWhere_nil]
  | shortA0 x acc st c0 c1 b =>
    simp only [List.cons_append, List.nil_append] at happ
    rw [annotateApp, if_neg (by decide), if_pos (by decide),
      if_neg (by simp [shortTplOffset]), Res.bind_eq_ok] at happ
    obtain ⟨vs, h1, h2⟩ := happ
    cases h2
    have hfld : ∀ k, headerField data segs k = bytesWhere data
        (shortTplSegs before.length (0xA0 :: x :: acc :: st :: c0 :: c1 :: block) 0xA0)
        (fun s => s.layer == .appHeader && s.kind == k) := fun k => by
      rw [hsegs]
      exact headerField_of k (fun s hs => (hframe s hs).1) (variableData_layer _ _ _ _ _ _ h1)
    have hdr := slice_at hsplit
    have e1 : shortTplSkip 0xA0 = 2 := rfl
    refine ⟨c0, c1, ?_⟩
    simp only [hfld, shortTplSegs, e1, bytesWhere_append, bytesWhere_cons, bytesWhere_nil,
      headerSeg, Nat.add_assoc, hdr]
    simp [bytesWhere_nil, bytesWhere_cons]

/-- C97 is not vacuous for a short header. -/
example : (match MbusData.tryFromWired cfgRelease (wiredLong [0xA0, 0x00, 0x55, 0x01, 0x00, 0x00, 0x2F]),
      annotateFrame cfgRelease noText (wiredLong [0xA0, 0x00, 0x55, 0x01, 0x00, 0x00, 0x2F]) with
    | .ok ⟨_, some (.short none hd _), _, _⟩, .ok segs =>
      decide (headerField (wiredLong [0xA0, 0x00, 0x55, 0x01, 0x00, 0x00, 0x2F]) segs .accessNumber = [0x55] ∧
        hd.accessNumber = 0x55)
    | _, _ => false) = true := by decide +kernel

/-- C97: in the annotation of a wireless telegram the fields of the link layer are the bytes from
which the library reports them, and the bytes marked as CRC are the final CRC, if there is one. -/
theorem C97_link (cfg : Cfg) (dt : Data → List Char) (data : List UInt8) (f : WirelessFrame)
    (e : FrameError) (segs : List ByteSegment) (hw : WiredFrame.tryFrom cfg data = .err e)
    (ha : ¬ BlockAt data 10) (hf : WirelessFrame.tryFrom data = .ok f)
    (h : annotateFrame cfg dt data = .ok segs) :
    ∃ m0 m1 d0 d1 d2 d3 dev ci i j k,
      linkField data segs .lField = data.take 1 ∧
      linkField data segs .cField = [f.controlField] ∧
      linkField data segs .manufacturerCode = [m0, m1] ∧
      m0.toNat + 256 * m1.toNat = flagId i j k ∧ f.manufacturerId.manufacturerCode = letters i j k ∧
      linkField data segs .identificationNumber = [d0, d1, d2, d3] ∧
      f.manufacturerId.identificationNumber = bcdValue [d0, d1, d2, d3] ∧
      linkField data segs .version = [f.manufacturerId.version] ∧
      linkField data segs .deviceType = [dev] ∧ data[10]? = some ci ∧
      f.manufacturerId.deviceType = DeviceType.fromByte (deviceByte ci dev) ∧
      (linkField data segs .crc = [] ∧ f.data = data.drop 10 ∨
        ∃ body hi lo, linkField data segs .crc = [hi, lo] ∧ data = body ++ [hi, lo] ∧
          CrcOk body hi lo ∧ f.data = body.drop 10) := by
  have hin : annotateWirelessInner cfg dt data = .ok segs := by
    rcases frame_cases h with h | ⟨_, ⟨stripped, b, hs, _⟩ | ⟨h, _⟩⟩
    · unfold annotateWired at h
      rw [hw] at h; cases h
    · obtain ⟨head, hi, lo, rest, tail, hl, hc, rfl, _⟩ := strip_some hs
      exact absurd ⟨head, hi, lo, rest, hl, rfl, hc⟩ ha
    · exact h
  clear h
  have hpay := C13_wireless_payload _ _ hf
  unfold annotateWirelessInner at hin
  rw [hf] at hin
  simp only [Res.mapErr, Res.bind_ok] at hin
  rw [Res.bind_eq_ok] at hin
  obtain ⟨app, happ, hin⟩ := hin
  cases hin
  have hlay : ∀ s ∈ app, s.layer ≠ .frame := wirelessApp_layer _ _ _ _ _ happ
  have ht := (C12_wireless_accepts_exactly_telegrams _ _).1 hf
  cases ht with
  | mk l c m0 m1 d0 d1 d2 d3 ver dev ci rest payload i j k fn hl hfn hi hj hk hm hbcd hp =>
  have hfld : ∀ kd hd tl, linkField (l :: c :: m0 :: m1 :: d0 :: d1 :: d2 :: d3 :: ver :: dev :: ci :: rest)
      (hd ++ app ++ tl) kd =
      bytesWhere (l :: c :: m0 :: m1 :: d0 :: d1 :: d2 :: d3 :: ver :: dev :: ci :: rest) hd
        (fun s => s.layer == .frame && s.kind == kd) ++
      bytesWhere (l :: c :: m0 :: m1 :: d0 :: d1 :: d2 :: d3 :: ver :: dev :: ci :: rest) tl
        (fun s => s.layer == .frame && s.kind == kd) := by
    intro kd hd tl
    unfold linkField
    rw [bytesWhere_append, bytesWhere_append, bytesWhere_none _ app]
    · simp
    · intro s hs
      have := hlay s hs
      simp [this]
  refine ⟨m0, m1, d0, d1, d2, d3, dev, ci, i, j, k, ?_⟩
  simp only [hfld]
  cases hc : trailingFrameCrcStart (l :: c :: m0 :: m1 :: d0 :: d1 :: d2 :: d3 :: ver :: dev :: ci :: rest) with
  | none =>
    simp only [bytesWhere_cons, bytesWhere_nil, frameSeg]
    simp [hm]
    rcases hpay with ⟨body, hi, lo, hd, h12, hcrc, hfd⟩ | ⟨hfd, hno⟩
    · have hbl : body.length + 2 = (l :: c :: m0 :: m1 :: d0 :: d1 :: d2 :: d3 :: ver :: dev :: ci :: rest).length := by
        rw [hd]; simp
      have := (C11_trailing_frame_crc_start _ body.length).2 ⟨body, hi, lo, hd, rfl, by omega, hcrc⟩
      rw [hc] at this; cases this
    · simpa using hfd
  | some n =>
    obtain ⟨body, hi, lo, hd, hb, h10, hcrc⟩ := (C11_trailing_frame_crc_start _ _).1 hc
    have hcr : List.take ((l :: c :: m0 :: m1 :: d0 :: d1 :: d2 :: d3 :: ver :: dev :: ci :: rest).length - n)
        (List.drop n (l :: c :: m0 :: m1 :: d0 :: d1 :: d2 :: d3 :: ver :: dev :: ci :: rest)) = [hi, lo] := by
      rw [hd, ← hb, List.drop_left]; simp
    simp only [bytesWhere_cons, bytesWhere_nil, frameSeg, hcr]
    simp [hm]
    refine ⟨body, hd, hcrc, ?_⟩
    rcases hpay with ⟨body', hi', lo', hd', _, _, hfd⟩ | ⟨_, hno⟩
    · have : body' = body := by
        rw [hd] at hd'
        exact ((List.append_inj_left' hd' (by simp)).symm)
      rw [this] at hfd; exact hfd
    · exact absurd ⟨body, hi, lo, hd, by rw [hd]; simp; omega, hcrc⟩ hno

/-! ## C98: protected payloads, rejected telegrams -/

/-- C98: the variable data of a telegram is annotated as encrypted exactly when its transport header
names a security mode; then no record is shown, and the encrypted segment is exactly the variable
data. -/
theorem C98_encrypted (cfg : Cfg) (dt : Data → List Char) (data : List UInt8) (blk : UserDataBlock)
    (rs : Option DataRecords) (segs : List ByteSegment) (enc : Bool) (block : List UInt8)
    (hp : ParsedAs cfg data blk rs) (h : annotateFrame cfg dt data = .ok segs)
    (hv : securedData blk = some (enc, block)) :
    bytesWhere data segs (fun s => s.kind == .encryptedPayload) = (if enc then block else []) ∧
    (enc = true → ∀ s ∈ segs, s.group = none) ∧
    (enc = false → ∀ s ∈ segs, s.kind ≠ .encryptedPayload) := by
  obtain ⟨_, payload, hb, ⟨A⟩⟩ := parsedAs_appAt hp h
  obtain ⟨head, vs, post, P, S, e1, e2, e3, e4⟩ := appAt_bytes A hb hv
  subst e1
  rw [bytes_mid]
  rotate_left
  · intro x hx; simpa using (e3 x (.inl hx)).2
  · intro x hx; simpa using (e3 x (.inr hx)).2
  unfold variableDataSegs at e4
  cases enc with
  | false =>
    simp only [Bool.false_eq_true, if_false] at e4
    have hl := records_layer _ _ _ _ _ _ e4
    refine ⟨?_, by simp, ?_⟩
    · simp only [Bool.false_eq_true, if_false]
      exact bytesWhere_none _ _ _ (fun x hx => by simpa using (hl x hx).2)
    · intro _ s hs
      rcases List.mem_append.mp hs with hs | hs
      · exact (e3 s (.inl hs)).2
      · rcases List.mem_append.mp hs with hs | hs
        · exact (hl s hs).2
        · exact (e3 s (.inr hs)).2
  | true =>
    simp only [if_true, Res.ok.injEq] at e4
    subst e4
    refine ⟨?_, ?_, fun h => absurd h (by decide)⟩
    · simp only [if_true]
      rcases block with _ | ⟨x, t⟩
      · simp [bytesWhere_nil]
      · simp only [List.isEmpty_cons, Bool.false_eq_true, if_false, bytesWhere_cons, bytesWhere_nil,
          recordSeg, List.append_nil]
        rw [if_pos (by decide)]
        exact slice_mid e2 _ _ rfl rfl
    · intro _ s hs
      rcases List.mem_append.mp hs with hs | hs
      · exact (e3 s (.inl hs)).1
      · rcases List.mem_append.mp hs with hs | hs
        · split at hs
          · simp at hs
          · rw [List.mem_singleton] at hs; subst hs; rfl
        · exact (e3 s (.inr hs)).1

/-- C98 is not vacuous: a mode 5 payload. -/
example : (match MbusData.tryFromWired cfgRelease
        (wiredLong ([0x7A, 0x55, 0x00, 0x10, 0x05] ++ List.replicate 16 0xAB)),
      annotateFrame cfgRelease noText
        (wiredLong ([0x7A, 0x55, 0x00, 0x10, 0x05] ++ List.replicate 16 0xAB)) with
    | .ok ⟨_, some blk, _, _⟩, .ok segs =>
      decide (securedData blk = some (true, List.replicate 16 0xAB) ∧
        (segs.map (·.kind)).contains .encryptedPayload = true)
    | _, _ => false) = true := by decide +kernel

/-- C98: a telegram is rejected exactly when it is neither a wired telegram nor, as it is or after
removing the CRCs of Format A, a wireless one; the error is always the same. -/
theorem C98_rejects_iff (cfg : Cfg) (dt : Data → List Char) (data : List UInt8) (e : FrameError) :
    annotateFrame cfg dt data = .err e ↔ e = .invalidStartByte ∧
      (∃ e', WiredFrame.tryFrom cfg data = .err e') ∧
      (∃ e', WirelessFrame.tryFrom data = .err e') ∧
      ∀ frame buffer, stripFormatACrcs data (List.replicate 512 0) = .ok (some frame, buffer) →
        ∃ e', WirelessFrame.tryFrom frame = .err e' := by
  have hA : ∀ stripped, (∃ e, annotateFormatA cfg dt data stripped = .err e) ↔
      ∃ e', WirelessFrame.tryFrom stripped = .err e' := by
    intro stripped
    rw [← inner_err_iff cfg dt stripped ()]
    unfold annotateFormatA
    cases annotateWirelessInner cfg dt stripped <;> simp
  have hI : ∀ x : Res FrameError (List ByteSegment), x = (match annotateWirelessInner cfg dt data with
        | .ok segs => .ok segs
        | .err _ => .err .invalidStartByte
        | .panic => .panic) →
      (x = .err e ↔ e = .invalidStartByte ∧ ∃ e', WirelessFrame.tryFrom data = .err e') := by
    intro x hx
    rw [← inner_err_iff cfg dt data (), hx]
    cases annotateWirelessInner cfg dt data <;> simp [eq_comm]
  unfold annotateFrame
  simp only
  generalize List.replicate 512 (0 : UInt8) = out
  have hW := wired_err_iff cfg dt data ()
  cases hw : annotateWired cfg dt data with
  | ok s => rw [hw] at hW; simp at hW; simp [hW]
  | panic => rw [hw] at hW; simp at hW; simp [hW]
  | err e1 =>
    rw [hw] at hW
    have hW' : ∃ e', WiredFrame.tryFrom cfg data = .err e' := by simpa using hW
    simp only [hW', true_and]
    cases hs : stripFormatACrcs data out with
    | panic => exact absurd hs (C15_strip_never_panics _ _)
    | err e2 => simp only [reduceCtorEq, false_implies, implies_true, and_true]; exact hI _ rfl
    | ok p =>
      obtain ⟨o, b⟩ := p
      cases o with
      | none => simp only [Res.ok.injEq, Prod.mk.injEq, reduceCtorEq, false_and, false_implies,
                  implies_true, and_true]; exact hI _ rfl
      | some stripped =>
        have hA' := hA stripped
        have hall : (∀ frame buffer, (Res.ok (some stripped, b) : Res Unit _) = .ok (some frame, buffer) →
            ∃ e', WirelessFrame.tryFrom frame = .err e') ↔
            ∃ e', WirelessFrame.tryFrom stripped = .err e' := by
          constructor
          · intro h; exact h _ _ rfl
          · intro h f b' he; cases he; exact h
        rw [hall, ← hA']
        simp only
        cases ha : annotateFormatA cfg dt data stripped with
        | ok s => simp
        | panic => simp
        | err e3 =>
          have ht : ∃ e, (Res.err e3 : Res Unit (List ByteSegment)) = .err e := ⟨_, rfl⟩
          refine (hI _ rfl).trans ?_
          exact ⟨fun h => ⟨h.1, h.2, ht⟩, fun h => ⟨h.1, h.2.1⟩⟩

/-- C98 is not vacuous. -/
example (dt : Data → List Char) : annotateFrame cfgRelease dt [0x01, 0x02] = .err .invalidStartByte := rfl

/-- C98: an annotation fails otherwise only where the library itself does: on a byte string that
panics the wired parser, or where bytes of the telegram, or of the telegram with its Format A
checksums removed, panic the record parser. -/
theorem C98_panics_only (cfg : Cfg) (dt : Data → List Char) (data : List UInt8)
    (h : annotateFrame cfg dt data = .panic) :
    WiredFrame.tryFrom cfg data = .panic ∨
      (∃ x, x <:+: data ∧ DataRecord.parse cfg false x = .panic) ∨
      ∃ frame buffer x, stripFormatACrcs data (List.replicate 512 0) = .ok (some frame, buffer) ∧
        x <:+: frame ∧ DataRecord.parse cfg false x = .panic := by
  unfold annotateFrame at h
  simp only at h
  generalize List.replicate 512 (0 : UInt8) = out at h
  have hI : (match annotateWirelessInner cfg dt data with
      | .ok segs => (.ok segs : Res FrameError (List ByteSegment))
      | .err _ => .err FrameError.invalidStartByte
      | .panic => .panic) = .panic →
      ∃ x, x <:+: data ∧ DataRecord.parse cfg false x = .panic := by
    intro h
    refine inner_panic cfg dt data ?_
    cases hi : annotateWirelessInner cfg dt data with
    | ok s => rw [hi] at h; cases h
    | err s => rw [hi] at h; cases h
    | panic => rfl
  cases hw : annotateWired cfg dt data with
  | ok s => rw [hw] at h; cases h
  | panic => 
    rcases wired_panic _ _ _ hw with h | h
    · exact .inl h
    · exact .inr (.inl h)
  | err e1 =>
    rw [hw] at h
    right
    cases hs : stripFormatACrcs data out with
    | panic => exact absurd hs (C15_strip_never_panics _ _)
    | err e2 => rw [hs] at h; exact .inl (hI h)
    | ok p =>
      rw [hs] at h
      obtain ⟨o, b⟩ := p
      cases o with
      | none => exact .inl (hI h)
      | some stripped =>
        simp only at h
        cases ha : annotateFormatA cfg dt data stripped with
        | ok s => rw [ha] at h; cases h
        | err e3 => rw [ha] at h; exact .inl (hI h)
        | panic =>
          unfold annotateFormatA at ha
          rw [Res.bind_eq_panic] at ha
          rcases ha with ha | ⟨_, _, ha⟩
          · obtain ⟨x, hx, hp⟩ := inner_panic _ _ _ ha
            exact .inr ⟨_, _, x, rfl, hx, hp⟩
          · cases ha

/-- C98 is not vacuous: a telegram whose record panics the parser panics the annotation. -/
example (cfg : Cfg) :
    annotateFrame cfg noText (wiredLong [0x78, 0x01, 0x7D, 0x00]) = .panic := by
  obtain ⟨oc, tf⟩ := cfg
  cases oc <;> cases tf <;> decide +kernel

end MBus
