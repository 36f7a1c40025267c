import Verif.Lemmas.Tooltip
import Verif.Props.Annotate
/-!
# C125: the texts of annotations
-/
namespace MBus
open Spec

/-- Towards C125: all segments, with what is known of the excepted ones. -/
theorem frame_told {cfg : Cfg} {dt : Data → List Char} {data : List UInt8} {segs : List ByteSegment}
    (h : annotateFrame cfg dt data = .ok segs)
    (ha : (∃ f, WiredFrame.tryFrom cfg data = .ok f) ∨ ¬ BlockAt data 10) :
    ∀ s ∈ segs, ToldMostly cfg data s := by
  rcases frame_cases h with h | ⟨⟨e, he⟩, ⟨stripped, b, hb, _⟩ | ⟨h, _⟩⟩
  · exact told_wired _ _ _ _ h
  · rcases ha with ⟨f, hf⟩ | ha
    · obtain ⟨e', he'⟩ := (wired_err_iff _ _ _ _).1 he
      rw [hf] at he'; cases he'
    · obtain ⟨head, hi, lo, tl, tail, hl, hc, hd, _⟩ := strip_some hb
      exact absurd ⟨head, hi, lo, tl, hl, hd, hc⟩ ha
  · exact told_inner _ _ _ _ h

/-- C125 (partial: not for plain text units, see `C125_plain_text_partial`, and not for the second start
byte of a long frame when it is not one, see `C125_fails`; for Format A framing see `C125_format_a_partial`):
the text of every segment says what the bytes are that the segment marks. -/
theorem C125_text_partial (cfg : Cfg) (dt : Data → List Char) (data : List UInt8)
    (segs : List ByteSegment) (h : annotateFrame cfg dt data = .ok segs)
    (ha : (∃ f, WiredFrame.tryFrom cfg data = .ok f) ∨ ¬ BlockAt data 10)
    (s : ByteSegment) (hs : s ∈ segs) (hk : s.kind ≠ .plaintextVif)
    (h3 : s.kind = .startByte → s.start = 3 → data[3]? = some 0x68) : Told data s := by
  rcases frame_told h ha s hs with ⟨hm, _⟩ | ⟨hp, _⟩ | ⟨k1, _, k2, k3, k4⟩
  · exact hm
  · exact absurd hp hk
  · have hx := h3 k1 k2
    unfold Told
    rw [k1, k4]
    refine .inr (.inr ⟨0x68, ?_, by decide +kernel⟩)
    unfold markedBytes
    rw [k2, k3]
    obtain ⟨hlt, hv⟩ := List.getElem?_eq_some_iff.mp hx
    rw [take_one _ _ hlt]
    simp [byteOr0, hx]

/-- C125 (partial: the characters are in the order of the bytes, last one first; when plain text units
are expected before the VIFEs this says nothing): what the text of a plain text unit says. -/
theorem C125_plain_text_partial (cfg : Cfg) (dt : Data → List Char) (data : List UInt8)
    (segs : List ByteSegment) (h : annotateFrame cfg dt data = .ok segs)
    (ha : (∃ f, WiredFrame.tryFrom cfg data = .ok f) ∨ ¬ BlockAt data 10)
    (ht : cfg.plaintextFirst = false) (s : ByteSegment) (hs : s ∈ segs) (hk : s.kind = .plaintextVif) :
    TextAsSent data s := by
  rcases frame_told h ha s hs with ⟨_, hn⟩ | ⟨_, hp⟩ | ⟨k1, _⟩
  · exact absurd hk hn
  · exact hp ht
  · rw [hk] at k1; cases k1

/-- C125 is not vacuous: the second start byte of the telegram is one;
here are some of its texts. -/
example : (match annotateFrame cfgRelease noText annotatedWired with
    | .ok segs => decide (annotatedWired[3]? = some 0x68 ∧
        (segs.map fun s => (markedBytes annotatedWired s, s.detail)).take 3 =
          [([0x68], "Start: 0x68".toList), ([0x26, 0x26], "Length: 38 (repeated)".toList),
            ([0x68], "Start: 0x68 (repeated)".toList)] ∧
        (segs.filter (·.kind == .identificationNumber)).map (fun s => (markedBytes annotatedWired s, s.detail)) =
          [([0x78, 0x56, 0x34, 0x12], "ID: 78563412".toList)] ∧
        (segs.filter (·.kind == .plaintextVif)).map (fun s => (markedBytes annotatedWired s, s.detail)) =
          [([0x02, 0x42, 0x41], "Plaintext VIF: \"BA\"".toList)])
    | _ => false) = true := by decide +kernel

/-! ## Format A -/

/-- C125 (partial: as above for plain text units): in Format A framing a byte of the frame has the text
of a segment of the frame without CRCs that marks it, and that text says what the bytes of that segment
are; a CRC byte has a text that says what the two bytes of the CRC are. -/
theorem C125_format_a_partial (cfg : Cfg) (dt : Data → List Char) (l : UInt8) (rest enc : List UInt8)
    (segs : List ByteSegment) (f : WirelessFrame) (hf : FormatA (l :: rest) enc) (hl : l.toNat = rest.length)
    (hw : ∃ e, WiredFrame.tryFrom cfg enc = .err e)
    (hp : WirelessFrame.tryFrom (l :: rest) = .ok f)
    (h : annotateFrame cfg dt enc = .ok segs) :
    (∀ i, i < (l :: rest).length → ∀ kind text group layer,
      Labelled segs (formatAPos i) (kind, text, group, layer) → kind ≠ .plaintextVif →
      ∃ a b, a ≤ i ∧ i < b ∧ b ≤ (l :: rest).length ∧
        Describes (((l :: rest).drop a).take (b - a)) text kind) ∧
    ∀ p, p < enc.length → (∀ i, i < (l :: rest).length → formatAPos i ≠ p) →
      ∃ q, (p = q ∨ p = q + 1) ∧ q + 2 ≤ enc.length ∧
        (∀ i, i < (l :: rest).length → formatAPos i ≠ q ∧ formatAPos i ≠ q + 1) ∧
        Labelled segs p (.crc, "CRC: 0x".toList ++ hexBytes ((enc.drop q).take 2), none, .frame) := by
  have hlen := formatA_length hf
  obtain ⟨b, hb⟩ := C14_format_a_roundtrip_exact l rest enc (List.replicate 512 0) hf hl (by
    have := l.toNat_lt; simp only [List.length_replicate, List.length_cons] at hlen ⊢; omega)
  have hm := strip_maps hb
  have hmap := offsetMap_formatA hf
  obtain ⟨inner, hi⟩ : ∃ inner, annotateWirelessInner cfg dt (l :: rest) = .ok inner := by
    rcases frame_cases h with h | ⟨_, ⟨stripped, b', hs, h⟩ | ⟨_, hno⟩⟩
    · obtain ⟨e, he⟩ := hw
      unfold annotateWired at h
      rw [he] at h; cases h
    · rw [hb] at hs; cases hs
      unfold annotateFormatA at h
      rw [Res.bind_eq_ok] at h
      obtain ⟨inner, hi, _⟩ := h
      exact ⟨inner, hi⟩
    · obtain ⟨e, he⟩ := hno _ _ hb
      unfold annotateFormatA at he
      rw [Res.bind_eq_err] at he
      rcases he with he | ⟨_, _, he⟩
      · obtain ⟨e', he'⟩ := (inner_err_iff _ _ _ _).1 he
        rw [hp] at he'; cases he'
      · cases he
  have hA : annotateFormatA cfg dt enc (l :: rest) = .ok segs := by
    rcases frame_cases h with h | ⟨_, ⟨stripped, b', hs, h⟩ | ⟨h, hno⟩⟩
    · obtain ⟨e, he⟩ := hw
      unfold annotateWired at h
      rw [he] at h; cases h
    · rw [hb] at hs; cases hs; exact h
    · obtain ⟨e, he⟩ := hno _ _ hb
      unfold annotateFormatA at he
      rw [hi, Res.bind_ok] at he
      cases he
  have hcov := inner_covers _ _ _ _ hi
  refine ⟨?_, ?_⟩
  · intro i hlt kind text group layer hlab hk
    obtain ⟨s, hs, h1, h2, h3⟩ := ((formatA_labels cfg dt l rest enc segs inner hf hl hw hi h).1 i hlt _).1 hlab
    simp only [Prod.mk.injEq] at h3
    obtain ⟨e1, e2, _, _⟩ := h3
    have hle := covers_within hcov s hs
    rcases told_inner _ _ _ _ hi s hs with ⟨hm, _⟩ | ⟨hp, _⟩ | ⟨k1, k2, _⟩
    · refine ⟨s.start, s.stop, h1, h2, hle, ?_⟩
      rw [← e1, ← e2]; exact hm
    · exact absurd (e1 ▸ hp) hk
    · exact absurd k2 (inner_no_start hi s hs k1)
  · intro p hlt hno
    obtain ⟨_, _, k3⟩ := formatA_ok _ _ _ _ _ _ hm hi hA
    rcases hm.all p (Nat.zero_le p) hlt with hmem | ⟨q, hq, hpq⟩
    · rw [hmap, List.mem_map] at hmem
      obtain ⟨i, hi', he⟩ := hmem
      exact absurd he (hno i (List.mem_range.mp hi'))
    · obtain ⟨w1, _, w3⟩ := hm.width q hq
      have hk := k3 q hq p hpq
      refine ⟨q.1, hpq, by omega, ?_, ?_⟩
      · intro i hi'
        exact hm.disjoint q hq (formatAPos i) (by
          rw [hmap, List.mem_map]; exact ⟨i, List.mem_range.mpr hi', rfl⟩)
      · have e : crcText enc q.1 = "CRC: 0x".toList ++ hexBytes ((enc.drop q.1).take 2) := by
          rw [take_two _ _ (by omega)]
          unfold crcText
          simp only [hexString_bytes]
          simp [hexBytes]
        rw [← e]; exact hk

/-- C125 is not vacuous: the two parts of a field that a CRC divides. -/
example : FormatA formatAFrame formatABytes ∧
    (match annotateFrame cfgRelease noText formatABytes with
      | .ok segs => decide ((segs.filter (·.kind == .crc)).map (·.detail) =
          ["CRC: 0x6F07".toList, "CRC: 0x90BB".toList, "CRC: 0xC29A".toList])
      | _ => false) = true := ⟨formatABytes_ok, by decide +kernel⟩

/-! ## Counterexamples -/

/-- C125 is false: the text of a plain text unit has the characters backwards; this is the unit "AB". -/
theorem C125_fails_plain_text (oc : Bool) (dt : Data → List Char) :
    ∃ segs s, annotateFrame ⟨oc, false⟩ dt (wiredLong [0x78, 0x01, 0xFC, 0x74, 0x02, 0x42, 0x41, 0x09]) = .ok segs ∧
      s ∈ segs ∧ s.kind = .plaintextVif ∧ s.detail = "Plaintext VIF: \"BA\"".toList ∧
      ¬ Told (wiredLong [0x78, 0x01, 0xFC, 0x74, 0x02, 0x42, 0x41, 0x09]) s := by
  obtain ⟨r, hr, h1, h2, h3, h4⟩ : ∃ r, DataRecord.parse ⟨oc, false⟩ false
      [0x01, 0xFC, 0x74, 0x02, 0x42, 0x41, 0x09] = .ok r ∧
      r.size = 7 ∧ r.header.size = 6 ∧ r.header.raw.dib.size = 1 ∧
      r.header.raw.vib = some ⟨0xFC, some [0x74], some [0x42, 0x41]⟩ := by
    have : (match DataRecord.parse ⟨oc, false⟩ false [0x01, 0xFC, 0x74, 0x02, 0x42, 0x41, 0x09] with
      | .ok r => decide (r.size = 7 ∧ r.header.size = 6 ∧ r.header.raw.dib.size = 1 ∧
          r.header.raw.vib = some ⟨0xFC, some [0x74], some [0x42, 0x41]⟩)
      | _ => false) = true := by
      cases oc <;> decide +kernel
    split at this
    · rename_i r hr; exact ⟨r, hr, by simpa using this⟩
    · cases this
  have hrec : annotateRecords ⟨oc, false⟩ dt 7 [0x01, 0xFC, 0x74, 0x02, 0x42, 0x41, 0x09] = .ok
      [recordSeg 7 8 .dif "DIF: 0x01".toList (some 0), recordSeg 8 9 .vif "VIF: 0xFC".toList (some 0),
       recordSeg 9 10 .vife "VIFE: 1 byte(s)".toList (some 0),
       recordSeg 10 13 .plaintextVif "Plaintext VIF: \"BA\"".toList (some 0),
       recordSeg 13 14 .dataPayload (dt r.data) (some 0)] := by
    rw [annotateRecords, annotate_step _ _ _ _ _ _ _ (by decide) hr, h1, h2]
    simp only [recordHeaderSegs, h3, h4, List.drop_succ_cons, List.drop_zero, VIB.vifeCount]
    rw [annotateRecordsFrom]
    rfl
  obtain ⟨pre, post, hfr, _⟩ := annotate_noTpl _ dt _ _ hrec (by simp) (.rspUd false false)
    (.primary 1) (by cases oc <;> decide +kernel)
  refine ⟨_, recordSeg 10 13 .plaintextVif "Plaintext VIF: \"BA\"".toList (some 0), hfr, by simp, rfl, rfl, ?_⟩
  rintro ⟨n, chars, e1, e2⟩
  have hm : markedBytes (wiredLong [0x78, 0x01, 0xFC, 0x74, 0x02, 0x42, 0x41, 0x09])
      (recordSeg 10 13 .plaintextVif "Plaintext VIF: \"BA\"".toList (some 0)) = [0x02, 0x42, 0x41] := by
    rfl
  rw [hm] at e1
  cases e1
  exact absurd e2 (by decide +kernel)

/-- C125 is false: the fourth byte of a long frame is called a start byte 0x68 whatever it is. -/
theorem C125_fails (cfg : Cfg) (dt : Data → List Char) :
    ∃ segs s, annotateFrame cfg dt (longFrameBytes 0x00 0x08 0x01 []) = .ok segs ∧ s ∈ segs ∧
      s.detail = "Start: 0x68 (repeated)".toList ∧ markedBytes (longFrameBytes 0x00 0x08 0x01 []) s = [0x00] ∧
      ¬ Told (longFrameBytes 0x00 0x08 0x01 []) s := by
  have hf : WiredFrame.tryFrom cfg (longFrameBytes 0x00 0x08 0x01 []) =
      .ok (.longFrame (.rspUd false false) (addressOf 1) []) := by
    rw [C01_wired_accepts_exactly_telegrams]
    exact .long 0x00 0x08 0x01 [] _ .rspUd00 (by decide) (by decide)
  obtain ⟨segs, hs⟩ : ∃ segs, annotateWired cfg dt (longFrameBytes 0x00 0x08 0x01 []) = .ok segs ∧
      frameSeg 3 4 .startByte "Start: 0x68 (repeated)".toList ∈ segs := by
    unfold annotateWired
    rw [hf]
    simp only [Res.mapErr, Res.bind_ok]
    unfold annotateLong annotateUserData
    simp
  refine ⟨segs, _, ?_, hs.2, rfl, rfl, ?_⟩
  · unfold annotateFrame
    rw [hs.1]
  · rintro (⟨b, e1, e2⟩ | ⟨b, e1, e2⟩ | ⟨b, e1, e2⟩) <;>
      (cases show ([0x00] : List UInt8) = [b] from e1) <;> exact absurd e2 (by decide +kernel)

/-! ## C96: control frames -/

/-- C96: the annotation of a control frame numbers no records, and calls its data unknown. -/
theorem C96_control (cfg : Cfg) (dt : Data → List Char) (data : List UInt8) (fn : Function) (ad : Address)
    (payload : List UInt8) (segs : List ByteSegment)
    (hf : WiredFrame.tryFrom cfg data = .ok (.controlFrame fn ad payload))
    (h : annotateFrame cfg dt data = .ok segs) :
    ∀ s ∈ segs, s.group = none ∧ (s.layer ≠ .frame → s.kind = .unknown ∧ markedBytes data s = payload) := by
  have hw : annotateWired cfg dt data = .ok segs := by
    rcases frame_cases h with h | ⟨⟨e, h⟩, _⟩
    · exact h
    · obtain ⟨e', he'⟩ := (wired_err_iff _ _ _ _).1 h
      rw [hf] at he'; cases he'
  unfold annotateWired at hw
  rw [hf] at hw
  simp only [Res.mapErr, Res.bind_ok] at hw
  have ht := (C01_wired_accepts_exactly_telegrams _ _ _).1 hf
  cases ht with
  | control x a payload hl =>
    unfold annotateLong at hw
    simp only at hw
    rw [Res.bind_eq_ok] at hw
    obtain ⟨user, h1, h2⟩ := hw
    cases h2
    have hlay : ∀ {xs ys : List ByteSegment}, (∀ s ∈ xs, s.group = none ∧ (s.layer ≠ .frame →
        s.kind = .unknown ∧ markedBytes (longFrameBytes x 0x53 a payload) s = payload)) →
        (∀ s ∈ ys, s.group = none ∧ (s.layer ≠ .frame →
        s.kind = .unknown ∧ markedBytes (longFrameBytes x 0x53 a payload) s = payload)) →
        ∀ s ∈ xs ++ ys, s.group = none ∧ (s.layer ≠ .frame →
        s.kind = .unknown ∧ markedBytes (longFrameBytes x 0x53 a payload) s = payload) := by
      intro xs ys h1 h2 s hs
      rcases List.mem_append.mp hs with hs | hs
      · exact h1 s hs
      · exact h2 s hs
    refine hlay (hlay (hlay ?_ ?_) ?_) ?_
    · simp [frameSeg]
    · unfold annotateUserData at h1
      rw [if_neg (by simp)] at h1
      split at h1
      · cases h1
        intro s hs
        rw [List.mem_singleton] at hs; subst hs
        refine ⟨rfl, fun _ => ⟨rfl, ?_⟩⟩
        unfold markedBytes
        simp only [headerSeg, Nat.add_sub_cancel_left]
        show (payload ++ _).take _ = _
        rw [List.take_left' rfl]
      · cases h1; simp
    · split <;> simp [frameSeg]
    · split <;> simp [frameSeg]

/-- `C96_control` is not vacuous. -/
example : WiredFrame.tryFrom cfgRelease (longFrameBytes 0x68 0x53 0x01 [0x51, 0x01, 0x7A, 0x08]) =
      .ok (.controlFrame (.sndUd false) (.primary 1) [0x51, 0x01, 0x7A, 0x08]) ∧
    (match annotateFrame cfgRelease noText (longFrameBytes 0x68 0x53 0x01 [0x51, 0x01, 0x7A, 0x08]) with
      | .ok segs => decide ((segs.filter (·.layer != .frame)).map (fun s => (s.start, s.stop, s.kind)) =
          [(6, 10, .unknown)])
      | _ => false) = true := by
  constructor
  · rw [C01_wired_accepts_exactly_telegrams]
    exact .control 0x68 0x01 [0x51, 0x01, 0x7A, 0x08] (by decide)
  · decide +kernel

end MBus
