import Verif.Lemmas.Wireless
import Verif.Lemmas.Wired
import Verif.Props.Core
/-!
# Properties of the wireless link layer: C11-C15, C57
-/
namespace MBus
open Spec

/-- A wireless frame from the repository's tests; its last two bytes are a frame CRC. -/
def sampleWireless : List UInt8 :=
  [0x14, 0x44, 0xAE, 0x0C, 0x78, 0x56, 0x34, 0x12, 0x01, 0x07, 0x8C, 0x20, 0x27, 0x78,
   0x0B, 0x13, 0x43, 0x65, 0x87, 0x7A, 0xC5]

theorem sampleWireless_crc : CrcOk (sampleWireless.take 19) 0x7A 0xC5 := by
  rw [← crc16_iff]; decide +kernel

/-! ## C11 -/

/-- C11: the computed CRC equals the two stored bytes exactly when the block followed by the
complemented CRC is divisible by the generator polynomial of EN 13757-4. -/
theorem C11_crc_is_polynomial_remainder (block : List UInt8) (hi lo : UInt8) :
    crc16 block = u16be hi lo ↔ CrcOk block hi lo := crc16_iff block hi lo

/-- C11: every burst of errors confined to 16 consecutive bits of a block with its CRC, wherever it
lies, is detected: two different codewords of the same length never differ only in such a window. -/
theorem C11_crc_detects_bursts (w w' : List UInt8) (hl : w.length = w'.length) (h : Codeword w)
    (h' : Codeword w') (k : Nat) (hw : ∀ p, bitAt w p ≠ bitAt w' p → k ≤ p ∧ p < k + 16) :
    w = w' := burst_detect w w' hl h h' k hw

/-- C11: replacing two adjacent bytes of the data part or of the CRC by anything else is detected. -/
theorem C11_crc_detects_two_bytes (pre post : List UInt8) (a b a' b' : UInt8)
    (h : Codeword (pre ++ [a, b] ++ post)) (h' : Codeword (pre ++ [a', b'] ++ post)) :
    a = a' ∧ b = b' := by
  have := burst_detect _ _ (by simp) h h' (8 * post.length) (by
    intro p hp
    by_contra hcon
    apply hp
    unfold bitAt
    have e : ∀ x y : UInt8, (pre ++ [x, y] ++ post).reverse = post.reverse ++ [y, x] ++ pre.reverse := by
      intro x y; simp
    rw [e, e]
    have hcase : p / 8 < post.length ∨ post.length + 2 ≤ p / 8 := by omega
    rcases hcase with hc | hc
    · rw [List.append_assoc, List.append_assoc, List.getElem?_append_left (by simpa using hc),
        List.getElem?_append_left (by simpa using hc)]
    · rw [List.getElem?_append_right (by simp; omega), List.getElem?_append_right (by simp; omega)]
      simp)
  simpa using this

/-- C11: replacing one byte is detected. -/
theorem C11_crc_detects_one_byte (pre post : List UInt8) (a a' : UInt8)
    (h : Codeword (pre ++ [a] ++ post)) (h' : Codeword (pre ++ [a'] ++ post)) : a = a' := by
  cases post with
  | nil =>
    rcases List.eq_nil_or_concat pre with rfl | ⟨p, x, rfl⟩
    · obtain ⟨b, x, y, e, _⟩ := h
      have := congrArg List.length e; simp at this
    · have := C11_crc_detects_two_bytes p [] x a x a' (by simpa using h) (by simpa using h')
      exact this.2
  | cons x post =>
    have := C11_crc_detects_two_bytes pre post a x a' x (by simpa using h) (by simpa using h')
    exact this.1

/-- C11: every error that flips an odd number of bits is detected: all codewords have the same
parity. -/
theorem C11_crc_detects_odd_flips (w w' : List UInt8) (h : Codeword w) (h' : Codeword w') :
    popcount w % 2 = popcount w' % 2 := parity_detect w w' h h'

/-- C11: `trailing_frame_crc_start` reports exactly the frames of at least 12 bytes that end in the
CRC of everything before it. -/
theorem C11_trailing_frame_crc_start (data : List UInt8) (n : Nat) :
    trailingFrameCrcStart data = some n ↔
      ∃ body hi lo, data = body ++ [hi, lo] ∧ body.length = n ∧ 10 ≤ n ∧ CrcOk body hi lo := by
  constructor
  · intro h
    by_cases h2 : data.length < 2
    · rw [trailing_short _ h2] at h; cases h
    · obtain ⟨body, hi, lo, rfl⟩ := exists_append_two data (by omega)
      rw [trailing_append] at h
      split at h
      · rename_i hc
        cases h
        exact ⟨body, hi, lo, rfl, rfl, hc.1, (crc16_iff _ _ _).1 hc.2⟩
      · cases h
  · rintro ⟨body, hi, lo, rfl, rfl, h10, hc⟩
    rw [trailing_append, if_pos ⟨h10, (crc16_iff _ _ _).2 hc⟩]

/-- C11 is not vacuous: the sample frame is a codeword. -/
example : Codeword sampleWireless :=
  ⟨sampleWireless.take 19, 0x7A, 0xC5, rfl, sampleWireless_crc⟩
example : trailingFrameCrcStart sampleWireless = some 19 := by decide +kernel

/-! ## C12, C13 -/

/-- C12: the parser accepts exactly the frames of the grammar and returns their content. -/
theorem C12_wireless_accepts_exactly_telegrams (data : List UInt8) (f : WirelessFrame) :
    WirelessFrame.tryFrom data = .ok f ↔ WirelessTelegram data f := by
  constructor
  · intro h
    rcases data with _ | ⟨l, _ | ⟨c, rest⟩⟩
    · simp [WirelessFrame.tryFrom] at h
    · simp [WirelessFrame.tryFrom] at h
    unfold WirelessFrame.tryFrom at h
    simp [sliceFrom?] at h
    rcases hm : ManufacturerId.tryFrom rest with mid | e | _
    rotate_left
    · simp [hm] at h
    · simp [hm] at h
    rw [hm] at h
    simp only [Res.bind_ok] at h
    rcases rest with _ | ⟨m0, _ | ⟨m1, rest⟩⟩
    · simp [ManufacturerId.tryFrom] at hm
    · simp [ManufacturerId.tryFrom] at hm
    unfold ManufacturerId.tryFrom at hm
    simp only [List.getElem?_cons_zero, List.getElem?_cons_succ, Res.ofOption_some, Res.bind_ok] at hm
    rw [Res.bind_eq_ok] at hm
    obtain ⟨code, hcode, hm⟩ := hm
    rcases rest with _ | ⟨d0, _ | ⟨d1, _ | ⟨d2, _ | ⟨d3, rest⟩⟩⟩⟩
    · simp at hm
    · simp at hm
    · simp at hm
    · simp at hm
    simp only [List.getElem?_cons_zero, List.getElem?_cons_succ, Res.ofOption_some, Res.bind_ok] at hm
    rw [Res.bind_eq_ok] at hm
    obtain ⟨num, hnum, hm⟩ := hm
    rcases rest with _ | ⟨ver, _ | ⟨dev, _ | ⟨ci, rest⟩⟩⟩
    · simp at hm
    · simp at hm
    · simp at hm
    simp only [List.getElem?_cons_zero, List.getElem?_cons_succ, Res.ofOption_some, Res.bind_ok] at hm
    rw [deviceByte_eq] at hm
    have hcode' : ManufacturerCode.fromId (u16le m0 m1) = .ok code := by
      cases hc : ManufacturerCode.fromId (u16le m0 m1) <;> simp [hc] at hcode ⊢
      exact hcode
    have hnum' : bcdHexDigitsToU32 d0 d1 d2 d3 = .ok num := by
      cases hc : bcdHexDigitsToU32 d0 d1 d2 d3 <;> simp [hc] at hnum ⊢
      exact hnum
    obtain ⟨i, j, k, hi, hj, hk, hid, rfl⟩ := (C07_manufacturer_from_id _ _).1 hcode'
    obtain ⟨hb, rfl⟩ := (bcdHex_ok _ _ _ _ _).1 hnum'
    cases hm
    split at h
    swap
    · cases h
    rename_i hlen
    obtain ⟨p, hs, hp⟩ := payload_slice [l, c, m0, m1, d0, d1, d2, d3, ver, dev] (ci :: rest) rfl
    simp only [List.cons_append, List.nil_append, List.length_cons] at hs
    simp only [List.length_cons] at h
    rw [hs] at h
    cases h
    refine .mk _ _ _ _ _ _ _ _ _ _ _ _ _ _ _ _ _ ?_ ?_ hi hj hk ?_ hb hp
    · simp at hlen; omega
    · intro g
      rw [← functionTryFrom_iff]
      cases Function.tryFrom c <;> simp [Res.toOption]
    · rw [← hid, u16le_toNat]
  · intro h
    cases h with
    | mk l c m0 m1 d0 d1 d2 d3 ver dev ci rest payload i j k fn hl hfn hi hj hk hm hbcd hp =>
    have hcode : ManufacturerCode.fromId (u16le m0 m1) = .ok (letters i j k) :=
      (C07_manufacturer_from_id _ _).2 ⟨i, j, k, hi, hj, hk, by rw [u16le_toNat]; exact hm, rfl⟩
    have hnum := (bcdHex_ok d0 d1 d2 d3 _).2 ⟨hbcd, rfl⟩
    obtain ⟨p, hs, hp'⟩ := payload_slice [l, c, m0, m1, d0, d1, d2, d3, ver, dev] (ci :: rest) rfl
    have := payload_unique hp hp'
    subst this
    simp only [List.cons_append, List.nil_append, List.length_cons] at hs
    have hf : (Function.tryFrom c).toOption = fn := by
      apply Option.ext
      intro g
      rw [hfn, ← functionTryFrom_iff]
      cases Function.tryFrom c <;> simp [Res.toOption]
    have hmid := manufacturerId_ok m0 m1 d0 d1 d2 d3 ver dev ci rest _ _ hcode hnum
    unfold WirelessFrame.tryFrom
    rw [sliceFrom?_length _ _ (by simp)]
    simp only [List.getElem?_cons_zero, List.getElem?_cons_succ, Res.ofOption_some, Res.bind_ok,
      List.length_cons, List.drop_succ_cons, List.drop_zero, hmid, hs, hf]
    rw [if_pos (by omega)]

theorem header_ok_of_fields {rest : List UInt8} {mid : ManufacturerId} (l c : UInt8)
    (h : ManufacturerId.tryFrom rest = .ok mid) : WirelessHeaderOk (l :: c :: rest) := by
  rcases rest with _ | ⟨m0, _ | ⟨m1, rest⟩⟩
  · simp [ManufacturerId.tryFrom] at h
  · simp [ManufacturerId.tryFrom] at h
  unfold ManufacturerId.tryFrom at h
  simp only [List.getElem?_cons_zero, List.getElem?_cons_succ, Res.ofOption_some, Res.bind_ok] at h
  rw [Res.bind_eq_ok] at h
  obtain ⟨code, hcode, h⟩ := h
  rcases rest with _ | ⟨d0, _ | ⟨d1, _ | ⟨d2, _ | ⟨d3, rest⟩⟩⟩⟩
  · simp at h
  · simp at h
  · simp at h
  · simp at h
  simp only [List.getElem?_cons_zero, List.getElem?_cons_succ, Res.ofOption_some, Res.bind_ok] at h
  rw [Res.bind_eq_ok] at h
  obtain ⟨num, hnum, h⟩ := h
  rcases rest with _ | ⟨ver, _ | ⟨dev, _ | ⟨ci, rest⟩⟩⟩
  · simp at h
  · simp at h
  · simp at h
  have hcode' : ManufacturerCode.fromId (u16le m0 m1) = .ok code := by
    cases hc : ManufacturerCode.fromId (u16le m0 m1) <;> simp [hc] at hcode ⊢
    exact hcode
  have hnum' : bcdHexDigitsToU32 d0 d1 d2 d3 = .ok num := by
    cases hc : bcdHexDigitsToU32 d0 d1 d2 d3 <;> simp [hc] at hnum ⊢
    exact hnum
  obtain ⟨i, j, k, hi, hj, hk, hid, rfl⟩ := (C07_manufacturer_from_id _ _).1 hcode'
  obtain ⟨hb, rfl⟩ := (bcdHex_ok _ _ _ _ _).1 hnum'
  exact ⟨l, c, m0, m1, d0, d1, d2, d3, ver, dev, ci, rest, i, j, k, rfl, hi, hj, hk,
    by rw [← hid, u16le_toNat], hb⟩

theorem manufacturerId_cases (rest : List UInt8) :
    (∃ mid, ManufacturerId.tryFrom rest = .ok mid) ∨
      ManufacturerId.tryFrom rest = .err .tooShort := by
  have hOpt : ∀ {β} (n : Nat) (f : UInt8 → Res WirelessFrameError β),
      (∀ b, (∃ r, f b = .ok r) ∨ f b = .err .tooShort) →
      (∃ r, (Res.ofOption .tooShort rest[n]? >>= f) = .ok r) ∨
        (Res.ofOption .tooShort rest[n]? >>= f) = .err .tooShort := by
    intro β n f hf
    cases rest[n]? with
    | none => right; rfl
    | some b => simpa using hf b
  unfold ManufacturerId.tryFrom
  refine hOpt _ _ fun m0 => hOpt _ _ fun m1 => ?_
  cases hc : ManufacturerCode.fromId (u16le m0 m1) with
  | err e => right; rfl
  | panic =>
    by_cases hx : ∃ c, ManufacturerCode.fromId (u16le m0 m1) = .ok c
    · obtain ⟨c, hx⟩ := hx; rw [hc] at hx; cases hx
    · rw [C07_manufacturer_rejects _ hx] at hc; cases hc
  | ok code =>
    simp only [Res.mapErr_ok, Res.bind_ok]
    refine hOpt _ _ fun d0 => hOpt _ _ fun d1 => hOpt _ _ fun d2 => hOpt _ _ fun d3 => ?_
    cases hn : bcdHexDigitsToU32 d0 d1 d2 d3 with
    | err e => right; rfl
    | panic => exact absurd hn (bcdLoop_ne_panic _ _ _)
    | ok num =>
      simp only [Res.mapErr_ok, Res.bind_ok]
      exact hOpt _ _ fun v => hOpt _ _ fun dv => hOpt _ _ fun ci => Or.inl ⟨_, rfl⟩

/-- C12: order of precedence of the errors.  An empty input is `EmptyData`; an input whose
manufacturer, identification number or CI byte is missing or malformed is `TooShort`; only then the
L field is checked, and a wrong one is `WrongLength` with the expected and the actual length. -/
theorem C12_wireless_error_precedence (data : List UInt8) :
    (data = [] → WirelessFrame.tryFrom data = .err .emptyData) ∧
    (data ≠ [] → ¬ WirelessHeaderOk data → WirelessFrame.tryFrom data = .err .tooShort) ∧
    (∀ l rest, data = l :: rest → WirelessHeaderOk data → l.toNat ≠ rest.length →
      WirelessFrame.tryFrom data = .err (.wrongLength (l.toNat + 1) data.length)) := by
  refine ⟨?_, ?_, ?_⟩
  · rintro rfl; rfl
  · intro hne hh
    rcases data with _ | ⟨l, _ | ⟨c, rest⟩⟩
    · exact absurd rfl hne
    · rfl
    · rcases manufacturerId_cases rest with ⟨mid, hm⟩ | hm
      · exact absurd (header_ok_of_fields l c hm) hh
      · unfold WirelessFrame.tryFrom
        simp [sliceFrom?, hm]
  · rintro l rest rfl ⟨l', c, m0, m1, d0, d1, d2, d3, ver, dev, ci, r, i, j, k, he, hi, hj, hk, hm,
      hbcd⟩ hl
    simp at he
    obtain ⟨rfl, rfl⟩ := he
    have hcode : ManufacturerCode.fromId (u16le m0 m1) = .ok (letters i j k) :=
      (C07_manufacturer_from_id _ _).2 ⟨i, j, k, hi, hj, hk, by rw [u16le_toNat]; exact hm, rfl⟩
    have hnum := (bcdHex_ok d0 d1 d2 d3 _).2 ⟨hbcd, rfl⟩
    have hmid := manufacturerId_ok m0 m1 d0 d1 d2 d3 ver dev ci r _ _ hcode hnum
    unfold WirelessFrame.tryFrom
    rw [sliceFrom?_length _ _ (by simp)]
    simp only [List.getElem?_cons_zero, List.getElem?_cons_succ, Res.ofOption_some, Res.bind_ok,
      List.length_cons, List.drop_succ_cons, List.drop_zero, hmid]
    simp only [List.length_cons] at hl
    rw [if_neg (by omega)]

/-- C13: the parser never panics. -/
theorem C13_wireless_never_panics (data : List UInt8) : WirelessFrame.tryFrom data ≠ .panic := by
  intro h
  by_cases h0 : data = []
  · subst h0; cases h
  by_cases hh : WirelessHeaderOk data
  · obtain ⟨l, c, m0, m1, d0, d1, d2, d3, ver, dev, ci, r, i, j, k, he, hi, hj, hk, hm, hbcd⟩ := id hh
    by_cases hl : l.toNat = 10 + r.length
    · obtain ⟨p, _, hp⟩ := payload_slice [l, c, m0, m1, d0, d1, d2, d3, ver, dev] (ci :: r) rfl
      have hok := (C12_wireless_accepts_exactly_telegrams data _).2 (he ▸
        (WirelessTelegram.mk l c m0 m1 d0 d1 d2 d3 ver dev ci r p i j k (Function.tryFrom c).toOption hl
          (by intro g; rw [← functionTryFrom_iff]; cases Function.tryFrom c <;> simp [Res.toOption])
          hi hj hk hm hbcd hp))
      rw [h] at hok; cases hok
    · have := (C12_wireless_error_precedence data).2.2 l _ he hh (by simp; omega)
      rw [h] at this; cases this
  · have := (C12_wireless_error_precedence data).2.1 h0 hh
    rw [h] at this; cases this

/-- C13: the payload is everything from offset 10 on, minus the last two bytes exactly when the
frame has at least 12 bytes and these two are the CRC of everything before them. -/
theorem C13_wireless_payload (data : List UInt8) (f : WirelessFrame)
    (h : WirelessFrame.tryFrom data = .ok f) :
    (∃ body hi lo, data = body ++ [hi, lo] ∧ 12 ≤ data.length ∧ CrcOk body hi lo ∧
        f.data = body.drop 10) ∨
    (f.data = data.drop 10 ∧
      ¬ ∃ body hi lo, data = body ++ [hi, lo] ∧ 12 ≤ data.length ∧ CrcOk body hi lo) := by
  have ht := (C12_wireless_accepts_exactly_telegrams data f).1 h
  cases ht with
  | mk l c m0 m1 d0 d1 d2 d3 ver dev ci rest payload i j k fn hl hfn hi hj hk hm hbcd hp =>
  cases hp with
  | crc _ h1 h2 hb hc =>
    left
    refine ⟨[l, c, m0, m1, d0, d1, d2, d3, ver, dev] ++ payload, h1, h2, ?_, ?_, hc, by simp⟩
    · simp [hb]
    · have := congrArg List.length hb
      simp at this ⊢; omega
  | plain hn =>
    right
    refine ⟨by simp, ?_⟩
    rintro ⟨body, h1, h2, he, h12, hc⟩
    have hlb := congrArg List.length he
    simp at hlb h12
    have hbt : body = [l, c, m0, m1, d0, d1, d2, d3, ver, dev] ++ body.drop 10 := by
      have h10 : body.take 10 = [l, c, m0, m1, d0, d1, d2, d3, ver, dev] := by
        have := congrArg (List.take 10) he
        rw [List.take_append_of_le_length (by omega)] at this
        rw [← this]; rfl
      rw [← h10, List.take_append_drop]
    have hd : ci :: rest = body.drop 10 ++ [h1, h2] := by
      have := congrArg (List.drop 10) he
      rw [List.drop_append_of_le_length (by omega)] at this
      simpa using this
    exact hn _ _ _ hd (hbt ▸ hc)

/-- C12/C13 are not vacuous: the sample frame is accepted and loses its CRC. -/
example : WirelessFrame.tryFrom sampleWireless = .ok ⟨0x44, some .sndNr,
    ⟨letters 3 5 14, 12345678, .waterMeter, 1, false⟩,
    [0x8C, 0x20, 0x27, 0x78, 0x0B, 0x13, 0x43, 0x65, 0x87]⟩ := by decide +kernel
/-- The three errors occur. -/
example : WirelessFrame.tryFrom [0x0A, 0x44, 0xAE, 0x0C, 0x78, 0x56, 0x34, 0x12, 0x01, 0x07] =
    .err .tooShort := by decide +kernel
example : WirelessFrame.tryFrom [0x0B, 0x44, 0xAE, 0x0C, 0x78, 0x56, 0x34, 0x12, 0x01, 0x07, 0x7A] =
    .err (.wrongLength 12 11) := by decide +kernel

/-! ## C14 -/

/-- C14: every link frame of at least ten bytes has a Format A encoding. -/
theorem C14_format_a_exists (frame : List UInt8) (h : 10 ≤ frame.length) :
    ∃ enc, FormatA frame enc := by
  have hblocks : ∀ n (body : List UInt8), body.length = n → ∃ enc, FormatABlocks body enc := by
    intro n
    induction n using Nat.strong_induction_on with
    | _ n ih =>
      intro body hb
      by_cases h0 : n = 0
      · exact ⟨[], by rw [List.eq_nil_of_length_eq_zero (hb.trans h0)]; exact .nil⟩
      · by_cases h16 : n ≤ 16
        · obtain ⟨hi, lo, hc⟩ := crc_exists body
          exact ⟨_, .last body hi lo (by omega) (by omega) hc⟩
        · obtain ⟨hi, lo, hc⟩ := crc_exists (body.take 16)
          obtain ⟨enc, he⟩ := ih (n - 16) (by omega) (body.drop 16) (by simp; omega)
          have := FormatABlocks.cons (body.take 16) (body.drop 16) enc hi lo (by simp; omega) hc he
          rw [List.take_append_drop] at this
          exact ⟨_, this⟩
  obtain ⟨hi, lo, hc⟩ := crc_exists (frame.take 10)
  obtain ⟨enc, he⟩ := hblocks _ (frame.drop 10) rfl
  have := FormatA.mk (frame.take 10) (frame.drop 10) enc hi lo (by simp; omega) hc he
  rw [List.take_append_drop] at this
  exact ⟨_, this⟩

/-- C14: stripping a Format A encoding gives back the frame with its L field recomputed. -/
theorem C14_format_a_roundtrip (frame enc output : List UInt8) (h : FormatA frame enc)
    (hout : enc.length ≤ output.length) :
    ∃ buffer, stripFormatACrcs enc output = .ok (some (fixL frame), buffer) := by
  cases h with
  | mk head body enc hi lo h10 hc hb =>
    obtain ⟨tail, hs, he⟩ := strip_ok head hi lo enc output h10 hc hout
    have := stripped_unique hs (stripped_of_blocks hb)
    subst this
    exact ⟨_, he⟩

/-- C14: a frame whose L field is right comes back unchanged. -/
theorem C14_format_a_roundtrip_exact (l : UInt8) (rest enc output : List UInt8)
    (h : FormatA (l :: rest) enc) (hl : l.toNat = rest.length) (hout : enc.length ≤ output.length) :
    ∃ buffer, stripFormatACrcs enc output = .ok (some (l :: rest), buffer) := by
  obtain ⟨b, hb⟩ := C14_format_a_roundtrip _ _ _ h hout
  refine ⟨b, ?_⟩
  rw [hb]
  simp [fixL, ← hl]

/-- C14 is not vacuous: a 27 byte frame with a full and a partial block. -/
example : stripFormatACrcs
    ((sampleWireless.take 10 ++ [0x17, 0x90]) ++ ((List.range 16).map UInt8.ofNat ++ [0x03, 0x7E]) ++
      ([0x55] ++ [0x9B, 0xC7])) (List.replicate 64 0) =
    .ok (some (0x1A :: (sampleWireless.take 10).drop 1 ++ (List.range 16).map UInt8.ofNat ++ [0x55]),
      0x1A :: (sampleWireless.take 10).drop 1 ++ (List.range 16).map UInt8.ofNat ++ [0x55] ++
        List.replicate 37 0) := by decide +kernel

/-! ## C15 -/

/-- Whether the first block of an input is followed by its CRC. -/
def FirstBlockOk (data : List UInt8) : Prop := BlockAt data 10

/-- C15: the result is `None`, leaving the buffer alone, exactly when the input is shorter than 12
bytes, the buffer is shorter than the input or the first CRC is wrong. -/
theorem C15_strip_none_iff (data output : List UInt8) :
    (∃ b, stripFormatACrcs data output = .ok (none, b)) ↔
      (data.length < 12 ∨ output.length < data.length ∨ ¬ FirstBlockOk data) := by
  constructor
  · rintro ⟨b, h⟩
    by_contra hcon
    push Not at hcon
    obtain ⟨h1, h2, block, hi, lo, tail, hl, rfl, hc⟩ := hcon
    obtain ⟨t, _, he⟩ := strip_ok block hi lo tail output hl hc h2
    rw [he] at h; simp at h
  · intro h
    refine ⟨output, ?_⟩
    unfold stripFormatACrcs
    by_cases hlen : data.length < 12 ∨ output.length < data.length
    · rw [if_pos hlen]
    · rw [if_neg hlen]
      rw [← or_assoc] at h
      have hn : ¬ BlockAt data 10 := h.resolve_left hlen
      obtain ⟨x, hx⟩ : ∃ x, data[10]? = some x := ⟨data[10], List.getElem?_eq_getElem (by omega)⟩
      obtain ⟨y, hy⟩ : ∃ y, data[11]? = some y := ⟨data[11], List.getElem?_eq_getElem (by omega)⟩
      have hcr : crc16 (data.take 10) ≠ u16be x y :=
        fun hc => hn ((blockAt_iff _ _).2 ⟨x, y, hx, hy, hc⟩)
      simp only [hx, hy]
      rw [if_pos hcr]

/-- C15: a `None` result leaves the buffer unchanged. -/
theorem C15_strip_none_buffer (data output b : List UInt8)
    (h : stripFormatACrcs data output = .ok (none, b)) : b = output := by
  have hn := (C15_strip_none_iff data output).1 ⟨b, h⟩
  unfold stripFormatACrcs at h
  split at h
  · cases h; rfl
  · rename_i hlen
    split at h
    · split at h
      · cases h; rfl
      · rename_i x y hx hy hcr
        rw [← or_assoc] at hn
        exact absurd ((blockAt_iff _ _).2 ⟨x, y, hx, hy, by simpa using hcr⟩) (hn.resolve_left hlen)
    · cases h

/-- C15: otherwise the result is the first ten bytes with the L field recomputed, followed by the
remaining blocks with their CRCs removed (`Stripped`); only that part of the buffer is written. -/
theorem C15_strip_some (data output : List UInt8) (h12 : 12 ≤ data.length)
    (hout : data.length ≤ output.length) (hb : FirstBlockOk data) :
    ∃ tail, Stripped (data.drop 12) tail ∧
      stripFormatACrcs data output = .ok (some (fixL (data.take 10 ++ tail)),
        fixL (data.take 10 ++ tail) ++ output.drop (10 + tail.length)) := by
  obtain ⟨block, hi, lo, rest, hl, rfl, hc⟩ := hb
  obtain ⟨t, hs, he⟩ := strip_ok block hi lo rest output hl hc hout
  have e1 : (block ++ [hi, lo] ++ rest).drop 12 = rest := by
    have : 12 = (block ++ [hi, lo]).length := by simp; omega
    rw [this, List.drop_left]
  have e2 : (block ++ [hi, lo] ++ rest).take 10 = block := by
    rw [List.append_assoc, ← hl, List.take_left]
  refine ⟨t, by rw [e1]; exact hs, ?_⟩
  rw [he, e2, List.length_append, hl]

/-- C15: apart from the L field the output is a subsequence of the input, at most two bytes shorter
than the input. -/
theorem C15_stripped_is_subsequence (data tail : List UInt8) (h12 : 12 ≤ data.length)
    (h : Stripped (data.drop 12) tail) :
    (data.take 10 ++ tail).Sublist data ∧ (fixL (data.take 10 ++ tail)).length + 2 ≤ data.length := by
  constructor
  · conv_rhs => rw [← List.take_append_drop 10 data]
    refine List.Sublist.append (List.Sublist.refl _) ((stripped_sublist h).trans ?_)
    have : data.drop 12 = (data.drop 10).drop 2 := by simp
    rw [this]
    exact List.drop_sublist _ _
  · have := stripped_length h
    have hf : ∀ l : List UInt8, (fixL l).length = l.length := by
      intro l; cases l <;> simp [fixL]
    rw [hf]
    simp at this ⊢
    omega

/-- C15: stripping never reads or writes out of bounds. -/
theorem C15_strip_never_panics (data output : List UInt8) :
    stripFormatACrcs data output ≠ .panic := by
  intro hp
  by_cases h : data.length < 12 ∨ output.length < data.length ∨ ¬ FirstBlockOk data
  · obtain ⟨b, hb⟩ := (C15_strip_none_iff data output).2 h
    rw [hp] at hb; cases hb
  · push Not at h
    obtain ⟨t, _, he⟩ := C15_strip_some data output h.1 h.2.1 h.2.2
    rw [hp] at he; cases he

/-- C15 is not vacuous: both outcomes occur. -/
example : (stripFormatACrcs (sampleWireless.take 10 ++ [0x17, 0x90, 1, 2]) (List.replicate 14 0)) =
    .ok (some (0x0B :: (sampleWireless.take 10).drop 1 ++ [1, 2]),
      0x0B :: (sampleWireless.take 10).drop 1 ++ [1, 2, 0, 0]) := by decide +kernel
example : stripFormatACrcs sampleWireless (List.replicate 30 0) = .ok (none, List.replicate 30 0) := by
  decide +kernel

/-! ## C57: the documented contract of `strip_format_a_crcs` is false -/

/-- C57 (negation): the documentation promises `None` "if the frame doesn't have valid Format A
CRCs", but there is an input that is no Format A framing of any frame for which the function returns
a frame, in which the damaged block still contains its CRC bytes. -/
theorem C57_documented_contract_fails :
    ∃ data output frame buffer, (∀ f, ¬ FormatA f data) ∧
      stripFormatACrcs data output = .ok (some frame, buffer) ∧
      frame.drop 10 = data.drop 12 := by
  refine ⟨sampleWireless.take 10 ++ [0x17, 0x90, 1, 2, 3, 0, 0], List.replicate 17 0,
    0x0E :: (sampleWireless.take 10).drop 1 ++ [1, 2, 3, 0, 0],
    0x0E :: (sampleWireless.take 10).drop 1 ++ [1, 2, 3, 0, 0, 0, 0], ?_, (by decide +kernel),
    by decide +kernel⟩
  intro f hf
  generalize hd : sampleWireless.take 10 ++ [0x17, 0x90, 1, 2, 3, 0, 0] = data at hf
  cases hf with
  | mk head body enc hi lo h10 hc hb =>
    have he : enc = [1, 2, 3, 0, 0] := by
      have h1 := congrArg (List.drop 12) hd
      have h2 : (head ++ [hi, lo] ++ enc).drop 12 = enc := by
        have : 12 = (head ++ [hi, lo]).length := by simp; omega
        rw [this, List.drop_left]
      rw [h2] at h1
      rw [← h1]; rfl
    generalize henc : enc = e at hb
    rw [he] at henc
    cases hb with
    | nil => cases henc
    | last b hi lo h0 h16 hc =>
      have hs : ([1, 2, 3] : List UInt8) ++ [0, 0] = body ++ [hi, lo] := henc
      obtain ⟨rfl, rfl, rfl⟩ := append_two_inj hs
      rw [← crc16_iff] at hc
      revert hc; decide +kernel
    | cons b body enc hi lo h16 hc ht =>
      have := congrArg List.length henc
      simp [h16] at this
      omega

/-- C57 (what does hold): `None` is returned whenever the first block has a wrong CRC, so a returned
frame always has an intact first block. -/
theorem C57_strip_first_block_partial (data output frame buffer : List UInt8)
    (h : stripFormatACrcs data output = .ok (some frame, buffer)) :
    ∃ hi lo rest, data = data.take 10 ++ [hi, lo] ++ rest ∧ CrcOk (data.take 10) hi lo := by
  by_cases hn : data.length < 12 ∨ output.length < data.length ∨ ¬ FirstBlockOk data
  · obtain ⟨b, hb⟩ := (C15_strip_none_iff data output).2 hn
    rw [h] at hb; simp at hb
  · push Not at hn
    obtain ⟨block, hi, lo, rest, hl, he, hc⟩ := hn.2.2
    have e2 : data.take 10 = block := by
      rw [he, List.append_assoc, ← hl, List.take_left]
    exact ⟨hi, lo, rest, by rw [e2]; exact he, by rw [e2]; exact hc⟩

end MBus
