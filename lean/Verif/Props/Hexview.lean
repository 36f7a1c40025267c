import Verif.Lemmas.HexviewView
import Verif.Props.Output
import Verif.Props.Annotate
/-!
# Properties of the decrypted view of a telegram: C55, C56, C99, C100, C101
-/
namespace MBus
open Spec

/-! ## C55: wired telegrams -/

/-- C55: exactly which telegrams have a decrypted view as a wired one, and which bytes it shows: the
telegram with the decrypted data in place of the encrypted ones. -/
theorem C55_wired_iff (cfg : Cfg) (aes : AesBlock) (haes : BlockSized aes)
    (key data display : List UInt8) :
    decryptedWired cfg aes key data = .ok display ↔
    key.length = 16 ∧ ∃ x c a fn header blk plain, FunctionCode c fn ∧ c ≠ 0x53 ∧
      (header ++ variableData blk).length ≤ 253 ∧ Block (header ++ variableData blk) blk ∧
      Recovered aes key none blk plain ∧
      data = longFrameBytes x c a (header ++ variableData blk) ∧
      display = longFrameBytes x c a (header ++ plain) :=
  decryptedWired_iff cfg aes haes key data display

/-- C55: the bytes shown parse as a frame again, with the same function and address, and its user data
are those of the telegram with the decrypted data. -/
theorem C55_parses_again (cfg : Cfg) (aes : AesBlock) (haes : BlockSized aes)
    (key data display : List UInt8) (h : decryptedWired cfg aes key data = .ok display) :
    display.length = data.length ∧
    ∃ fn address header blk plain,
      WiredFrame.tryFrom cfg data = .ok (.longFrame fn address (header ++ variableData blk)) ∧
      WiredFrame.tryFrom cfg display = .ok (.longFrame fn address (header ++ plain)) ∧
      UserDataBlock.tryFrom (header ++ variableData blk) = .ok blk ∧
      UserDataBlock.tryFrom (header ++ plain) = .ok (withData plain blk) ∧
      Recovered aes key none blk plain := by
  obtain ⟨hk, x, c, a, fn, header, blk, plain, hf, hc, hl, hb, hr, rfl, rfl⟩ :=
    (decryptedWired_iff cfg aes haes key data display).1 h
  obtain ⟨hlen, hv⟩ := recovered_length haes hr
  have hlen' : (header ++ plain).length = (header ++ variableData blk).length := by simp [hlen]
  refine ⟨by simp [longFrameBytes, hlen], fn, _, header, blk, plain,
    (C01_wired_accepts_exactly_telegrams _ _ _).2 (.long x c a _ fn hf hc hl),
    (C01_wired_accepts_exactly_telegrams _ _ _).2 (.long x c a _ fn hf hc (by omega)),
    (C32_accepts_iff _ _).2 hb, ?_, hr⟩
  obtain ⟨header', he, hp⟩ := block_header hb hv
  have := List.append_cancel_right he
  subst this
  exact (C32_accepts_iff _ _).2 (hp plain)

/-- C55: the decrypted view of a telegram whose data were encrypted under the meter's key shows the
data that were encrypted. -/
theorem C55_shows_plaintext (cfg : Cfg) (enc dec : AesBlock) (hdec : BlockSized dec) (key : List UInt8)
    (hk : key.length = 16) (hlen : ∀ b, b.length = 16 → (enc key b).length = 16)
    (hinv : ∀ b, b.length = 16 → dec key (enc key b) = b) (reversed : Bool)
    (x c a i0 i1 i2 i3 m0 m1 version device acc st c0 c1 : UInt8) (fn : Function)
    (hf : FunctionCode c fn) (hc : c ≠ 0x53) (hb : AllBcd [i0, i1, i2, i3])
    (code : ManufacturerCode) (hcode : ManufacturerCode.fromId (le16 m0 m1) = .ok code)
    (iv : List UInt8)
    (hiv : CbcIv (c1.toNat % 32) m0 m1 (idBytes reversed i0 i1 i2 i3) version device acc iv)
    (blocks : List (List UInt8)) (hbl : ∀ b ∈ blocks, b.length = 16) (hne : blocks ≠ [])
    (tail : List UInt8) (ht : tail.length < 16) (hsize : 16 * blocks.length + tail.length ≤ 240) :
    decryptedWired cfg dec key (longFrameBytes x c a
      ([longCi reversed, i0, i1, i2, i3, m0, m1, version, device, acc, st, c0, c1] ++
        (cbcEncrypt enc key iv blocks ++ tail))) =
    .ok (longFrameBytes x c a
      ([longCi reversed, i0, i1, i2, i3, m0, m1, version, device, acc, st, c0, c1] ++
        (blocks.flatten ++ tail))) := by
  have hb' : AllBcd (idBytes reversed i0 i1 i2 i3) := by
    cases reversed
    · exact hb
    · simp only [idBytes, if_true]; rw [allBcd_four] at *; tauto
  obtain ⟨d0, d1, d2, d3, hd⟩ : ∃ d0 d1 d2 d3, idBytes reversed i0 i1 i2 i3 = [d0, d1, d2, d3] := by
    cases reversed <;> simp [idBytes]
  have hivl : iv.length = 16 := by
    cases hiv with
    | zero => simp
    | address => rw [hd]; simp [headerIv]
  have hcl := cbcEncrypt_length enc key hlen blocks iv hivl hbl
  have hblk := Block.long reversed i0 i1 i2 i3 m0 m1 version device acc st c0 c1
    (cbcEncrypt enc key iv blocks ++ tail) hb
  have hrec : Recovered dec key none (.long none
      { identificationNumber := bcdValue (idBytes reversed i0 i1 i2 i3)
        manufacturer := ManufacturerCode.fromId (le16 m0 m1)
        version := version
        deviceType := DeviceType.fromByte device
        short := ⟨acc, st, ⟨le16 c0 c1⟩⟩
        lsbOrder := reversed } (cbcEncrypt enc key iv blocks ++ tail)) (blocks.flatten ++ tail) := by
    rw [hd] at hb' hiv
    refine .long _ _ _ code iv _ hcode ?_ (deciphered_encrypt enc dec key hlen hinv blocks iv hivl hbl
      hne tail ht)
    have := headerIv_context m0 m1 d0 d1 d2 d3 version device acc st c0 c1 hb' code hcode iv hiv
    have hn := bcdValue_lt _ hb'
    rw [deriveIv_eq _ _ (by simp only [List.length_cons, List.length_nil] at hn; omega)] at this
    simp only [hd]
    exact this
  have hl : ([longCi reversed, i0, i1, i2, i3, m0, m1, version, device, acc, st, c0, c1] ++
      (cbcEncrypt enc key iv blocks ++ tail)).length ≤ 253 := by
    simp only [List.length_append, hcl, List.length_cons, List.length_nil]; omega
  generalize [longCi reversed, i0, i1, i2, i3, m0, m1, version, device, acc, st, c0, c1] = header
    at hblk hl ⊢
  generalize blocks.flatten ++ tail = plain at hrec ⊢
  generalize cbcEncrypt enc key iv blocks ++ tail = block at hblk hl hrec ⊢
  generalize (⟨bcdValue (idBytes reversed i0 i1 i2 i3), ManufacturerCode.fromId (le16 m0 m1), version,
    DeviceType.fromByte device, ⟨acc, st, ⟨le16 c0 c1⟩⟩, reversed⟩ : LongTplHeader) = h at hblk hrec
  exact (decryptedWired_iff cfg dec hdec key _ _).2 ⟨hk, x, c, a, fn, header, .long none h block, plain, hf, hc, hl, hblk,
    hrec, rfl, rfl⟩

/-- The hypotheses are met, here with byte-wise complement as the block cipher. -/
example := C55_shows_plaintext cfgRelease (fun _ b => b.map (~~~ ·)) (fun _ b => b.map (~~~ ·))
  (by intro k b h; simp [h]) (List.replicate 16 1) (by simp) (by simp)
  (by intro b _; simp [Function.comp_def]) false 0x68 0x08 0x01
  0x78 0x56 0x34 0x12 0xE6 0x1E 0x3C 0x07 0x2A 0 0x10 0x05 (.rspUd false false) ((functionTryFrom_iff _ _).1 rfl) (by decide)
  (by decide +kernel) ⟨71, 87, 70⟩ (by decide +kernel) _ (.address rfl)
  [[0x2F, 0x2F, 0x0C, 0x13, 0x78, 0x56, 0x34, 0x12] ++ List.replicate 8 0x2F] (by decide) (by simp)
  [0x01, 0x13, 0x05] (by decide) (by decide)

/-! ## C56: wireless telegrams -/

/-- C56: exactly which telegrams have a decrypted view as a wireless one, and which bytes it shows.
The decrypted data take the place of the last bytes of the frame. -/
theorem C56_wireless_iff (aes : AesBlock) (haes : BlockSized aes) (key data display : List UInt8) :
    decryptedWireless aes key data = .ok display ↔
    key.length = 16 ∧ ∃ frame f header blk plain, Normalized data frame ∧ WirelessTelegram frame f ∧
      f.data = header ++ variableData blk ∧ Block f.data blk ∧
      Recovered aes key (some f.manufacturerId) blk plain ∧
      display = frame.take (frame.length - (variableData blk).length) ++ plain :=
  decryptedWireless_iff aes haes key data display

/-- C56 (partial: for frames without a CRC at their end): the view shows the original header bytes
followed by the decrypted data. -/
theorem C56_no_crc_partial (aes : AesBlock) (haes : BlockSized aes) (key data frame : List UInt8)
    (hk : key.length = 16) (f : WirelessFrame) (header plain : List UInt8) (blk : UserDataBlock)
    (hn : Normalized data frame) (hf : WirelessTelegram frame f) (hc : f.data = frame.drop 10)
    (hd : f.data = header ++ variableData blk) (hb : Block f.data blk)
    (hr : Recovered aes key (some f.manufacturerId) blk plain) :
    decryptedWireless aes key data = .ok (frame.take 10 ++ (header ++ plain)) := by
  refine (C56_wireless_iff aes haes key data _).2
    ⟨hk, frame, f, header, blk, plain, hn, hf, hd, hb, hr, ?_⟩
  rw [← List.append_assoc]
  congr 1
  have h10 : 10 ≤ frame.length := by
    obtain ⟨link, crc, h10, hfr, _⟩ := wireless_parts hf
    rw [hfr]; simp [h10]
  have e : frame = frame.take 10 ++ (header ++ variableData blk) := by
    rw [← hd, hc, List.take_append_drop]
  generalize hA : frame.take 10 = A at e
  have hl : frame.length - (variableData blk).length = (A ++ header).length := by
    rw [e]; simp only [List.length_append]; omega
  rw [hl, e, ← List.append_assoc, List.take_left]

/-- C56 is false for frames with a CRC at their end: the decrypted data are shown two bytes too late.
The first two encrypted bytes are still shown before them, and the CRC is overwritten. -/
theorem C56_crc (aes : AesBlock) (haes : BlockSized aes) (key data body : List UInt8) (hi lo : UInt8)
    (hk : key.length = 16) (f : WirelessFrame) (header plain : List UInt8) (blk : UserDataBlock)
    (hn : Normalized data (body ++ [hi, lo])) (hf : WirelessTelegram (body ++ [hi, lo]) f)
    (hc : f.data = body.drop 10)
    (hd : f.data = header ++ variableData blk) (hb : Block f.data blk)
    (hr : Recovered aes key (some f.manufacturerId) blk plain) :
    decryptedWireless aes key data =
      .ok (body.take 10 ++ header ++ (variableData blk ++ [hi, lo]).take 2 ++ plain) := by
  refine (C56_wireless_iff aes haes key data _).2
    ⟨hk, _, f, header, blk, plain, hn, hf, hd, hb, hr, ?_⟩
  congr 1
  have e : body = body.take 10 ++ (header ++ variableData blk) := by
    rw [← hd, hc, List.take_append_drop]
  generalize hA : body.take 10 = A at e
  have hl : (body ++ [hi, lo]).length - (variableData blk).length = (A ++ header).length + 2 := by
    rw [e]; simp only [List.length_append, List.length_cons, List.length_nil]; omega
  rw [hl, e, ← List.append_assoc, List.append_assoc (A ++ header), List.take_length_add_append]

/-- The CRC of this telegram is correct, and the first bytes of its data are encrypted. -/
def sealedCrc : List UInt8 :=
  [0x20, 0x44, 0xE6, 0x1E, 0x78, 0x56, 0x34, 0x12, 0x3C, 0x07, 0x7A, 0x2A, 0x00, 0x10, 0x05,
    0x36, 0xCE, 0x8B, 0xBA, 0xB3, 0xBB, 0xF7, 0xEA, 0xFA, 0xFA, 0xFA, 0xFA, 0xFA, 0xFA, 0xFA, 0xFA,
    0xB4, 0xC5]

/-- The meter, the application data and the encrypted data of the telegram. -/
def sampleMeter : ManufacturerId := ⟨⟨71, 87, 70⟩, 12345678, .waterMeter, 60, false⟩
def sealedData : List UInt8 := 
  [0x36, 0xCE, 0x8B, 0xBA, 0xB3, 0xBB, 0xF7, 0xEA, 0xFA, 0xFA, 0xFA, 0xFA, 0xFA, 0xFA, 0xFA, 0xFA]
def sealedPayload : List UInt8 := [0x7A, 0x2A, 0x00, 0x10, 0x05] ++ sealedData
def sealedBlock : UserDataBlock := .short none ⟨0x2A, 0, ⟨0x0510⟩⟩ sealedData

/-- C56 is false: whatever the cipher and the key, the view of this telegram is not its header followed
by the decrypted data `plain`; the encrypted bytes 36 CE are still shown between them. -/
theorem C56_fails (aes : AesBlock) (haes : BlockSized aes) (key : List UInt8) (hk : key.length = 16) :
    ∃ f blk plain, WirelessFrame.tryFrom sealedCrc = .ok f ∧
      UserDataBlock.tryFrom f.data = .ok blk ∧ variableData blk = (sealedCrc.drop 15).take 16 ∧
      Recovered aes key (some f.manufacturerId) blk plain ∧
      decryptedWireless aes key sealedCrc = .ok (sealedCrc.take 15 ++ [0x36, 0xCE] ++ plain) ∧
      sealedCrc.take 15 ++ [0x36, 0xCE] ++ plain ≠ sealedCrc.take 15 ++ plain := by
  have hf : WirelessFrame.tryFrom sealedCrc = .ok ⟨0x44, some .sndNr, sampleMeter, sealedPayload⟩ := by
    decide +kernel
  have hb : UserDataBlock.tryFrom sealedPayload = .ok sealedBlock := by decide +kernel
  have hs : Recovered aes key (some sampleMeter) sealedBlock
      (cbcPlain aes key (meterIv ⟨71, 87, 70⟩ 12345678 60 .waterMeter 42) [sealedData]) :=
    .short none _ _ sampleMeter _ _ rfl (.inr ⟨by decide +kernel, rfl⟩)
      ⟨by decide, [sealedData], [], by decide, by decide, by decide, (List.append_nil _).symm⟩
  refine ⟨_, _, _, hf, hb, by decide +kernel, hs, ?_, ?_⟩
  · exact C56_crc aes haes key sealedCrc (sealedCrc.take 31) 0xB4 0xC5 hk
      ⟨0x44, some .sndNr, sampleMeter, sealedPayload⟩ [0x7A, 0x2A, 0x00, 0x10, 0x05] _ sealedBlock
      (.asIs (.inr (.inr (by rw [blockAt_iff]; rintro ⟨y, z, h1, h2, h3⟩; cases h1; cases h2
                             revert h3; decide +kernel))))
      ((C12_wireless_accepts_exactly_telegrams _ _).1 hf) (by decide +kernel) (by decide +kernel)
      ((C32_accepts_iff _ _).1 hb) hs
  · intro h
    have := congrArg List.length h
    simp only [List.length_append, List.length_cons, List.length_nil] at this
    omega

/-- The same telegram without CRC. -/
def sealedPlain : List UInt8 := 0x1E :: (sealedCrc.take 31).tail

/-- The hypotheses of `C56_no_crc_partial` are met by it, with every cipher and key. -/
theorem sealedPlain_ok (aes : AesBlock) (key : List UInt8) :
    WirelessTelegram sealedPlain ⟨0x44, some .sndNr, sampleMeter, sealedPayload⟩ ∧
    ¬ BlockAt sealedPlain 10 ∧ sealedPayload = sealedPlain.drop 10 ∧
    sealedPayload = [0x7A, 0x2A, 0x00, 0x10, 0x05] ++ variableData sealedBlock ∧
    Block sealedPayload sealedBlock ∧
    Recovered aes key (some sampleMeter) sealedBlock
      (cbcPlain aes key (meterIv ⟨71, 87, 70⟩ 12345678 60 .waterMeter 42) [sealedData]) := by
  refine ⟨(C12_wireless_accepts_exactly_telegrams _ _).1 (by decide +kernel), ?_, by decide +kernel,
    by decide +kernel, (C32_accepts_iff _ _).1 (by decide +kernel), ?_⟩
  · rw [blockAt_iff]; rintro ⟨y, z, h1, h2, h3⟩; cases h1; cases h2
    revert h3; decide +kernel
  · exact .short none _ _ sampleMeter _ _ rfl (.inr ⟨by decide +kernel, rfl⟩)
      ⟨by decide, [sealedData], [], by decide, by decide, by decide, (List.append_nil _).symm⟩

example (aes : AesBlock) (haes : BlockSized aes) (key : List UInt8) (hk : key.length = 16) :=
  C56_no_crc_partial aes haes key sealedPlain sealedPlain hk _ _ _ _
    (.asIs (.inr (.inr (sealedPlain_ok aes key).2.1))) (sealedPlain_ok aes key).1
    (sealedPlain_ok aes key).2.2.1 (sealedPlain_ok aes key).2.2.2.1 (sealedPlain_ok aes key).2.2.2.2.1
    (sealedPlain_ok aes key).2.2.2.2.2

/-! ## C99: the annotated view -/

/-- C99: the view is that of the decrypted telegram exactly when a key is given that decrypts it;
otherwise it shows the telegram as it is. -/
theorem C99_decrypted_iff (cfg : Cfg) (dt : Data → List Char) (aes : AesBlock) (data : List UInt8)
    (key : Option (List UInt8)) (v : AnnotatedView) (h : annotatedView cfg dt aes data key = .ok v) :
    ∃ segs, annotateFrame cfg dt data = .ok segs ∧
      (v.decrypted = true → v.original = some (data, segs) ∧
        ∃ k, key = some k ∧ (decryptedWired cfg aes k data = .ok v.bytes ∨
          (∃ e, decryptedWired cfg aes k data = .err e) ∧ decryptedWireless aes k data = .ok v.bytes)) ∧
      (v.decrypted = false → v = ⟨data, segs, false, none⟩ ∧
        ∀ k, key = some k → (∃ e, decryptedWired cfg aes k data = .err e) ∧
          ∃ e, decryptedWireless aes k data = .err e) := by
  obtain ⟨segs, hs, h⟩ := view_cases h
  refine ⟨segs, hs, ?_⟩
  rcases h with ⟨rfl, hk⟩ | ⟨k, display, inner, out, rfl, hd, hi, ho, rfl⟩
  · refine ⟨fun h => (by cases h), fun _ => ⟨rfl, fun k e => ?_⟩⟩
    obtain ⟨e, he⟩ := hk k e
    unfold decryptedHexview at he
    split at he
    · cases he
    · cases he
    · rename_i e' h'; exact ⟨⟨e', h'⟩, e, he⟩
  · refine ⟨fun _ => ⟨rfl, k, rfl, ?_⟩, fun h => by cases h⟩
    unfold decryptedHexview at hd
    split at hd
    · cases hd; left; assumption
    · cases hd
    · rename_i e h'; exact .inr ⟨⟨e, h'⟩, hd⟩

/-- C99: every byte shown is in exactly one segment, except after the single character E5. -/
theorem C99_covers (cfg : Cfg) (dt : Data → List Char) (aes : AesBlock) (data : List UInt8)
    (key : Option (List UInt8)) (v : AnnotatedView) (h : annotatedView cfg dt aes data key = .ok v)
    (he : ∀ x rest, v.bytes ≠ 0xE5 :: x :: rest) : Covers 0 v.bytes.length v.segments := by
  obtain ⟨segs, hs, h⟩ := view_cases h
  rcases h with ⟨rfl, _⟩ | ⟨k, display, inner, out, rfl, hd, hi, ho, rfl⟩
  · exact frame_covers _ _ _ _ hs he
  · exact replace_covers _ _ _ _ _ _ _ (frame_covers _ _ _ _ hi he) ho

/-- C99: the view of an encrypted wired telegram shows nothing as encrypted, and unless there is a
global readout request among the records, its segments show the records of the decrypted data. -/
theorem C99_wired (cfg : Cfg) (dt : Data → List Char) (aes : AesBlock) (haes : BlockSized aes)
    (key data display : List UInt8) (v : AnnotatedView)
    (h : annotatedView cfg dt aes data (some key) = .ok v)
    (hd : decryptedWired cfg aes key data = .ok display) :
    v.bytes = display ∧ v.decrypted = true ∧
    (∀ s ∈ v.segments, s.kind ≠ .encryptedPayload) ∧
    ∃ fn address header blk plain,
      WiredFrame.tryFrom cfg data = .ok (.longFrame fn address (header ++ variableData blk)) ∧
      WiredFrame.tryFrom cfg display = .ok (.longFrame fn address (header ++ plain)) ∧
      UserDataBlock.tryFrom (header ++ variableData blk) = .ok blk ∧
      Recovered aes key none blk plain ∧
      ((∀ r, .ok r ∈ parseDataRecords cfg false plain → r.header.raw.dib.dif ≠ 0x7F) →
        RecordsAnnotated display v.segments (parseDataRecords cfg false plain)) := by
  obtain ⟨-, fn, address, header, blk, plain, h1, h2, h3, h4, h5⟩ :=
    C55_parses_again cfg aes haes key data display hd
  have hx : decryptedHexview cfg aes key data = .ok display := by unfold decryptedHexview; rw [hd]
  obtain ⟨segs, hs, ⟨rfl, hk⟩ | ⟨k, display', inner, out, hk, hd', hi, ho, rfl⟩⟩ := view_cases h
  · obtain ⟨e, he⟩ := hk key rfl
    rw [hx] at he; cases he
  · cases hk
    rw [hx] at hd'
    cases hd'
    have hp : ParsedAs cfg display (withData plain blk)
        (withData plain blk).attachedRecords :=
      .wired ⟨.longFrame fn address (header ++ plain), some (withData plain blk),
        (withData plain blk).attachedRecords, none⟩ _ (by
          unfold MbusData.tryFromWired
          rw [h2, Res.bind_ok]
          simp only [MbusData.ofPayload, h4]) rfl
    obtain ⟨r1, r2, -⟩ := view_records haes h5 hp hi ho
    exact ⟨rfl, rfl, r1, fn, address, header, blk, plain, h1, h2, h3, h5, r2⟩

/-- C99 (partial: for frames without a correct CRC besides the block CRCs of Format A, before and after
decryption, that are no wired telegrams before and after decryption): the same for wireless telegrams. -/
theorem C99_wireless_partial (cfg : Cfg) (dt : Data → List Char) (aes : AesBlock) (haes : BlockSized aes)
    (key data frame : List UInt8) (hk : key.length = 16) (f : WirelessFrame) (header plain : List UInt8)
    (blk : UserDataBlock) (v : AnnotatedView)
    (h : annotatedView cfg dt aes data (some key) = .ok v)
    (hw : ∀ g, ¬ WiredTelegram data g) (hn : Normalized data frame)
    (hf : WirelessTelegram frame f) (ha : ¬ BlockAt frame 10) (hc : f.data = frame.drop 10)
    (hd : f.data = header ++ variableData blk) (hb : Block f.data blk)
    (hr : Recovered aes key (some f.manufacturerId) blk plain)
    (hw' : ∀ g, ¬ WiredTelegram (frame.take 10 ++ (header ++ plain)) g)
    (hcrc : ∀ body hi lo, frame.take 10 ++ (header ++ plain) = body ++ [hi, lo] → ¬ CrcOk body hi lo) :
    v.bytes = frame.take 10 ++ (header ++ plain) ∧ v.decrypted = true ∧
    (∀ s ∈ v.segments, s.kind ≠ .encryptedPayload) ∧
    ((∀ r, .ok r ∈ parseDataRecords cfg false plain → r.header.raw.dib.dif ≠ 0x7F) →
      RecordsAnnotated v.bytes v.segments (parseDataRecords cfg false plain)) := by
  obtain ⟨hlen, hv⟩ := recovered_length haes hr
  have h2 : 2 ≤ header.length := by
    have := recovered_header haes hr hb
    rw [hd, List.length_append] at this
    omega
  have hne : header ≠ [] := by rintro rfl; simp at h2
  have h10 : 10 ≤ frame.length := by
    obtain ⟨link, crc, h10, hfr, _⟩ := wireless_parts hf
    rw [hfr]; simp [h10]
  have hframe : frame = frame.take 10 ++ (header ++ variableData blk) := by
    rw [← hd, hc, List.take_append_drop]
  have hl : 10 ≤ data.length := by
    cases hn with
    | stripped tail h1 _ _ _ => omega
    | asIs _ => exact h10
  have hwl := wireless_other hf hc hd hne hlen hcrc
  have hA : (frame.take 10).length = 10 := by simp [h10]
  obtain ⟨e1, hw1⟩ := not_wired (cfg := cfg) hw (by omega)
  obtain ⟨e2, hw2⟩ := not_wired (cfg := cfg) hw' (by rw [List.length_append, hA]; omega)
  have hdisp := C56_no_crc_partial aes haes key data frame hk f header plain blk hn
    hf hc hd hb hr
  have hx : decryptedHexview cfg aes key data = .ok (frame.take 10 ++ (header ++ plain)) := by
    unfold decryptedHexview decryptedWired MbusData.tryFromWired
    rw [hw1]
    exact hdisp
  have same : ∀ n, n < 2 → frame[10 + n]? = (frame.take 10 ++ (header ++ plain))[10 + n]? := by
    intro n hn
    have step : ∀ x : List UInt8, (frame.take 10 ++ (header ++ x))[10 + n]? = header[n]? := by
      intro x
      rw [List.getElem?_append_right (by omega), hA, Nat.add_sub_cancel_left,
        List.getElem?_append_left (by omega)]
    conv_lhs => rw [hframe]
    rw [step, step]
  have ha' : ¬ BlockAt (frame.take 10 ++ (header ++ plain)) 10 := by
    intro hx
    refine ha ?_
    rw [blockAt_iff] at hx ⊢
    obtain ⟨y, z, g1, g2, g3⟩ := hx
    refine ⟨y, z, ?_, ?_, ?_⟩
    · rw [← g1, ← same 0 (by omega)]
    · rw [← g2, ← same 1 (by omega)]
    · rw [← g3, List.take_append_of_le_length (by omega), List.take_take, min_self]
  obtain ⟨header', he, hp⟩ := block_header hb hv
  have hh : header' = header := by
    rw [hd] at he
    exact (List.append_cancel_right he).symm
  subst hh
  obtain ⟨segs, hs, ⟨rfl, hk'⟩ | ⟨k, display', inner, out, hk', hd', hi, ho, rfl⟩⟩ := view_cases h
  · obtain ⟨e, he⟩ := hk' key rfl
    rw [hx] at he; cases he
  · cases hk'
    rw [hx] at hd'
    cases hd'
    have hp : ParsedAs cfg (frame.take 10 ++ (header' ++ plain)) (withData plain blk)
        (withData plain blk).attachedRecords :=
      .wireless ⟨{ f with data := header' ++ plain }, some (withData plain blk),
        (withData plain blk).attachedRecords, none⟩ _ e2 hw2 ha' (by
          unfold MbusData.tryFromWireless
          rw [(C12_wireless_accepts_exactly_telegrams _ _).2 hwl, Res.bind_ok]
          simp only [MbusData.ofPayload, (C32_accepts_iff _ _).2 (hp plain)]) rfl
    obtain ⟨r1, r2, -⟩ := view_records haes hr hp hi ho
    exact ⟨rfl, rfl, r1, r2⟩

/-- The same telegram in Format A. -/
def sealedBlocks : List UInt8 :=
  [0x1E, 0x44, 0xE6, 0x1E, 0x78, 0x56, 0x34, 0x12, 0x3C, 0x07, 0xAF, 0x20, 0x7A, 0x2A, 0x00, 0x10, 0x05,
    0x36, 0xCE, 0x8B, 0xBA, 0xB3, 0xBB, 0xF7, 0xEA, 0xFA, 0xFA, 0xFA, 0xF6, 0x30, 0xFA, 0xFA, 0xFA, 0xFA,
    0xFA, 0x74, 0x81]

theorem sealedPlain_no_crc : ∀ body hi lo, sealedPlain.take 10 ++ ([0x7A, 0x2A, 0x00, 0x10, 0x05] ++
    (cbcPlain (fun _ b => b.map (~~~ ·)) (List.replicate 16 1)
      (meterIv ⟨71, 87, 70⟩ 12345678 60 .waterMeter 42) [sealedData])) = body ++ [hi, lo] →
    ¬ CrcOk body hi lo := by
  intro body hi lo he hc
  have hl := congrArg List.length he
  have : trailingFrameCrcStart (body ++ [hi, lo]) = some body.length :=
    (C11_trailing_frame_crc_start _ _).2 ⟨body, hi, lo, rfl, rfl, by
      simp only [List.length_append, List.length_cons, List.length_nil] at hl
      have h10 : (sealedPlain.take 10).length = 10 := by decide +kernel
      have : (cbcPlain (fun _ b => b.map (~~~ ·)) (List.replicate 16 1)
        (meterIv ⟨71, 87, 70⟩ 12345678 60 .waterMeter 42) [sealedData]).length = 16 := by
          decide +kernel
      omega, hc⟩
  rw [← he] at this
  revert this
  have : trailingFrameCrcStart (sealedPlain.take 10 ++ ([0x7A, 0x2A, 0x00, 0x10, 0x05] ++
    (cbcPlain (fun _ b => b.map (~~~ ·)) (List.replicate 16 1)
        (meterIv ⟨71, 87, 70⟩ 12345678 60 .waterMeter 42) [sealedData]))) = none := by
          decide +kernel
  rw [this]; intro h; cases h

/-- The hypotheses of `C99_wireless_partial` are met, here with byte-wise complement as the cipher. -/
example (cfg : Cfg) (dt : Data → List Char) (v : AnnotatedView)
    (h : annotatedView cfg dt (fun _ b => b.map (~~~ ·)) sealedPlain (some (List.replicate 16 1)) = .ok v) :
    v.decrypted = true ∧ ∀ s ∈ v.segments, s.kind ≠ .encryptedPayload := by
  obtain ⟨h1, h2, h3, h4, h5, h6⟩ := sealedPlain_ok (fun _ b => b.map (~~~ ·)) (List.replicate 16 1)
  have := C99_wireless_partial cfg dt (fun _ b => b.map (~~~ ·)) (by intro k b h; simp [h])
    (List.replicate 16 1) sealedPlain sealedPlain (by simp) _ _ _ _ v h
    (not_wired_head (by decide) (by decide) (by decide)) (.asIs (.inr (.inr h2))) h1 h2 h3 h4 h5 h6
    (not_wired_head (by decide) (by decide) (by decide +kernel))
    sealedPlain_no_crc
  exact ⟨this.2.1, this.2.2.1⟩

/-- They are met by the telegram in Format A, whose view shows it without the block CRCs. -/
example (cfg : Cfg) (dt : Data → List Char) (v : AnnotatedView)
    (h : annotatedView cfg dt (fun _ b => b.map (~~~ ·)) sealedBlocks (some (List.replicate 16 1)) = .ok v) :
    v.decrypted = true ∧ ∀ s ∈ v.segments, s.kind ≠ .encryptedPayload := by
  obtain ⟨h1, h2, h3, h4, h5, h6⟩ := sealedPlain_ok (fun _ b => b.map (~~~ ·)) (List.replicate 16 1)
  have := C99_wireless_partial cfg dt (fun _ b => b.map (~~~ ·)) (by intro k b h; simp [h])
    (List.replicate 16 1) sealedBlocks sealedPlain (by simp) _ _ _ _ v h
    (not_wired_head (by decide) (by decide) (by decide)) ((withoutFormatA_iff _ _).1 (by decide +kernel))
    h1 h2 h3 h4 h5 h6 (not_wired_head (by decide) (by decide) (by decide +kernel))
    sealedPlain_no_crc
  exact ⟨this.2.1, this.2.2.1⟩

example : (match annotatedView cfgRelease (fun _ => []) (fun _ b => b.map (~~~ ·)) sealedBlocks
      (some (List.replicate 16 1)) with
    | .ok v => v.decrypted && v.bytes.length == 31 | _ => false) = true := by decide +kernel

/-- The view of the telegram without CRCs is a decrypted one. -/
example : (match annotatedView cfgRelease (fun _ => []) (fun _ b => b.map (~~~ ·)) sealedPlain
      (some (List.replicate 16 1)) with
    | .ok v => v.decrypted && v.bytes.length == 31 | _ => false) = true := by decide +kernel

/-- The view of an encrypted wired telegram: two records are shown. -/
example : (match annotatedView cfgRelease (fun _ => []) (fun _ b => b.map (~~~ ·))
      (longFrameBytes 0x68 0x08 0x01
        ([0x72, 0x78, 0x56, 0x34, 0x12, 0xE6, 0x1E, 0x3C, 0x07, 0x2A, 0, 0x10, 0x05] ++
        (cbcEncrypt (fun _ b => b.map (~~~ ·)) (List.replicate 16 1)
          (headerIv 0xE6 0x1E [0x78, 0x56, 0x34, 0x12] 0x3C 0x07 0x2A)
          [[0x2F, 0x2F, 0x0C, 0x13, 0x78, 0x56, 0x34, 0x12] ++ List.replicate 8 0x2F] ++
            [0x01, 0x13, 0x05])))
      (some (List.replicate 16 1)) with
    | .ok v => v.decrypted && (v.segments.any fun s => s.group == some 1) &&
        (v.segments.all fun s => s.kind != .encryptedPayload)
    | _ => false) = true := by decide +kernel

/-! ## C101: the view of a telegram that is accepted -/

/-- C101: whatever the key, the view is refused exactly for telegrams that cannot be annotated. -/
theorem C101_rejects_iff (cfg : Cfg) (dt : Data → List Char) (aes : AesBlock) (haes : BlockSized aes)
    (data : List UInt8) (key : Option (List UInt8)) (e : FrameError) :
    annotatedView cfg dt aes data key = .err e ↔ annotateFrame cfg dt data = .err e := by
  constructor
  · intro h
    cases hs : annotateFrame cfg dt data with
    | err e' => unfold annotatedView at h; rw [hs] at h; cases h; rfl
    | panic => unfold annotatedView at h; rw [hs] at h; cases h
    | ok segs =>
      exfalso
      unfold annotatedView at h
      rw [hs, Res.bind_ok] at h
      cases key with
      | none => cases h
      | some k =>
        simp only at h
        cases hd : decryptedHexview cfg aes k data with
        | err e' => rw [hd] at h; cases h
        | panic => rw [hd] at h; cases h
        | ok display =>
          rw [hd] at h
          simp only [decryptedView] at h
          cases hi : annotateFrame cfg dt display with
          | panic => rw [hi] at h; cases h
          | err e' =>
            obtain ⟨_, ⟨e1, h1⟩, ⟨e2, h2⟩, _⟩ := (C98_rejects_iff cfg dt display e').1 hi
            unfold decryptedHexview at hd
            split at hd
            · rename_i d' hw
              cases hd
              obtain ⟨-, fn, address, header, blk, plain, -, h3, -⟩ :=
                C55_parses_again cfg aes haes k data display hw
              rw [h3] at h1; cases h1
            · cases hd
            · obtain ⟨f, hf⟩ := wireless_again haes hd
              rw [hf] at h2; cases h2
          | ok inner =>
            rw [hi, Res.bind_ok] at h
            cases hr : replaceEncrypted cfg dt display inner with
            | ok out => rw [hr] at h; cases h
            | panic => rw [hr] at h; cases h
            | err e' => exact replace_not_err _ _ _ _ _ hr
  · intro h
    unfold annotatedView
    rw [h]; rfl

example (key : Option (List UInt8)) : annotatedView cfgRelease (fun _ => []) (fun _ b => b.map (~~~ ·))
    [0x68, 0x01] key = .err .invalidStartByte :=
  (C101_rejects_iff _ _ _ (by intro k b h; simp [h]) _ _ _).2 (by decide +kernel)

/-- C101: the view may panic.  With every cipher and key there is an encrypted telegram that is accepted
and whose view panics: the record it contains, 01 7D 00, makes the record parser panic. -/
theorem C101_fails (cfg : Cfg) (dt : Data → List Char) (enc dec : AesBlock) (hdec : BlockSized dec)
    (key : List UInt8) (hk : key.length = 16) (hlen : ∀ b, b.length = 16 → (enc key b).length = 16)
    (hinv : ∀ b, b.length = 16 → dec key (enc key b) = b) :
    ∃ data fn address payload blk, WiredFrame.tryFrom cfg data = .ok (.longFrame fn address payload) ∧
      UserDataBlock.tryFrom payload = .ok blk ∧
      Recovered dec key none blk ([0x01, 0x7D, 0x00] ++ List.replicate 13 0x2F) ∧
      annotatedView cfg dt dec data (some key) = .panic := by
  have hd := C55_shows_plaintext cfg enc dec hdec key hk hlen hinv false 0x68 0x08 0x01
    0x78 0x56 0x34 0x12 0xE6 0x1E 0x3C 0x07 0x2A 0 0x10 0x05 (.rspUd false false)
    ((functionTryFrom_iff _ _).1 rfl) (by decide) (by decide +kernel) ⟨71, 87, 70⟩ (by decide +kernel) _
    (.address rfl) [[0x01, 0x7D, 0x00] ++ List.replicate 13 0x2F] (by decide) (by simp) [] (by decide)
    (by decide)
  generalize longFrameBytes 0x68 0x08 0x01
    ([longCi false, 0x78, 0x56, 0x34, 0x12, 0xE6, 0x1E, 0x3C, 0x07, 0x2A, 0, 0x10, 0x05] ++
      (cbcEncrypt enc key _ [[0x01, 0x7D, 0x00] ++ List.replicate 13 0x2F] ++ [])) = data at hd
  have hblk := (C32_accepts_iff _ _).2 (Block.long false 0x78 0x56 0x34 0x12 0xE6 0x1E 0x3C 0x07 0x2A 0
    0x10 0x05 ([[0x01, 0x7D, 0x00] ++ List.replicate 13 0x2F].flatten ++ []) (by decide +kernel))
  have hwd := (C01_wired_accepts_exactly_telegrams cfg _ _).2
    (.long 0x68 0x08 0x01 ([longCi false, 0x78, 0x56, 0x34, 0x12, 0xE6, 0x1E, 0x3C, 0x07, 0x2A, 0, 0x10,
      0x05] ++ ([[0x01, 0x7D, 0x00] ++ List.replicate 13 0x2F].flatten ++ [])) (.rspUd false false)
      ((functionTryFrom_iff _ _).1 rfl) (by decide) (by decide))
  obtain ⟨-, fn, address, header, blk, plain, h1, h2, h3, h4, h5⟩ := C55_parses_again cfg dec hdec key data _ hd
  have hpl : plain = [0x01, 0x7D, 0x00] ++ List.replicate 13 0x2F := by
    rw [hwd] at h2
    simp only [Res.ok.injEq, WiredFrame.longFrame.injEq] at h2
    obtain ⟨-, -, h2⟩ := h2
    rw [← h2, hblk] at h4
    have := recovered_secured h5
    rw [← Res.ok.inj h4] at this
    simp only [securedData, Option.some.injEq, Prod.mk.injEq] at this
    rw [← this.2]; rfl
  refine ⟨data, fn, address, _, blk, h1, h3, hpl ▸ h5, ?_⟩
  cases hv : annotatedView cfg dt dec data (some key) with
  | panic => rfl
  | ok v =>
    exfalso
    obtain ⟨segs, hs, ⟨rfl, hk'⟩ | ⟨k, display', inner, out, hk', hd', hi, ho, rfl⟩⟩ := view_cases hv
    · obtain ⟨e, he⟩ := hk' key rfl
      unfold decryptedHexview at he
      rw [hd] at he; cases he
    · cases hk'
      unfold decryptedHexview at hd'
      rw [hd] at hd'
      cases hd'
      have hp := ParsedAs.wired (cfg := cfg) ⟨.longFrame fn address (header ++ plain),
        some (withData plain blk), (withData plain blk).attachedRecords, none⟩ _ (by
          unfold MbusData.tryFromWired
          rw [h2, Res.bind_ok]
          simp only [MbusData.ofPayload, h4]) rfl
      obtain ⟨n, vs, hn⟩ := (view_records hdec h5 hp hi ho).2.2
      rw [hpl] at hn
      have hpan : DataRecord.parse cfg false ([0x01, 0x7D, 0x00] ++ List.replicate 13 0x2F) = .panic := by
        obtain ⟨oc, tf⟩ := cfg
        cases oc <;> cases tf <;> decide +kernel
      rw [annotateRecords, List.cons_append, annotateRecordsFrom, if_neg (by decide),
        ← List.cons_append, hpan] at hn
      cases hn
  | err e =>
    exfalso
    obtain ⟨_, ⟨e1, he⟩, _⟩ := (C98_rejects_iff cfg dt data e).1
      ((C101_rejects_iff cfg dt dec hdec data _ e).1 hv)
    rw [h1] at he; cases he

/-- The hypotheses are met, here with byte-wise complement as the cipher. -/
example (cfg : Cfg) (dt : Data → List Char) := C101_fails cfg dt (fun _ b => b.map (~~~ ·))
  (fun _ b => b.map (~~~ ·)) (by intro k b h; simp [h]) (List.replicate 16 1) (by simp) (by simp)
  (by intro b _; simp [Function.comp_def])

/-! ## C100: which framing -/

/-- C100 (partial: except for telegrams that begin with E5 and those of 105 bytes that begin with
68 63 63): no telegram is both a wired and a wireless one. -/
theorem C100_unambiguous_partial (cfg : Cfg) (data : List UInt8) (g : WiredFrame) (f : WirelessFrame)
    (h1 : WiredFrame.tryFrom cfg data = .ok g) (h2 : WirelessFrame.tryFrom data = .ok f) :
    data.head? = some 0xE5 ∨ data.length = 105 ∧ data.take 3 = [0x68, 0x63, 0x63] :=
  wired_wireless ((C01_wired_accepts_exactly_telegrams _ _ _).1 h1)
    ((C12_wireless_accepts_exactly_telegrams _ _).1 h2)

/-- C100 is false: a wireless telegram with L = E5 is taken for the single character, and its contents
are lost. -/
theorem C100_fails (cfg : Cfg) (rest : List UInt8) (hr : rest.length = 219) :
    let data := [0xE5, 0x44, 0xE6, 0x1E, 0x78, 0x56, 0x34, 0x12, 0x3C, 0x07, 0x78] ++ rest
    ∃ f m, WirelessFrame.tryFrom data = .ok f ∧
    218 ≤ f.data.length ∧ WiredFrame.tryFrom cfg data = .ok (.singleCharacter 0xE5) ∧
    MbusData.tryFromWired cfg data = .ok m ∧ m.userData = none := by
  intro data
  have hw : WiredFrame.tryFrom cfg data = .ok (.singleCharacter 0xE5) :=
    (C01_wired_accepts_exactly_telegrams _ _ _).2 (.single _)
  obtain ⟨f, hf, hl⟩ := exists_wireless 0xE5 0x44 0xE6 0x1E 0x78 0x56 0x34 0x12 0x3C 0x07 0x78 rest
    7 23 6 (by rw [hr]; rfl) ⟨by decide, by decide⟩ ⟨by decide, by decide⟩ ⟨by decide, by decide⟩
    (by decide) (by decide)
  refine ⟨f, ⟨.singleCharacter 0xE5, none, none, none⟩, hf, by omega, hw, ?_, rfl⟩
  unfold MbusData.tryFromWired
  rw [hw]; rfl

/-- C100 is false: long frames of 105 bytes, all of them user data responses of slave 1 with
the identification 0, are also wireless telegrams. -/
theorem C100_fails_long (cfg : Cfg) (rest : List UInt8) (hr : rest.length = 92) :
    let payload := [0x72, 0x00, 0x00, 0x00, 0x00] ++ rest
    let data := longFrameBytes 0x68 0x08 0x01 payload
    (∃ f, WirelessFrame.tryFrom data = .ok f) ∧
    WiredFrame.tryFrom cfg data = .ok (.longFrame (.rspUd false false) (.primary 1) payload) := by
  intro payload data
  refine ⟨?_, (C01_wired_accepts_exactly_telegrams cfg data _).2
    (.long 0x68 0x08 0x01 payload (.rspUd false false) ((functionTryFrom_iff _ _).1 rfl) (by decide) (by simp [payload, hr]))⟩
  have hd : data = [0x68, 0x63, 0x63, 0x68, 0x08, 0x01, 0x72, 0x00, 0x00, 0x00, 0x00] ++
      (rest ++ [checksum (0x08 :: 0x01 :: payload), 0x16]) := by
    simp only [data, longFrameBytes, payload, List.length_append, List.length_cons, List.length_nil, hr,
      List.cons_append, List.nil_append]
    rfl
  obtain ⟨f, hf, _⟩ := exists_wireless 0x68 0x63 0x63 0x68 0x08 0x01 0x72 0x00 0x00 0x00 0x00
    (rest ++ [checksum (0x08 :: 0x01 :: payload), 0x16])
    26 3 3 (by simp [hr]) ⟨by decide, by decide⟩ ⟨by decide, by decide⟩ ⟨by decide, by decide⟩
    (by decide) (by decide)
  exact ⟨f, by rw [hd]; exact hf⟩

end MBus
