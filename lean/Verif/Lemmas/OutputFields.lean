import Verif.Lemmas.Output
/-!
# Every decoding of a telegram by cases on what the input is
-/
namespace MBus
open Spec

/-- What `decode_bytes` makes of an input, by what the input is. -/
inductive Decoding (cfg : Cfg) (aes : AesBlock) (data : List UInt8) (options : DecodeOptions) :
    Res OutputError DecodedOutput → Prop
  | empty : data = [] → Decoding cfg aes data options (.err .emptyInput)
  | crash : WiredFrame.tryFrom cfg data = .panic → Decoding cfg aes data options .panic
  | wired (g : WiredFrame) (m : MbusData WiredFrame) : data ≠ [] → WiredTelegram data g → m.frame = g →
      MbusData.tryFromWired cfg data = .ok m →
      Decoding cfg aes data options (finish cfg aes "wired".toList (wiredFrameOutput g).1 data data false
        (wiredFrameOutput g).2 m none options)
  | wireless (f : WirelessFrame) (m : MbusData WirelessFrame) (frame : List UInt8) : data ≠ [] →
      (∀ g, ¬ WiredTelegram data g) → Normalized data frame → WirelessTelegram frame f → m.frame = f →
      MbusData.tryFromWireless frame = .ok m →
      Decoding cfg aes data options (finish cfg aes "wireless".toList (wirelessFrameOutput f) data frame
        (frame.length != data.length) (some f.data) m (some f.manufacturerId) options)
  | neither (a : FrameError) (b : WirelessFrameError) (frame : List UInt8) : data ≠ [] →
      (∀ g, ¬ WiredTelegram data g) → Normalized data frame →
      (∀ f, ¬ WirelessTelegram frame f) → WiredFrame.tryFrom cfg data ≠ .panic →
      Decoding cfg aes data options (.err (.invalidFrame a b))

theorem decoding (cfg : Cfg) (aes : AesBlock) (data : List UInt8) (options : DecodeOptions) :
    Decoding cfg aes data options (decodeBytes cfg aes data options) := by
  unfold decodeBytes
  by_cases hne : data = []
  · rw [if_pos hne]; exact .empty hne
  rw [if_neg hne]
  cases hx : WiredFrame.tryFrom cfg data with
  | panic =>
    rw [(C37_frame_delivered_wired cfg data).2.1.2 hx]
    exact .crash hx
  | ok g =>
    obtain ⟨m, hm, hg⟩ := (C37_frame_delivered_wired cfg data).2.2 g hx
    rw [hm]
    have := Decoding.wired (cfg := cfg) (aes := aes) (options := options) g m hne
      ((C01_wired_accepts_exactly_telegrams cfg data g).1 hx) hg hm
    subst hg
    exact this
  | err e =>
    have hn : ∀ g, ¬ WiredTelegram data g := by
      intro g hg
      rw [← C01_wired_accepts_exactly_telegrams cfg, hx] at hg
      cases hg
    rw [((C37_frame_delivered_wired cfg data).1 e).2 hx]
    obtain ⟨frame, hf⟩ := normalized_exists data
    obtain ⟨r, b, hs, hr⟩ := normalized_strip data frame hf
    simp only [hs, hr]
    cases hy : WirelessFrame.tryFrom frame with
    | panic => exact absurd hy (C13_wireless_never_panics frame)
    | ok f =>
      obtain ⟨m, hm, hg, _⟩ := (C37_wireless frame).2 f hy
      rw [hm]
      have := Decoding.wireless (cfg := cfg) (aes := aes) (options := options) f m frame hne hn hf
        ((C12_wireless_accepts_exactly_telegrams frame f).1 hy) hg hm
      subst hg
      exact this
    | err e' =>
      rw [((C37_wireless frame).1 e').2 hy]
      refine .neither e e' frame hne hn hf ?_ (by rw [hx]; simp)
      intro f h
      rw [← C12_wireless_accepts_exactly_telegrams, hy] at h
      cases h

/-- The parts of an output. -/
theorem finish_ok {F : Type} (cfg : Cfg) (aes : AesBlock) (protocol : List Char) (frame : FrameOutput)
    (data normalized : List UInt8) (stripped : Bool) (payload : Option (List UInt8)) (parsed : MbusData F)
    (link : Option ManufacturerId) (options : DecodeOptions) (o : DecodedOutput)
    (h : finish cfg aes protocol frame data normalized stripped payload parsed link options = .ok o) :
    ∃ c outs err,
      prepareSecurity aes parsed.userData link options.key (List.replicate 512 0) = .ok c ∧
      collectRecords cfg (recordsToShow parsed c) = some (outs, err) ∧
      o.protocol = protocol ∧ o.frame = frame ∧
      (o.meter, o.transport) = meterAndTransport parsed.userData link ∧
      o.records = recordOutputs outs ∧
      o.raw = ⟨none, hexString data, hexString normalized, data.length, stripped, payload.map hexString⟩ ∧
      o.diagnostics = (parsed.applicationError.map applicationDiagnostic).toList ++ securityDiagnostics c
        ++ (err.map recordDiagnostic).toList ∧
      o.decodeState = (if parsed.applicationError.isSome || err.isSome || (c.encrypted && !c.decrypted)
        then "partial" else "complete").toList ∧
      o.security.keySupplied = c.keySupplied ∧
      o.security.payloadProtection = (if c.encrypted then "encrypted" else if c.ellEncrypted then "unknown"
        else "cleartext").toList ∧
      o.enrichment = if options.includeEnrichment then
          (o.meter.identity.bind (·.manufacturerCode)).bind enrichmentFor else none := by
  unfold finish at h
  cases hc : prepareSecurity aes parsed.userData link options.key (List.replicate 512 0) with
  | panic => rw [hc] at h; cases h
  | err e => rw [hc] at h; cases h
  | ok c =>
    rw [hc] at h
    simp only [buildOutput] at h
    rcases hcol : collectRecords cfg (recordsToShow parsed c) with _ | ⟨outs, err⟩
    · simp [hcol] at h
    · simp only [hcol] at h
      cases h
      exact ⟨c, outs, err, rfl, hcol, rfl, rfl, rfl, rfl, rfl, rfl, rfl, rfl, rfl, rfl⟩

theorem finish_err {F : Type} (cfg : Cfg) (aes : AesBlock) (protocol : List Char) (frame : FrameOutput)
    (data normalized : List UInt8) (stripped : Bool) (payload : Option (List UInt8)) (parsed : MbusData F)
    (link : Option ManufacturerId) (options : DecodeOptions) (e : OutputError)
    (h : finish cfg aes protocol frame data normalized stripped payload parsed link options = .err e) :
    ∃ s, e = .security s ∧
      prepareSecurity aes parsed.userData link options.key (List.replicate 512 0) = .err s := by
  unfold finish at h
  cases hc : prepareSecurity aes parsed.userData link options.key (List.replicate 512 0) with
  | panic => rw [hc] at h; cases h
  | err e => rw [hc] at h; cases h; exact ⟨e, rfl, rfl⟩
  | ok c =>
    rw [hc] at h
    simp only at h
    split at h <;> cases h

theorem collectItems_none (items : List (Res RecordError DataRecord)) (out rs : List DataRecord)
    (o : Nat) (h : collectItems items out o = some (rs, none)) :
    ∃ rs', items = rs'.map .ok ∧ rs = out ++ rs' := by
  induction items generalizing out o with
  | nil => simp [collectItems] at h; exact ⟨[], rfl, by simp [h]⟩
  | cons x items ih =>
    cases x with
    | ok r =>
      obtain ⟨rs', h1, h2⟩ := ih _ _ h
      exact ⟨r :: rs', by simp [h1], by simp [h2]⟩
    | err e => simp [collectItems] at h
    | panic => simp [collectItems] at h

/-- Eight decimal digits of a number of BCD bytes are its hexadecimal digits, most significant first. -/
theorem idDisplay_bcd (d0 d1 d2 d3 : UInt8) (h : AllBcd [d0, d1, d2, d3]) :
    idDisplay (bcdValue [d0, d1, d2, d3]) = hexString [d3, d2, d1, d0] := by
  have hb : ∀ b ∈ [d0, d1, d2, d3], lo b ≤ 9 ∧ hi b ≤ 9 := h
  have h0 := hb d0 (by simp)
  have h1 := hb d1 (by simp)
  have h2 := hb d2 (by simp)
  have h3 := hb d3 (by simp)
  have hd : ∀ n, n ≤ 9 → upperHexDigit n = Char.ofNat ('0'.toNat + n) := by
    intro n hn
    unfold upperHexDigit
    rw [if_pos (by omega)]
    rfl
  unfold idDisplay
  have e : bcdValue [d0, d1, d2, d3] = lo d0 + 10 * (hi d0 + 10 * (lo d1 + 10 * (hi d1 + 10 * (lo d2 +
      10 * (hi d2 + 10 * (lo d3 + 10 * hi d3)))))) := by simp only [bcdValue]; omega
  rw [padNat_eq 8 _ (by omega) (by omega), e]
  have step : ∀ w x n, x ≤ 9 →
      fixedDigits (w + 1) (x + 10 * n) = fixedDigits w n ++ [Char.ofNat ('0'.toNat + x)] := by
    intro w x n hx
    rw [fixedDigits]
    congr 2
    · omega
    · congr 2; omega
  rw [step _ _ _ h0.1, step _ _ _ h0.2, step _ _ _ h1.1, step _ _ _ h1.2, step _ _ _ h2.1,
    step _ _ _ h2.2, step _ _ _ h3.1]
  simp only [fixedDigits, List.nil_append, List.cons_append]
  have e1 : ∀ b : UInt8, b.toNat / 16 = hi b := fun _ => rfl
  have e2 : ∀ b : UInt8, b.toNat % 16 = lo b := fun _ => rfl
  simp only [hexString, List.flatMap_cons, List.flatMap_nil, e1, e2, hd _ h0.1, hd _ h0.2, hd _ h1.1,
    hd _ h1.2, hd _ h2.1, hd _ h2.2, hd _ h3.1, hd _ h3.2, List.cons_append, List.nil_append]
  rw [Nat.mod_eq_of_lt (by omega)]

theorem hex4_bytes (c0 c1 : UInt8) : hex4 (le16 c0 c1) = hexString [c1, c0] := by
  unfold hex4
  congr 2
  · apply UInt8.toNat_inj.1
    have := c0.toNat_lt
    have := c1.toNat_lt
    simp [le16_eq, u16le_toNat, Nat.shiftRight_eq_div_pow]
    omega
  · congr 1
    apply UInt8.toNat_inj.1
    have := c0.toNat_lt
    have := c1.toNat_lt
    have e : (0xFF : UInt16).toNat = 2 ^ 8 - 1 := rfl
    rw [UInt16.toNat_toUInt8, UInt16.toNat_and, e, Nat.and_two_pow_sub_one_eq_mod, le16_eq, u16le_toNat]
    omega

end MBus
