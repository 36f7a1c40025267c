import Verif.Spec.SentLink
import Verif.Props.SentSecurity
import Verif.Lemmas.Tooltip
/-!
# C145: how a telegram is framed is what the user reads
-/
namespace MBus
open MBus.Spec

/-- The control fields whose service is not named as in the standard. -/
def misnamed : List UInt8 := [0x40, 0x46, 0x47, 0x48, 0x06]

theorem service_named (c : UInt8) (fn : Function) (h : FunctionCode c fn) (hc : c ∉ misnamed) :
    some (frameFunctionName fn) = serviceText c := by
  cases h <;> first | (exact absurd (by decide) hc) | decide +kernel

theorem service_unnamed (c : UInt8) (h : ∀ fn, ¬ FunctionCode c fn) (hc : c ∉ misnamed) : serviceText c = none := by
  have key : ∀ c : UInt8, c ∉ misnamed →
      c ∉ ([0x40, 0x44, 0x53, 0x73, 0x5A, 0x7A, 0x5B, 0x7B, 0x08, 0x18, 0x28, 0x38] : List UInt8) →
      serviceText c = none := by decide +kernel
  refine key c hc (fun hm => ?_)
  obtain ⟨fn, hf⟩ := (C05_function_codes c).2 hm
  exact h fn ((functionTryFrom_iff c fn).1 hf)

/-- What the output says about the link layer. -/
structure LinkShown (link : SentLink) (data : List UInt8) (service : Option (List Char)) (o : DecodedOutput) : Prop where
  protocol : o.protocol = link.protocol.toList
  frame : o.frame = ⟨link.kind.toList, service, link.address.map addressText,
    if link.protocol = "wireless" then link.control.map (fun c => hexDigits 2 c.toNat) else none⟩
  raw : o.raw = ⟨none, hexString data, hexString link.frame, data.length, decide (link.frame ≠ data),
    link.payload.map hexString⟩

theorem wired_shown (cfg : Cfg) (aes : AesBlock) (data : List UInt8) (options : DecodeOptions) (o : DecodedOutput)
    (h : decodeBytes cfg aes data options = .ok o) (g : WiredFrame) (hg : WiredTelegram data g) :
    o.protocol = "wired".toList ∧ o.frame = (wiredFrameOutput g).1 ∧
      o.raw = ⟨none, hexString data, hexString data, data.length, false, (wiredFrameOutput g).2.map hexString⟩ := by
  have hd := decoding cfg aes data options
  rw [h] at hd
  generalize hr : Res.ok o = r at hd
  cases hd with
  | empty h => cases hr
  | crash h => cases hr
  | wired g' m hne hg' hm hm' =>
    have e : g' = g := by
      have h1 := (C01_wired_accepts_exactly_telegrams cfg data g).2 hg
      rw [(C01_wired_accepts_exactly_telegrams cfg data g').2 hg'] at h1
      cases h1; rfl
    subst e
    obtain ⟨c, outs, err, _, _, h1, h2, _, _, hraw, _⟩ := finish_ok _ _ _ _ _ _ _ _ _ _ _ _ hr.symm
    exact ⟨h1, h2, hraw⟩
  | wireless f m frame hne hn => exact absurd hg (hn g)
  | neither a b frame hne hn => exact absurd hg (hn g)

theorem wireless_shown (cfg : Cfg) (aes : AesBlock) (data : List UInt8) (options : DecodeOptions) (o : DecodedOutput)
    (h : decodeBytes cfg aes data options = .ok o) (frame : List UInt8) (f : WirelessFrame)
    (hn : ∀ g, ¬ WiredTelegram data g) (hf : Normalized data frame) (hw : WirelessTelegram frame f) :
    o.protocol = "wireless".toList ∧ o.frame = wirelessFrameOutput f ∧
      o.raw = ⟨none, hexString data, hexString frame, data.length, decide (frame ≠ data), some (hexString f.data)⟩ := by
  have hd := decoding cfg aes data options
  rw [h] at hd
  generalize hr : Res.ok o = r at hd
  cases hd with
  | empty h => cases hr
  | crash h => cases hr
  | wired g' m hne hg' hm hm' => exact absurd hg' (hn g')
  | wireless f' m frame' hne hn' hf' hw' =>
    obtain ⟨r, b, hs, hr1⟩ := normalized_strip data frame hf
    obtain ⟨r', b', hs', hr2⟩ := normalized_strip data frame' hf'
    rw [hs] at hs'
    cases hs'
    have e : frame' = frame := by rw [← hr1, ← hr2]
    subst e
    have e : f' = f := by
      have h1 := (C12_wireless_accepts_exactly_telegrams frame' f).2 hw
      rw [(C12_wireless_accepts_exactly_telegrams frame' f').2 hw'] at h1
      cases h1; rfl
    subst e
    obtain ⟨c, outs, err, _, _, h1, h2, _, _, hraw, _⟩ := finish_ok _ _ _ _ _ _ _ _ _ _ _ _ hr.symm
    refine ⟨h1, h2, ?_⟩
    rw [hraw]
    have e : (frame'.length != data.length) = decide (frame' ≠ data) := by
      rw [Bool.eq_iff_iff, decide_eq_true_iff, bne_iff_ne]
      constructor
      · intro h1 h2; exact h1 (by rw [h2])
      · intro h1
        rcases normalized_length hf with h | h
        · exact h
        · exact absurd h h1
    rw [e]
    rfl
  | neither a b frame' hne hn' hf' hx =>
    obtain ⟨r, b, hs, hr1⟩ := normalized_strip data frame hf
    obtain ⟨r', b', hs', hr2⟩ := normalized_strip data frame' hf'
    rw [hs] at hs'
    cases hs'
    have e : frame' = frame := by rw [← hr1, ← hr2]
    exact absurd (e ▸ hw) (hx f)

theorem raw_same (data : List UInt8) (a b : List Char) (n : Nat) (p : Option (List Char)) :
    RawOutput.mk none a b n false p = RawOutput.mk none a b n (decide (data ≠ data)) p := by
  simp only [ne_eq, not_true, decide_false]

/-- C145 for the decoded telegram, for the control fields named as in the standard. -/
theorem C145_decoded_partial (cfg : Cfg) (aes : AesBlock) (data : List UInt8) (options : DecodeOptions) (o : DecodedOutput)
    (h : decodeBytes cfg aes data options = .ok o) (link : SentLink) (hl : FramedAs data link)
    (hc : ∀ c ∈ link.control, c ∉ misnamed) : LinkShown link data (link.control.bind serviceText) o := by
  cases hl with
  | single rest hd =>
    have hg : WiredTelegram data (.singleCharacter 0xE5) := by rw [hd]; exact .single rest
    obtain ⟨h1, h2, h3⟩ := wired_shown cfg aes data options o h _ hg
    exact ⟨h1, by rw [h2]; rfl, h3.trans (raw_same data _ _ _ _)⟩
  | short c a fn hf hd =>
    have hg : WiredTelegram data (.shortFrame fn (addressOf a)) := by rw [hd]; exact .short c a fn hf
    obtain ⟨h1, h2, h3⟩ := wired_shown cfg aes data options o h _ hg
    refine ⟨h1, ?_, h3.trans (raw_same data _ _ _ _)⟩
    rw [h2]
    show FrameOutput.mk _ (some (frameFunctionName fn)) (some (addressOf a).display) none = FrameOutput.mk _ _ _ _
    rw [service_named c fn hf (hc c rfl), addressField_text]
    rfl
  | long x c a payload fn hf hp hd =>
    by_cases hx : c = 0x53
    · subst hx
      cases hf
      have hg : WiredTelegram data (.controlFrame (.sndUd false) (addressOf a) payload) := by
        rw [hd]; exact .control x a payload hp
      obtain ⟨h1, h2, h3⟩ := wired_shown cfg aes data options o h _ hg
      refine ⟨h1, ?_, h3.trans (raw_same data _ _ _ _)⟩
      rw [h2]
      show FrameOutput.mk _ (some (frameFunctionName (.sndUd false))) (some (addressOf a).display) none =
        FrameOutput.mk _ _ _ _
      rw [service_named 0x53 _ .sndUd0 (hc _ rfl), addressField_text]
      rfl
    · have hg : WiredTelegram data (.longFrame fn (addressOf a) payload) := by
        rw [hd]; exact .long x c a payload fn hf hx hp
      obtain ⟨h1, h2, h3⟩ := wired_shown cfg aes data options o h _ hg
      refine ⟨h1, ?_, h3.trans (raw_same data _ _ _ _)⟩
      rw [h2]
      show FrameOutput.mk "long".toList (some (frameFunctionName fn)) (some (addressOf a).display) none =
        FrameOutput.mk _ _ _ _
      rw [service_named c fn hf (hc c rfl), addressField_text, if_neg hx]
      rfl
  | wireless l c rest f hn hf hw =>
    obtain ⟨h1, h2, h3⟩ := wireless_shown cfg aes data options o h _ f hn hf hw
    refine ⟨h1, ?_, by rw [h3]; rfl⟩
    rw [h2]
    cases hw with
    | mk l c m0 m1 d0 d1 d2 d3 ver dev ci rest payload i j k fn hl hfn =>
      have hs : fn.map frameFunctionName = serviceText c := by
        cases fn with
        | none => exact (service_unnamed c (fun g hg => by cases (hfn g).2 hg) (hc c rfl)).symm
        | some g => exact service_named c g ((hfn g).1 rfl) (hc c rfl)
      show FrameOutput.mk _ (fn.map frameFunctionName) none (some (hexString [c])) = FrameOutput.mk _ _ _ _
      rw [hs, hexDigits_byte]
      rfl

theorem link_json (cfg : Cfg) (env : TextEnv) (aes : AesBlock) (data : List UInt8) (options : DecodeOptions)
    (henv : ∀ bits, FiniteReal bits → NumberText (env.realText bits)) (o : DecodedOutput)
    (h : decodeBytes cfg aes data options = .ok o) (link : SentLink) (service : Option (List Char))
    (hs : LinkShown link data service o) :
    JsonLink service link data (renderJson env o) ∧ JsonLink service link data (compactJson (o.doc env)) := by
  obtain ⟨e1, e2, e3⟩ := hs
  obtain ⟨d, h1, h2, -, h4⟩ := C112_json cfg env aes data options o henv h
  have f := fun p v hm => h4.fields (p, v) hm
  have g0 := f [.key "protocol"] (some (.str o.protocol)) (by simp [telegramFields])
  have g1 := f [.key "frame", .key "kind"] (some (.str o.frame.kind)) (by simp [telegramFields])
  have g2 := f [.key "frame", .key "function"] (o.frame.function.map Doc.str) (by simp [telegramFields])
  have g3 := f [.key "frame", .key "address"] (o.frame.address.map Doc.str) (by simp [telegramFields])
  have g4 := f [.key "frame", .key "control_field"] (o.frame.controlField.map Doc.str) (by simp [telegramFields])
  have g5 := f [.key "raw", .key "original_frame_hex"] (some (.str o.raw.originalFrameHex)) (by simp [telegramFields])
  have g6 := f [.key "raw", .key "byte_length"] (some (number o.raw.byteLength)) (by simp [telegramFields])
  have g7 := f [.key "raw", .key "normalized_frame_hex"] (some (.str o.raw.normalizedFrameHex)) (by simp [telegramFields])
  have g8 := f [.key "raw", .key "format_a_crc_stripped"] (some (.bool o.raw.formatACrcStripped)) (by simp [telegramFields])
  have g9 := f [.key "raw", .key "payload_hex"] (o.raw.payloadHex.map Doc.str) (by simp [telegramFields])
  simp only [e1] at g0
  simp only [e2] at g1 g2 g3 g4
  simp only [e3] at g5 g6 g7 g8 g9
  have k : ∀ x, follow [.key "raw", .key "payload_hex"] d = (Option.map hexString x).map Doc.str →
      HexOf x (follow [.key "raw", .key "payload_hex"] d) := by
    intro x hx
    cases x with
    | none => exact hx
    | some b => exact ⟨_, hx, pairs_hexString b⟩
  have k3 : follow [.key "frame", .key "address"] d = link.address.map (fun a => Doc.str (addressText a)) := by
    rw [g3, Option.map_map]; rfl
  have k4 : follow [.key "frame", .key "control_field"] d = (if link.protocol = "wireless" then
      link.control.map (fun c => Doc.str (hexDigits 2 c.toNat)) else none) := by
    rw [g4]
    split
    · rw [Option.map_map]; rfl
    · rfl
  exact ⟨⟨d, fun d' => ⟨fun h => json_eq h h1, fun h => h ▸ h1⟩, g0, g1, g2, k3, k4, ⟨_, g5, pairs_hexString _⟩, g6,
      ⟨_, g7, pairs_hexString _⟩, g8, k _ g9⟩,
    ⟨d, fun d' => ⟨fun h => json_eq h h2, fun h => h ▸ h2⟩, g0, g1, g2, k3, k4, ⟨_, g5, pairs_hexString _⟩, g6,
      ⟨_, g7, pairs_hexString _⟩, g8, k _ g9⟩⟩

theorem link_csv (cfg : Cfg) (env : TextEnv) (aes : AesBlock) (data : List UInt8) (options : DecodeOptions)
    (o : DecodedOutput) (h : decodeBytes cfg aes data options = .ok o) (link : SentLink) (service : Option (List Char))
    (hs : LinkShown link data service o) : ∃ text, renderCsv env o = some text ∧ CsvLink service link data text := by
  obtain ⟨e1, e2, e3⟩ := hs
  have hx : (o.records.map (·.index)).Nodup := C89_indices cfg aes data options o h ▸ List.nodup_range
  obtain ⟨text, e, g⟩ := C113_csv env o
  obtain ⟨h1, h2⟩ := C92_rows env o
  have k := fun n v hv => C92_frame env o hx n v hv
  have k0 := k "protocol" o.protocol (by simp [frameColumns])
  have k1 := k "frame_kind" o.frame.kind (by simp [frameColumns])
  have k2 := k "frame_function" (o.frame.function.getD []) (by simp [frameColumns])
  have k3 := k "address" (o.frame.address.getD []) (by simp [frameColumns])
  have k4 := k "frame_hex" o.raw.originalFrameHex (by simp [frameColumns])
  simp only [e1] at k0
  simp only [e2] at k1 k2 k3
  simp only [e3] at k4
  exact ⟨text, e, _, _, g, C92_distinct env o hx, h2.trans h1.symm, k0, k1, k2, k3, _, k4, pairs_hexString _⟩

theorem link_everywhere (cfg : Cfg) (env : CliEnv) (aes : AesBlock) (text : List Char) (data : List UInt8)
    (keyText : Option (List Char)) (key : Option (List UInt8)) (enrichment : Bool) (link : SentLink)
    (service : Option (List Char)) (henv : ∀ bits, FiniteReal bits → NumberText (env.front.text.realText bits))
    (hx : Spelled text data) (hk : KeyGiven keyText key) (o : DecodedOutput)
    (ho : decodeBytes cfg aes data ⟨key, enrichment⟩ = .ok o) (hs : LinkShown link data service o) :
    (AnsweredWell cfg env aes text keyText enrichment "json" (JsonLink service link data) ∧
      ∃ out, pyParse cfg env.front aes (.text text) (keyText.map .text) enrichment = .ok out ∧
        JsonLink service link data out) ∧
    AnsweredWell cfg env aes text keyText enrichment "csv" (CsvLink service link data) := by
  obtain ⟨j1, j2⟩ := link_json cfg env.front.text aes data _ henv o ho link service hs
  obtain ⟨out, c1, c2⟩ := link_csv cfg env.front.text aes data _ o ho link service hs
  refine ⟨⟨answered_well cfg env aes text data keyText key enrichment "json" .json (by decide +kernel) _ hx hk
    (fun width => ⟨_, by simp [renderBytes, ho, renderDecoded, Res.mapErr], j1⟩), _, ?_, j2⟩,
    answered_well cfg env aes text data keyText key enrichment "csv" .csv (by decide +kernel) _ hx hk
      (fun width => ⟨out, by simp [renderBytes, ho, renderDecoded, Res.mapErr, c1], c2⟩)⟩
  have hp : pyKey (keyText.map .text) = .ok key := by
    cases hk with
    | none => rfl
    | key t k hkt => exact (C115_same_key t k (((C115_cli_key t).1 k).2 hkt)).2.1
  simp [pyParse, pyBytes_text, (decode_iff text data).2 hx, hp, ho, Res.mapErr]

/-- C145: the link layer of every telegram accepted is in the JSON texts of the command line program, JavaScript and
Python: the kind of frame, its service with the bits set, its address, and the bytes of the telegram, of the frame and of
the payload.  Missing: the control fields of `misnamed`, see `C145_primary_fails` and `C145_wireless_fails`. -/
theorem C145_json_partial (cfg : Cfg) (env : CliEnv) (aes : AesBlock) (text : List Char) (data : List UInt8)
    (keyText : Option (List Char)) (key : Option (List UInt8)) (enrichment : Bool) (link : SentLink)
    (henv : ∀ bits, FiniteReal bits → NumberText (env.front.text.realText bits))
    (hx : Spelled text data) (hk : KeyGiven keyText key) (hl : FramedAs data link)
    (h : ∃ o, decodeBytes cfg aes data ⟨key, enrichment⟩ = .ok o) (hc : ∀ c ∈ link.control, c ∉ misnamed) :
    AnsweredWell cfg env aes text keyText enrichment "json" (JsonLink (link.control.bind serviceText) link data) ∧
      ∃ out, pyParse cfg env.front aes (.text text) (keyText.map .text) enrichment = .ok out ∧
        JsonLink (link.control.bind serviceText) link data out := by
  obtain ⟨o, ho⟩ := h
  exact (link_everywhere cfg env aes text data keyText key enrichment link _ henv hx hk o ho
    (C145_decoded_partial cfg aes data _ o ho link hl hc)).1

/-- C145 for the CSV texts. -/
theorem C145_csv_partial (cfg : Cfg) (env : CliEnv) (aes : AesBlock) (text : List Char) (data : List UInt8)
    (keyText : Option (List Char)) (key : Option (List UInt8)) (enrichment : Bool) (link : SentLink)
    (hx : Spelled text data) (hk : KeyGiven keyText key) (hl : FramedAs data link)
    (h : ∃ o, decodeBytes cfg aes data ⟨key, enrichment⟩ = .ok o) (hc : ∀ c ∈ link.control, c ∉ misnamed) :
    AnsweredWell cfg env aes text keyText enrichment "csv" (CsvLink (link.control.bind serviceText) link data) := by
  obtain ⟨o, ho⟩ := h
  obtain ⟨out, c1, c2⟩ := link_csv cfg env.front.text aes data _ o ho link _
    (C145_decoded_partial cfg aes data _ o ho link hl hc)
  exact answered_well cfg env aes text data keyText key enrichment "csv" .csv (by decide +kernel) _ hx hk
    (fun width => ⟨out, by simp [renderBytes, ho, renderDecoded, Res.mapErr, c1], c2⟩)

/-- C145: every telegram the library accepts is framed in one of the ways described. -/
theorem C145_framed (cfg : Cfg) (aes : AesBlock) (data : List UInt8) (options : DecodeOptions) (o : DecodedOutput)
    (h : decodeBytes cfg aes data options = .ok o) : ∃ link, FramedAs data link := by
  have hd := decoding cfg aes data options
  rw [h] at hd
  generalize hr : Res.ok o = r at hd
  cases hd with
  | empty h => cases hr
  | crash h => cases hr
  | wired g m hne hg hm hm' =>
    cases hg with
    | single rest => exact ⟨_, .single rest rfl⟩
    | short c a fn hf => exact ⟨_, .short c a fn hf rfl⟩
    | long x c a payload fn hf hc hl => exact ⟨_, .long x c a payload fn hf hl rfl⟩
    | control x a payload hl => exact ⟨_, .long x 0x53 a payload _ .sndUd0 hl rfl⟩
  | wireless f m frame hne hn hf hw hframe hm' =>
    cases hw with
    | mk l c m0 m1 d0 d1 d2 d3 ver dev ci rest payload i j k fn hl hfn hi hj hk hm hbcd hp =>
      exact ⟨_, .wireless _ _ _ _ hn hf (.mk l c m0 m1 d0 d1 d2 d3 ver dev ci rest payload i j k fn hl hfn hi hj hk hm
        hbcd hp)⟩
  | neither => cases hr

/-- The PRM bit of the control field 40 is set, but the texts say it is not, for every telegram with this control field. -/
theorem C145_primary_fails (cfg : Cfg) (aes : AesBlock) (data : List UInt8) (options : DecodeOptions) (o : DecodedOutput)
    (h : decodeBytes cfg aes data options = .ok o) (link : SentLink) (hl : FramedAs data link)
    (hc : link.control = some 0x40) :
    serviceText 0x40 = some "SND_NKE (PRM: true)".toList ∧ o.frame.function = some "SND_NKE (PRM: false)".toList := by
  refine ⟨by decide +kernel, ?_⟩
  have hn : ∀ fn, FunctionCode 0x40 fn → frameFunctionName fn = "SND_NKE (PRM: false)".toList := by
    intro fn hf
    cases hf
    decide +kernel
  cases hl with
  | single rest hd => cases hc
  | short c a fn hf hd =>
    cases hc
    have hg : WiredTelegram data (.shortFrame fn (addressOf a)) := by rw [hd]; exact .short _ a fn hf
    rw [(wired_shown cfg aes data options o h _ hg).2.1]
    exact congrArg some (hn fn hf)
  | long x c a payload fn hf hp hd =>
    cases hc
    have hg : WiredTelegram data (.longFrame fn (addressOf a) payload) := by
      rw [hd]; exact .long x _ a payload fn hf (by decide) hp
    rw [(wired_shown cfg aes data options o h _ hg).2.1]
    exact congrArg some (hn fn hf)
  | wireless l c rest f hn' hf hw =>
    cases hc
    rw [(wireless_shown cfg aes data options o h _ f hn' hf hw).2.1]
    cases hw with
    | mk l c m0 m1 d0 d1 d2 d3 ver dev ci rest payload i j k fn hl hfn =>
      have : fn = some (.sndNk false) := (hfn _).2 .sndNk
      subst this
      exact congrArg some (hn _ .sndNk)

/-- The wireless services for installation, access number and demand, and for the confirmation of an installation, are not
named in the texts although the library has names for them: the control field is shown as a number only. -/
theorem C145_wireless_fails (cfg : Cfg) (aes : AesBlock) (data : List UInt8) (options : DecodeOptions) (o : DecodedOutput)
    (h : decodeBytes cfg aes data options = .ok o) (link : SentLink) (hl : FramedAs data link) (c : UInt8)
    (hc : link.control = some c) (hm : c ∈ ([0x46, 0x47, 0x48, 0x06] : List UInt8)) :
    (serviceText c).isSome = true ∧ o.frame.function = none ∧ o.frame.controlField = some (hexDigits 2 c.toNat) := by
  have hn : ∀ fn, ¬ FunctionCode c fn := by
    intro fn hf
    cases hf <;> exact absurd hm (by decide)
  refine ⟨?_, ?_⟩
  · have key : ∀ c ∈ ([0x46, 0x47, 0x48, 0x06] : List UInt8), (serviceText c).isSome = true := by decide +kernel
    exact key c hm
  cases hl with
  | single rest hd => cases hc
  | short c a fn hf hd => cases hc; exact absurd hf (hn fn)
  | long x c a payload fn hf hp hd => cases hc; exact absurd hf (hn fn)
  | wireless l c rest f hn' hf hw =>
    cases hc
    rw [(wireless_shown cfg aes data options o h _ f hn' hf hw).2.1]
    cases hw with
    | mk l c m0 m1 d0 d1 d2 d3 ver dev ci rest payload i j k fn hl hfn =>
      cases fn with
      | none => exact ⟨rfl, congrArg some (hexDigits_byte c)⟩
      | some g => exact absurd ((hfn g).1 rfl) (hn g)

/-- A request for data to the meter with the address 1, typed as pairs of digits. -/
example (cfg : Cfg) (env : CliEnv) (aes : AesBlock)
    (henv : ∀ bits, FiniteReal bits → NumberText (env.front.text.realText bits)) :
    AnsweredWell cfg env aes "105B015C16".toList none true "json"
      (JsonLink (some "REQ_UD2 (FCB: false)".toList)
        ⟨"wired", "short", some 0x5B, some 1, none, [0x10, 0x5B, 0x01, 0x5C, 0x16]⟩ [0x10, 0x5B, 0x01, 0x5C, 0x16]) := by
  have hl : FramedAs [0x10, 0x5B, 0x01, 0x5C, 0x16]
      ⟨"wired", "short", some 0x5B, some 1, none, [0x10, 0x5B, 0x01, 0x5C, 0x16]⟩ :=
    .short 0x5B 1 _ .reqUd2_0 (by decide)
  have key := (C145_json_partial cfg env aes "105B015C16".toList [0x10, 0x5B, 0x01, 0x5C, 0x16] none none true _ henv
    ((decode_iff _ _).1 (by decide +kernel)) .none hl (by
      rw [decode_any_aes cfg aes (fun _ b => b)]
      have key : (match decodeBytes cfg (fun _ b => b) [0x10, 0x5B, 0x01, 0x5C, 0x16] ⟨none, true⟩ with
        | .ok _ => true
        | _ => false) = true := by
        obtain ⟨oc, tf⟩ := cfg
        cases oc <;> cases tf <;> decide +kernel
      split at key
      · rename_i o ho
        exact ⟨o, ho⟩
      · cases key)
    (by intro c hc; cases hc; decide)).1
  have e : (some (0x5B : UInt8)).bind serviceText = some "REQ_UD2 (FCB: false)".toList := by decide +kernel
  rw [← e]
  exact key

/-- A frame that initialises the meter with the address 1: `C145_primary_fails` is about telegrams that exist. -/
example (cfg : Cfg) (aes : AesBlock) : ∃ o, decodeBytes cfg aes [0x10, 0x40, 0x01, 0x41, 0x16] ⟨none, true⟩ = .ok o ∧
    o.frame.function = some "SND_NKE (PRM: false)".toList := by
  have hl : FramedAs [0x10, 0x40, 0x01, 0x41, 0x16]
      ⟨"wired", "short", some 0x40, some 1, none, [0x10, 0x40, 0x01, 0x41, 0x16]⟩ :=
    .short 0x40 1 _ .sndNk (by decide)
  have ho : ∃ o, decodeBytes cfg aes [0x10, 0x40, 0x01, 0x41, 0x16] ⟨none, true⟩ = .ok o := by
    rw [decode_any_aes cfg aes (fun _ b => b)]
    have key : (match decodeBytes cfg (fun _ b => b) [0x10, 0x40, 0x01, 0x41, 0x16] ⟨none, true⟩ with
      | .ok _ => true
      | _ => false) = true := by
      obtain ⟨oc, tf⟩ := cfg
      cases oc <;> cases tf <;> decide +kernel
    split at key
    · rename_i o ho
      exact ⟨o, ho⟩
    · cases key
  obtain ⟨o, ho⟩ := ho
  exact ⟨o, ho, (C145_primary_fails cfg aes _ _ o ho _ hl rfl).2⟩

/-- A wireless telegram for the installation of the water meter 12345678 of GWF: `C145_wireless_fails` is about telegrams
that exist. -/
example (cfg : Cfg) (aes : AesBlock) : ∃ o, decodeBytes cfg aes
    ([0x0E, 0x46, 0xE6, 0x1E, 0x78, 0x56, 0x34, 0x12, 0x3C, 0x07, 0x7A, 0x2A, 0x00, 0x00, 0x00]) ⟨none, true⟩ = .ok o ∧
    o.frame.function = none ∧ o.frame.controlField = some "46".toList := by
  have ho : ∃ o, decodeBytes cfg aes
      ([0x0E, 0x46, 0xE6, 0x1E, 0x78, 0x56, 0x34, 0x12, 0x3C, 0x07, 0x7A, 0x2A, 0x00, 0x00, 0x00]) ⟨none, true⟩ = .ok o := by
    rw [decode_any_aes cfg aes (fun _ b => b)]
    have key : (match decodeBytes cfg (fun _ b => b)
        ([0x0E, 0x46, 0xE6, 0x1E, 0x78, 0x56, 0x34, 0x12, 0x3C, 0x07, 0x7A, 0x2A, 0x00, 0x00, 0x00]) ⟨none, true⟩ with
      | .ok _ => true
      | _ => false) = true := by
      obtain ⟨oc, tf⟩ := cfg
      cases oc <;> cases tf <;> decide +kernel
    split at key
    · rename_i o ho
      exact ⟨o, ho⟩
    · cases key
  obtain ⟨o, ho⟩ := ho
  obtain ⟨link, hl⟩ := C145_framed cfg aes _ _ o ho
  have hc : link.control = some 0x46 := by
    have hn : ∀ g, ¬ WiredTelegram
        [0x0E, 0x46, 0xE6, 0x1E, 0x78, 0x56, 0x34, 0x12, 0x3C, 0x07, 0x7A, 0x2A, 0x00, 0x00, 0x00] g := by
      intro g hg
      have h1 := (C01_wired_accepts_exactly_telegrams cfgRelease _ g).2 hg
      have h2 : WiredFrame.tryFrom cfgRelease
          [0x0E, 0x46, 0xE6, 0x1E, 0x78, 0x56, 0x34, 0x12, 0x3C, 0x07, 0x7A, 0x2A, 0x00, 0x00, 0x00] =
          .err .invalidStartByte := by decide +kernel
      rw [h2] at h1
      cases h1
    cases hl with
    | single rest hd => cases hd
    | short c a fn hf hd => cases hd
    | long x c a payload fn hf hp hd => simp [longFrameBytes] at hd
    | wireless l c rest f h1 h2 h3 =>
      obtain ⟨r, b, hs, hr⟩ := normalized_strip _ _ h2
      have e : stripFormatACrcs
          [0x0E, 0x46, 0xE6, 0x1E, 0x78, 0x56, 0x34, 0x12, 0x3C, 0x07, 0x7A, 0x2A, 0x00, 0x00, 0x00]
          (List.replicate 512 0) = .ok (none, List.replicate 512 0) := by decide +kernel
      rw [e] at hs
      cases hs
      simp only [Option.getD_none, List.cons.injEq] at hr
      exact congrArg some hr.2.1.symm
  have := C145_wireless_fails cfg aes _ _ o ho link hl 0x46 hc (by decide)
  exact ⟨o, ho, this.2.1, this.2.2.trans (by decide +kernel)⟩

end MBus
