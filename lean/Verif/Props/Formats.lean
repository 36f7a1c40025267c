import Verif.Lemmas.HexviewPanic
import Verif.Spec.Formats
import Verif.Lemmas.Formats
import Verif.Props.Frontend
import Verif.Props.CsvText
import Verif.Props.Render
import Verif.Props.AnnotateText
import Verif.Props.Hexview
import Verif.Props.Legacy
/-! Which telegrams the output formats accept, and which crash them. -/
namespace MBus
open MBus.Spec MBus.Xml

/-- A wired telegram found by computation carries a block. -/
theorem wired_block_of {data payload : List UInt8} {fn : Function} {address : Address} {blk : UserDataBlock}
    (h1 : WiredFrame.tryFrom cfgRelease data = .ok (.longFrame fn address payload))
    (h2 : UserDataBlock.tryFrom payload = .ok blk) : WiredBlock data blk :=
  ⟨fn, address, payload, (C01_wired_accepts_exactly_telegrams _ _ _).1 h1, (C32_accepts_iff _ _).1 h2⟩

theorem not_wired_of {data : List UInt8} {e : FrameError} (h : WiredFrame.tryFrom cfgRelease data = .err e) :
    ∀ g, ¬ WiredTelegram data g := by
  intro g hg
  rw [← C01_wired_accepts_exactly_telegrams cfgRelease, h] at hg
  cases hg

theorem secured_iff (blk : UserDataBlock) : Secured blk ↔ (securityFields (some blk)).1 = true := by
  cases blk with
  | long ell header block => simp [Secured, securityFields]
  | short ell header block =>
    have he : (∃ e, ell = some e ∧ e.encryption ≠ none) ↔ ell.any (fun e => e.encryption.isSome) = true := by
      cases ell <;> simp [Option.isSome_iff_ne_none]
    simp only [Secured, securityFields, he]
    by_cases hm : header.configurationField.securityMode = .noEncryption <;>
      cases ell.any (fun e => e.encryption.isSome) <;> simp [hm]
  | _ => simp [Secured, securityFields]

/-! ## C116 -/

/-- C116: JSON, CSV, Mermaid and, from 32 columns on, the table render exactly the telegrams that decode,
and have the error of the decoding otherwise; a narrower table is refused. -/
theorem C116_structured (cfg : Cfg) (env : FrontEnv) (aes : AesBlock) (data : List UInt8)
    (options : RenderOptions) (format : OutputFormat)
    (hf : format = .json ∨ format = .csv ∨ format = .mermaid ∨ format = .table) :
    (∀ e, decodeBytes cfg aes data options.decode = .err e →
      renderBytes cfg env aes data format options = .err e.failure) ∧
    (decodeBytes cfg aes data options.decode = .panic → renderBytes cfg env aes data format options = .panic) ∧
    (∀ o, decodeBytes cfg aes data options.decode = .ok o →
      if format = .table ∧ options.tableWidth.getD 100 < 32 then
        renderBytes cfg env aes data format options = .err (.invalidOption "table_width")
      else ∃ text, renderBytes cfg env aes data format options = .ok text) := by
  have hr : renderBytes cfg env aes data format options =
      (decodeBytes cfg aes data options.decode).mapErr OutputError.failure >>=
        renderDecoded env format options.tableWidth := by
    rcases hf with rfl | rfl | rfl | rfl <;> rfl
  refine ⟨fun e h => by rw [hr, h]; rfl, fun h => by rw [hr, h]; rfl, fun o h => ?_⟩
  rw [hr, h]
  simp only [Res.mapErr, Res.bind_ok]
  rcases hf with rfl | rfl | rfl | rfl
  · simp [renderDecoded]
  · simp only [reduceCtorEq, false_and, if_false]
    obtain ⟨text, ht, -⟩ := C113_csv env.text o
    exact ⟨text, by simp [renderDecoded, ht]⟩
  · simp [renderDecoded]
  · simp only [true_and]
    by_cases h1 : options.tableWidth.getD 100 < 32
    · rw [if_pos h1]
      have ht : renderTable env.text o (options.tableWidth.getD 100) = none := by
        unfold renderTable tableLines; rw [if_pos h1]; rfl
      simp only [renderDecoded, ht]
    · rw [if_neg h1]
      cases ht : renderTable env.text o (options.tableWidth.getD 100) with
      | some text => exact ⟨text, by simp only [renderDecoded, ht]⟩
      | none => unfold renderTable tableLines at ht; rw [if_neg h1] at ht; cases ht

example (cfg : Cfg) (env : FrontEnv) (aes : AesBlock) :
    ∃ text, renderBytes cfg env aes (olderWired 0 [0x01, 0x13, 0x05]) .table ⟨⟨none, true⟩, some 40⟩ = .ok text := by
  obtain ⟨o, ho⟩ : ∃ o, decodeBytes cfg aes (olderWired 0 [0x01, 0x13, 0x05]) ⟨none, true⟩ = .ok o := by
    obtain ⟨oc, tf⟩ := cfg
    cases oc <;> cases tf <;> exact ⟨_, by with_unfolding_all rfl⟩
  have := (C116_structured cfg env aes (olderWired 0 [0x01, 0x13, 0x05]) ⟨⟨none, true⟩, some 40⟩ .table (by simp)).2.2 o ho
  simpa using this

/-- C116: YAML renders exactly the telegrams that decode and that the YAML library writes, and has the error of the decoding
otherwise. -/
theorem C116_yaml (cfg : Cfg) (env : FrontEnv) (aes : AesBlock) (data : List UInt8) (options : RenderOptions) :
    (∀ e, decodeBytes cfg aes data options.decode = .err e →
      renderBytes cfg env aes data .yaml options = .err e.failure) ∧
    (decodeBytes cfg aes data options.decode = .panic → renderBytes cfg env aes data .yaml options = .panic) ∧
    (∀ o, decodeBytes cfg aes data options.decode = .ok o →
      ((∃ text, renderBytes cfg env aes data .yaml options = .ok text) ↔ ∃ text, env.yaml o = some text)) := by
  have hr : renderBytes cfg env aes data .yaml options =
      (decodeBytes cfg aes data options.decode).mapErr OutputError.failure >>=
        renderDecoded env .yaml options.tableWidth := rfl
  refine ⟨fun e h => by rw [hr, h]; rfl, fun h => by rw [hr, h]; rfl, fun o h => ?_⟩
  rw [hr, h]
  simp only [Res.mapErr, Res.bind_ok, renderDecoded]
  cases env.yaml o <;> simp

theorem xml_bytes (cfg : Cfg) (env : FrontEnv) (aes : AesBlock) (data : List UInt8) (options : RenderOptions) :
    renderBytes cfg env aes data .xml options =
      (renderFromBytes cfg env.xml aes data options.decode.key).mapErr
        (fun _ => .rendering "xml.unsupported".toList) := rfl

theorem outcome_mapErr {ε ε' α : Type} (x : Res ε α) (f : ε → ε') : outcome (x.mapErr f) = outcome x := by
  cases x <;> rfl

/-- C116: the XML of a telegram that is not a wired one is rendered, refused or crashes exactly as its
decoding. -/
theorem C116_xml_wireless (cfg : Cfg) (env : FrontEnv) (aes : AesBlock) (data : List UInt8)
    (options : RenderOptions) (hn : ∀ g, ¬ WiredTelegram data g) :
    outcome (renderBytes cfg env aes data .xml options) = outcome (decodeBytes cfg aes data options.decode) := by
  rw [xml_bytes, outcome_mapErr]
  have hd := decoding cfg aes data options.decode
  cases hx : WiredFrame.tryFrom cfg data with
  | ok g => exact absurd ((C01_wired_accepts_exactly_telegrams cfg data g).1 hx) (hn g)
  | panic =>
    have hw := (C37_frame_delivered_wired cfg data).2.1.2 hx
    have hne : data ≠ [] := by rintro rfl; rw [WiredFrame.tryFrom] at hx; cases hx
    unfold renderFromBytes decodeBytes
    rw [if_neg hne, hw]
    rfl
  | err e =>
    have hw := ((C37_frame_delivered_wired cfg data).1 e).2 hx
    generalize decodeBytes cfg aes data options.decode = r at hd
    cases hd with
    | empty h => subst h; rfl
    | crash h => rw [hx] at h; cases h
    | wired g m h1 h2 h3 h4 => exact absurd h2 (hn g)
    | wireless f m frame h1 h2 h3 h4 h5 h6 =>
      have hc := (wireless_carried frame m h6).1
      obtain ⟨r, b, hs, hr⟩ := normalized_strip data frame h3
      unfold renderFromBytes
      simp only [hw, hs, hr, h6]
      subst h5
      rw [wireless_outcome cfg env.xml aes m hc, finish_outcome _ _ _ _ _ _ _ _ _ hc]
    | neither a b frame h1 h2 h3 h4 h5 =>
      obtain ⟨r, b, hs, hr⟩ := normalized_strip data frame h3
      unfold renderFromBytes
      simp only [hw, hs, hr]
      cases hy : WirelessFrame.tryFrom frame with
      | ok f => exact absurd ((C12_wireless_accepts_exactly_telegrams frame f).1 hy) (h4 f)
      | panic => exact absurd hy (C13_wireless_never_panics frame)
      | err e' => rw [((C37_wireless frame).1 e').2 hy]; rfl

set_option maxRecDepth 20000 in
/-- A wireless telegram with a reading meets the hypothesis. -/
example : (∀ g, ¬ WiredTelegram (olderWireless [0x78, 0x01, 0x13, 0x05]) g) ∧
    ∃ f, WirelessTelegram (olderWireless [0x78, 0x01, 0x13, 0x05]) f :=
  ⟨not_wired_of (e := .invalidStartByte) (by with_unfolding_all rfl),
    _, (C12_wireless_accepts_exactly_telegrams _ _).1 (by with_unfolding_all rfl)⟩

/-- What the library makes of a wired telegram that carries a block. -/
theorem wired_block_parsed (cfg : Cfg) (data : List UInt8) (blk : UserDataBlock) (h : WiredBlock data blk) :
    ∃ m g, WiredTelegram data g ∧ m.frame = g ∧ MbusData.tryFromWired cfg data = .ok m ∧
      m.userData = some blk ∧ m.dataRecords = blk.attachedRecords ∧ Carried m := by
  obtain ⟨fn, address, payload, h1, h2⟩ := h
  have hx := (C01_wired_accepts_exactly_telegrams cfg data _).2 h1
  have hb := (C32_accepts_iff payload blk).2 h2
  refine ⟨⟨.longFrame fn address payload, some blk, blk.attachedRecords, none⟩, _, h1, rfl, ?_, rfl, rfl, ?_⟩
  · unfold MbusData.tryFromWired
    rw [hx, Res.bind_ok]
    simp only [MbusData.ofPayload, hb]
  · apply wired_carried cfg data
    unfold MbusData.tryFromWired
    rw [hx, Res.bind_ok]
    simp only [MbusData.ofPayload, hb]

theorem wired_nonempty {data : List UInt8} {g : WiredFrame} (h : WiredTelegram data g) : data ≠ [] := by
  rintro rfl
  have := (C01_wired_accepts_exactly_telegrams cfgRelease [] g).2 h
  rw [WiredFrame.tryFrom] at this
  cases this

theorem wired_decode (cfg : Cfg) (aes : AesBlock) (data : List UInt8) (options : DecodeOptions)
    (g : WiredFrame) (m : MbusData WiredFrame) (hg : WiredTelegram data g) (hm : m.frame = g)
    (hp : MbusData.tryFromWired cfg data = .ok m) (hc : Carried m) :
    outcome (decodeBytes cfg aes data options) =
      endOutcome cfg m (prepareSecurity aes m.userData none options.key (List.replicate 512 0)) := by
  have hd := decoding cfg aes data options
  generalize decodeBytes cfg aes data options = r at hd
  cases hd with
  | empty h => exact absurd h (wired_nonempty hg)
  | crash h =>
    rw [(C37_frame_delivered_wired cfg data).2.1.2 h] at hp; cases hp
  | wired g' m' h1 h2 h3 h4 =>
    rw [hp] at h4
    cases h4
    rw [finish_outcome _ _ _ _ _ _ _ _ _ hc]
  | wireless f m frame h1 h2 => exact absurd hg (h2 g)
  | neither a b frame h1 h2 => exact absurd hg (h2 g)

/-- C116: the XML of a wired telegram with a long header is rendered, refused or crashes exactly as its
decoding, if its data are not encrypted or a key is given. -/
theorem C116_xml_long (cfg : Cfg) (env : FrontEnv) (aes : AesBlock) (data : List UInt8)
    (options : RenderOptions) (ell : Option ExtendedLinkLayer) (header : LongTplHeader) (block : List UInt8)
    (h : WiredBlock data (.long ell header block))
    (hk : ¬ Secured (.long ell header block) ∨ options.decode.key ≠ none) :
    outcome (renderBytes cfg env aes data .xml options) = outcome (decodeBytes cfg aes data options.decode) := by
  rw [xml_bytes, outcome_mapErr]
  obtain ⟨m, g, h1, h2, h3, h4, h5, h6⟩ := wired_block_parsed cfg data _ h
  rw [wired_decode cfg aes data options.decode g m h1 h2 h3 h6]
  unfold renderFromBytes
  rw [h3]
  simp only [h4]
  cases hkey : options.decode.key with
  | some k => 
    simp only
    rw [long_outcome cfg env.xml aes ell header block none (some k) m h4, h4]
  | none =>
    simp only
    have hs : ¬ Secured (.long ell header block) := hk.resolve_right (by simp [hkey])
    rw [rendered_outcome, prepareSecurity_clear]
    · simp [endOutcome, recordsToShow]
    · simpa [securityFields, Secured] using hs

/-- A telegram with the reading of five litres, and an encrypted one. -/
example : (∃ ell header, WiredBlock (olderWired 0 [0x01, 0x13, 0x05]) (.long ell header [0x01, 0x13, 0x05]) ∧
      ¬ Secured (.long ell header [0x01, 0x13, 0x05])) ∧
    ∃ ell header, WiredBlock (olderWired 5 [0x01, 0x13, 0x05]) (.long ell header [0x01, 0x13, 0x05]) ∧
      Secured (.long ell header [0x01, 0x13, 0x05]) :=
  ⟨⟨_, _, wired_block_of (by with_unfolding_all rfl) (by with_unfolding_all rfl), by
      rw [secured_iff]; decide +kernel⟩,
    _, _, wired_block_of (by with_unfolding_all rfl) (by with_unfolding_all rfl), by
      rw [secured_iff]; decide +kernel⟩

/-- C116: without a key an encrypted wired telegram with a long header decodes, and its XML is rendered
unless reading its ciphertext as records crashes. -/
theorem C116_xml_encrypted (cfg : Cfg) (env : FrontEnv) (aes : AesBlock) (data : List UInt8)
    (options : RenderOptions) (ell : Option ExtendedLinkLayer) (header : LongTplHeader) (block : List UInt8)
    (h : WiredBlock data (.long ell header block)) (hs : Secured (.long ell header block))
    (hk : options.decode.key = none) :
    outcome (decodeBytes cfg aes data options.decode) = .answered ∧
    outcome (renderBytes cfg env aes data .xml options) =
      if .panic ∈ parseDataRecords cfg false block then .crashed else .answered := by
  rw [xml_bytes, outcome_mapErr]
  obtain ⟨m, g, h1, h2, h3, h4, h5, h6⟩ := wired_block_parsed cfg data _ h
  rw [wired_decode cfg aes data options.decode g m h1 h2 h3 h6, hk]
  constructor
  · rw [h4, prepareSecurity_no_key]
    have : (securityFields (some (.long ell header block))).1 = true := by
      simpa [securityFields, Secured] using hs
    simp [endOutcome, recordsToShow, this, read_none]
  · unfold renderFromBytes
    rw [h3]
    simp only [h4]
    rw [rendered_outcome, h5]
    simp only [readOutcome, UserDataBlock.attachedRecords, parseDataRecords, Option.any_some, decide_eq_true_eq]
    congr

/-- C116: the XML of a wired telegram with the fixed data structure is rendered, and the telegram
decodes. -/
theorem C116_xml_fixed (cfg : Cfg) (env : FrontEnv) (aes : AesBlock) (data : List UInt8)
    (options : RenderOptions) (idn : Nat) (access status : UInt8) (device : UInt16) (c1 c2 : Nat) 
    (h : WiredBlock data (.fixed idn access status device c1 c2)) :
    outcome (renderBytes cfg env aes data .xml options) = .answered ∧
      outcome (decodeBytes cfg aes data options.decode) = .answered := by
  rw [xml_bytes, outcome_mapErr]
  obtain ⟨m, g, h1, h2, h3, h4, h5, h6⟩ := wired_block_parsed cfg data _ h
  rw [wired_decode cfg aes data options.decode g m h1 h2 h3 h6]
  constructor
  · unfold renderFromBytes
    rw [h3]
    simp only [h4]
    rfl
  · rw [prepareSecurity_clear _ _ _ _ _ (by rw [h4]; rfl)]
    simp [endOutcome, recordsToShow, h5, UserDataBlock.attachedRecords, read_none]

example : ∃ idn a st d c1 c2, WiredBlock (wiredLong [0x73, 0x21, 0x43, 0x65, 0x87, 0x2A, 0x00, 0xE9, 0x7E, 1, 0, 0, 0,
    0x35, 1, 0, 0]) (.fixed idn a st d c1 c2) :=
  ⟨_, _, _, _, _, _, wired_block_of (by with_unfolding_all rfl) (by with_unfolding_all rfl)⟩

/-- C116: every other wired telegram is refused by the XML output. -/
theorem C116_xml_other (cfg : Cfg) (env : FrontEnv) (aes : AesBlock) (data : List UInt8)
    (options : RenderOptions) (g : WiredFrame) (h : WiredTelegram data g)
    (hn : ∀ blk, WiredBlock data blk → (∀ ell header block, blk ≠ .long ell header block) ∧
      ∀ idn access status device c1 c2, blk ≠ .fixed idn access status device c1 c2) :
    renderBytes cfg env aes data .xml options = .err (.rendering "xml.unsupported".toList) := by
  rw [xml_bytes]
  obtain ⟨m, hm, hg⟩ := (C37_frame_delivered_wired cfg data).2.2 g
    ((C01_wired_accepts_exactly_telegrams cfg data g).2 h)
  have hb : ∀ blk, m.userData = some blk → WiredBlock data blk := by
    intro blk hu
    have hx := (C01_wired_accepts_exactly_telegrams cfg data g).2 h
    unfold MbusData.tryFromWired at hm
    rw [hx, Res.bind_ok] at hm
    cases g with
    | longFrame fn address payload => exact ⟨fn, address, payload, h, ofPayload_block _ payload m hm blk hu⟩
    | _ => cases hm; cases hu
  unfold renderFromBytes
  rw [hm]
  cases hu : m.userData with
  | none => simp only [hu]; rfl
  | some blk =>
    obtain ⟨n1, n2⟩ := hn blk (hb blk hu)
    cases blk with
    | long ell header block => exact absurd rfl (n1 _ _ _)
    | fixed a b c d e f => exact absurd rfl (n2 _ _ _ _ _ _)
    | _ => simp only [hu]; rfl

/-- The single character is a telegram without a block. -/
example : WiredTelegram [0xE5] (.singleCharacter 0xE5) ∧ ∀ blk, ¬ WiredBlock [0xE5] blk := by
  refine ⟨.single [], ?_⟩
  rintro blk ⟨fn, address, payload, h, -⟩
  cases h

/-- C116 fails: the single character E5 and a wired telegram without a transport header decode, and the XML
output refuses them; an encrypted telegram decodes without a key, and its XML output crashes on the
ciphertext. -/
theorem C116_xml_fails (cfg : Cfg) (env : FrontEnv) (aes : AesBlock) :
    (∃ data, (∃ o, decodeBytes cfg aes data ⟨none, true⟩ = .ok o ∧ o.records.length = 1) ∧
      renderBytes cfg env aes data .xml ⟨⟨none, true⟩, none⟩ = .err (.rendering "xml.unsupported".toList)) ∧
    ∃ data, (∃ o, decodeBytes cfg aes data ⟨none, true⟩ = .ok o) ∧
      renderBytes cfg env aes data .xml ⟨⟨none, true⟩, none⟩ = .panic := by
  obtain ⟨oc, tf⟩ := cfg
  refine ⟨⟨wiredLong [0x78, 0x01, 0x13, 0x05], checked _ (fun o : DecodedOutput => _) ?_, ?_⟩,
    olderWired 5 [0x01, 0x7D, 0x00], ?_, ?_⟩
  · cases oc <;> cases tf <;> with_unfolding_all rfl
  · cases oc <;> cases tf <;> with_unfolding_all rfl
  · cases oc <;> cases tf <;> exact ⟨_, by with_unfolding_all rfl⟩
  · cases oc <;> cases tf <;> with_unfolding_all rfl

/-- C116: what an annotated output refuses is refused by the decoding, as not a telegram. -/
theorem C116_annotated (cfg : Cfg) (env : FrontEnv) (aes : AesBlock) (haes : BlockSized aes) (data : List UInt8)
    (options : RenderOptions) (format : OutputFormat) (hf : format = .annotated ∨ format = .annotatedText)
    (e : Failure) (h : renderBytes cfg env aes data format options = .err e) :
    e = .rendering "annotation.failed".toList ∧
      (decodeBytes cfg aes data options.decode = .err .emptyInput ∨
        ∃ a b, decodeBytes cfg aes data options.decode = .err (.invalidFrame a b)) := by
  obtain ⟨rfl, e', ha⟩ : e = .rendering "annotation.failed".toList ∧
      ∃ e', annotateFrame cfg env.dataText data = .err e' := by
    rcases hf with rfl | rfl
    · simp only [renderBytes] at h
      cases hv : annotatedView cfg env.dataText aes data options.decode.key with
      | ok v => rw [hv] at h; cases h
      | panic => rw [hv] at h; cases h
      | err e' =>
        rw [hv] at h
        cases h
        exact ⟨rfl, e', (C101_rejects_iff cfg env.dataText aes haes data _ e').1 hv⟩
    · simp only [renderBytes] at h
      cases hv : annotateAndRender cfg env.dataText data with
      | ok v => rw [hv] at h; cases h
      | panic => rw [hv] at h; cases h
      | err e' =>
        rw [hv] at h
        cases h
        exact ⟨rfl, e', ((C103_rejects cfg env.dataText data).1 e').1 hv⟩
  refine ⟨rfl, ?_⟩
  obtain ⟨-, ⟨e1, h1⟩, ⟨e2, h2⟩, h3⟩ := (C98_rejects_iff cfg env.dataText data e').1 ha
  have hd := decoding cfg aes data options.decode
  generalize decodeBytes cfg aes data options.decode = r at hd
  cases hd with
  | empty h => exact .inl rfl
  | crash h => rw [h1] at h; cases h
  | wired g m _ h => rw [(C01_wired_accepts_exactly_telegrams cfg data g).2 h] at h1; cases h1
  | neither a b => exact .inr ⟨a, b, rfl⟩
  | wireless f m frame _ _ h4 h5 =>
    exfalso
    have hx := (C12_wireless_accepts_exactly_telegrams frame f).2 h5
    obtain ⟨r, b, hs, hr⟩ := normalized_strip data frame h4
    cases r with
    | none => cases hr; rw [Option.getD_none, h2] at hx; cases hx
    | some r => cases hr; obtain ⟨e4, h6⟩ := h3 _ _ hs; rw [Option.getD_some, h6] at hx; cases hx

set_option maxRecDepth 20000 in
example (cfg : Cfg) (env : FrontEnv) (aes : AesBlock) :
    renderBytes cfg env aes [0x10, 0x40, 0x01] .annotated ⟨⟨none, true⟩, none⟩ =
      .err (.rendering "annotation.failed".toList) := by
  obtain ⟨oc, tf⟩ := cfg
  cases oc <;> cases tf <;> with_unfolding_all rfl

/-- C116, what holds of the converse: what the decoding refuses as not a telegram is refused by the
annotated outputs, unless it is a wireless telegram as it is; see `C116_annotated_fails`. -/
theorem C116_annotated_partial (cfg : Cfg) (env : FrontEnv) (aes : AesBlock) (haes : BlockSized aes)
    (data : List UInt8) (options : RenderOptions) (format : OutputFormat)
    (hf : format = .annotated ∨ format = .annotatedText) (hn : ∀ f, ¬ WirelessTelegram data f)
    (h : decodeBytes cfg aes data options.decode = .err .emptyInput ∨
        ∃ a b, decodeBytes cfg aes data options.decode = .err (.invalidFrame a b)) :
    renderBytes cfg env aes data format options = .err (.rendering "annotation.failed".toList) := by
  have hw : ∃ e', WirelessFrame.tryFrom data = .err e' := by
    cases hy : WirelessFrame.tryFrom data with
    | ok f => exact absurd ((C12_wireless_accepts_exactly_telegrams data f).1 hy) (hn f)
    | panic => exact absurd hy (C13_wireless_never_panics data)
    | err e' => exact ⟨e', rfl⟩
  have ha : annotateFrame cfg env.dataText data = .err .invalidStartByte := by
    have hd := decoding cfg aes data options.decode
    generalize decodeBytes cfg aes data options.decode = r at hd h
    cases hd with
    | empty h' => subst h'; rfl
    | crash h' => simp at h
    | wired g m =>
      exfalso
      rcases h with h | ⟨a, b, h⟩ <;> obtain ⟨s, h5, -⟩ := finish_err _ _ _ _ _ _ _ _ _ _ _ _ h <;> cases h5
    | wireless f m =>
      exfalso
      rcases h with h | ⟨a, b, h⟩ <;> obtain ⟨s, h5, -⟩ := finish_err _ _ _ _ _ _ _ _ _ _ _ _ h <;> cases h5
    | neither a b frame h1 h2 h3 h4 h5 =>
      rw [C98_rejects_iff]
      refine ⟨rfl, ?_, hw, ?_⟩
      · cases hx : WiredFrame.tryFrom cfg data with
        | ok g => exact absurd ((C01_wired_accepts_exactly_telegrams cfg data g).1 hx) (h2 g)
        | panic => exact absurd hx h5
        | err e => exact ⟨e, rfl⟩
      · intro frame' buffer hs
        obtain ⟨r, b, hs', hr⟩ := normalized_strip data frame h3
        rw [hs] at hs'
        cases hs'
        cases hr
        cases hy : WirelessFrame.tryFrom frame' with
        | ok f => exact absurd ((C12_wireless_accepts_exactly_telegrams _ f).1 hy) (h4 f)
        | panic => exact absurd hy (C13_wireless_never_panics _)
        | err e' => exact ⟨e', rfl⟩
  rcases hf with rfl | rfl
  · simp only [renderBytes, (C101_rejects_iff cfg env.dataText aes haes data options.decode.key _).2 ha, Res.mapErr,
      Res.bind_err]
  · simp only [renderBytes, ((C103_rejects cfg env.dataText data).1 _).2 ha, Res.mapErr]

set_option maxRecDepth 20000 in
example (cfg : Cfg) (aes : AesBlock) : (∀ f, ¬ WirelessTelegram [0x10, 0x40, 0x01] f) ∧
    ∃ a b, decodeBytes cfg aes [0x10, 0x40, 0x01] ⟨none, true⟩ = .err (.invalidFrame a b) := by
  refine ⟨fun f h => (by cases h), ?_⟩
  obtain ⟨oc, tf⟩ := cfg
  cases oc <;> cases tf <;> exact ⟨_, _, by with_unfolding_all rfl⟩

set_option maxRecDepth 20000 in
/-- C116 fails for the annotated outputs: the wireless telegram without a payload that ends with the CRC of
its first ten bytes is annotated, and refused by the decoding. -/
theorem C116_annotated_fails (cfg : Cfg) (env : FrontEnv) (aes : AesBlock) :
    ∃ data, (∃ f, WirelessTelegram data f) ∧
      (∃ text, renderBytes cfg env aes data .annotatedText ⟨⟨none, true⟩, none⟩ = .ok text) ∧
      ∃ a b, decodeBytes cfg aes data ⟨none, true⟩ = .err (.invalidFrame a b) := by
  obtain ⟨oc, tf⟩ := cfg
  refine ⟨[0x0B, 0x44, 0x93, 0x15, 0x78, 0x56, 0x34, 0x12, 0x33, 0x03, 0x26, 0xE7],
    ⟨_, (C12_wireless_accepts_exactly_telegrams _ _).1 (by with_unfolding_all rfl)⟩, ?_, ?_⟩
  · cases oc <;> cases tf <;> exact ⟨_, by with_unfolding_all rfl⟩
  · cases oc <;> cases tf <;> exact ⟨_, _, by with_unfolding_all rfl⟩

set_option maxRecDepth 20000 in
/-- C100 fails for checksums: a wireless telegram without Format A checksums, whose length field says so and
whose reading (five litres) is plain, is taken for one with checksums if its first payload bytes happen to be
the CRC of the header; the reading is lost. -/
theorem C100_fails_format_a (cfg : Cfg) (aes : AesBlock) :
    ∃ data f, WirelessTelegram data f ∧ data.head? = some (UInt8.ofNat (data.length - 1)) ∧
      f.data = [0x78, 0x01, 0x13, 0x05] ∧ ClearData f.data [0x01, 0x13, 0x05] ∧
      (parseDataRecords cfg false [0x01, 0x13, 0x05]).length = 1 ∧
      ∃ o, decodeBytes cfg aes data ⟨none, true⟩ = .ok o ∧ o.records.length = 0 ∧
        o.raw.payloadHex = some "1305".toList := by
  obtain ⟨oc, tf⟩ := cfg
  refine ⟨[0x0D, 0x44, 0x93, 0x15, 0x21, 0x47, 0x15, 0x12, 0x33, 0x03, 0x78, 0x01, 0x13, 0x05], _,
    (C12_wireless_accepts_exactly_telegrams _ _).1 (by with_unfolding_all rfl), by decide, rfl, .noTpl _, ?_,
    checked _ (fun o : DecodedOutput => _) ?_⟩
  · cases oc <;> cases tf <;> with_unfolding_all rfl
  · cases oc <;> cases tf <;> with_unfolding_all rfl

/-! ## C117 -/

/-- C117 is false: a telegram with an unencrypted record whose VIF is 7D crashes the decoding and every
output format, in every build. -/
theorem C117_fails (cfg : Cfg) (env : FrontEnv) (aes : AesBlock) :
    ∃ data, ∀ format, renderBytes cfg env aes data format ⟨⟨none, true⟩, none⟩ = .panic := by
  obtain ⟨oc, tf⟩ := cfg
  refine ⟨olderWired 0 [0x01, 0x7D, 0x00], fun format => ?_⟩
  cases format <;> cases oc <;> cases tf <;> with_unfolding_all rfl

theorem read_crashed (cfg : Cfg) (s : Option DataRecords) :
    readOutcome cfg s = .crashed ↔ ∃ r, s = some r ∧ .panic ∈ r.collect cfg := by
  unfold readOutcome
  cases s <;> simp

theorem attached_variable (blk : UserDataBlock) (s : DataRecords) (h : blk.attachedRecords = some s) :
    s = DataRecords.new (variableData blk) false := by
  cases blk <;> simp [UserDataBlock.attachedRecords, variableData] at h ⊢ <;> exact h.symm

/-- Unless only the extended link layer encrypts, the decryption of both outputs is that of the user data. -/
theorem prepare_decrypts (aes : AesBlock) (blk : UserDataBlock) (link : Option ManufacturerId) (k out : List UInt8)
    (h : userDataIsEncrypted (some blk) = true) :
    prepareSecurity aes (some blk) link (some k) out =
      match decryptUserData aes blk link k out with
      | (.ok len, out) =>
        match sliceTo? out len with
        | some plain => .ok ⟨true, (securityFields (some blk)).2.1, (securityFields (some blk)).2.2, true, true,
            some plain⟩
        | none => .err (.decryption "security.decryption_failed".toList .decryptionFailed)
      | (.err e, _) => .err (.decryption (securityCode e) e)
      | (.panic, _) => .panic := by
  have hc : ¬ ((securityFields (some blk)).1 = true ∧ (securityFields (some blk)).2.1 = none) := by
    rintro ⟨h1, h2⟩
    rw [ell_clear _ h1 h2] at h
    cases h
  have he := (encrypted_same _ hc).symm.trans h
  unfold prepareSecurity
  rcases hs : securityFields (some blk) with ⟨enc, mode, ell⟩
  rw [hs] at hc he
  simp only at hc he
  subst he
  simp only
  rw [if_neg (by rintro ⟨-, h2⟩; exact hc ⟨rfl, by simpa using h2⟩)]
  rcases decryptUserData aes blk link k out with ⟨r, o⟩
  cases r <;> rfl

theorem prepare_no_panic (aes : AesBlock) (userData : Option UserDataBlock) (link : Option ManufacturerId)
    (key : Option (List UInt8)) (out : List UInt8) : prepareSecurity aes userData link key out ≠ .panic := by
  by_cases hf : (securityFields userData).1 = true
  · cases userData with
    | none => cases hf
    | some blk =>
      cases key with
      | none => rw [prepareSecurity_no_key]; simp
      | some k =>
        by_cases he : userDataIsEncrypted (some blk) = true
        · rw [prepare_decrypts _ _ _ _ _ he]
          have h1 := decrypt_same aes blk link k out he
          have h2 := (decryptWithKey_key aes k blk link out).1
          rw [h1] at h2
          rcases hd : decryptUserData aes blk link k out with ⟨r, o⟩
          rw [hd] at h2
          cases r with
          | ok len => simp only; cases sliceTo? o len <;> simp
          | err e => simp
          | panic => exact absurd rfl h2
        · unfold prepareSecurity
          have hn : (securityFields (some blk)).2.2 = true ∧ (securityFields (some blk)).2.1.isNone = true := by
            cases blk with
            | short ell header block =>
              simp only [securityFields] at hf ⊢
              split at hf
              · rename_i hx; rw [if_pos hx]; simp
              · rename_i hx; exact absurd hf he
            | long ell header block => exact absurd hf he
            | _ => cases hf
          rcases hs : securityFields (some blk) with ⟨enc, mode, ell⟩
          rw [hs] at hf hn
          simp only at hf hn
          subst hf
          simp only
          rw [if_pos hn]
          simp
  · rw [prepareSecurity_clear _ _ _ _ _ (by simpa using hf)]; simp

/-- The crashes of the end of a decoding. -/
theorem end_crashed {F : Type} (cfg : Cfg) (aes : AesBlock) (haes : BlockSized aes) (m : MbusData F)
    (payload : List UInt8) (blk : UserDataBlock) (hl : payload.length ≤ 256) (hb : Block payload blk)
    (hu : m.userData = some blk) (hr : m.dataRecords = blk.attachedRecords) (link : Option ManufacturerId)
    (hid : ∀ id, link = some id → id.identificationNumber < 2 ^ 32) (key : Option (List UInt8)) :
    endOutcome cfg m (prepareSecurity aes m.userData link key (List.replicate 512 0)) = .crashed ↔
      ∃ d lsb, ReadAs aes key link blk d lsb ∧ .panic ∈ parseDataRecords cfg lsb d := by
  have hvl : (variableData blk).length ≤ 512 := by
    by_cases hv : variableData blk = []
    · simp [hv]
    · obtain ⟨header, rfl, _⟩ := block_header hb hv
      simp at hl; omega
  have hmode : ∀ k plain, Recovered aes k link blk plain → userDataIsEncrypted (some blk) = true := by
    intro k plain h
    cases h with
    | long ell h block code iv _ _ h2 _ =>
      exact (not_encrypted_mode _).2 (by rcases h2 with h2 | h2 <;> omega)
    | short ell h block id iv _ _ h2 _ =>
      exact (not_encrypted_mode _).2 (by rcases h2 with h2 | h2 <;> omega)
  by_cases hs : Secured blk
  · have hf := (secured_iff blk).1 hs
    have hiff := fun k hk => decryptWithKey_iff aes haes k hk blk link (List.replicate 512 0)
      (by rw [List.length_replicate]; exact hvl) (blockNumber_lt hb) hid
    rw [hu]
    constructor
    · intro h
      cases hc : prepareSecurity aes (some blk) link key (List.replicate 512 0) with
      | err e => rw [hc] at h; cases h
      | panic => exact absurd hc (prepare_no_panic _ _ _ _ _)
      | ok c =>
        rw [hc] at h
        obtain ⟨r, h1, h2⟩ := (read_crashed _ _).1 h
        obtain ⟨c1, -, -, c2, c3⟩ := context _ _ _ _ _ _ hc
        cases hdec : c.decrypted with
        | false =>
          simp only [recordsToShow, (c2 hdec).1, c1, hf, if_true] at h1
          cases h1
        | true =>
          obtain ⟨-, henc, k, blk', len, out, plain, rfl, hblk, hd, hsl, hp⟩ := c3 hdec
          cases hblk
          simp only [recordsToShow, hp, hu] at h1
          have hw := decrypt_same aes blk link k (List.replicate 512 0) henc
          rw [hd] at hw
          have hk : k.length = 16 :=
            (decryptWithKey_key aes k blk link (List.replicate 512 0)).2 len (by rw [hw]; rfl)
          obtain ⟨plain', hrec, -, -, hs'⟩ := (hiff k hk).1 len out hw
          rw [hsl] at hs'
          cases hs'
          refine ⟨plain, lsbOf blk, .decrypted blk k plain rfl hk hrec, ?_⟩
          cases hrec <;> · cases h1; exact h2
    · rintro ⟨d, lsb, hra, hp⟩
      cases hra with
      | clear hn => exact absurd hs hn
      | decrypted k _ hkey hk hrec =>
        subst hkey
        have henc := hmode k d hrec
        obtain ⟨out, hd, hsl⟩ := (hiff k hk).2 d hrec
        have hw := decrypt_same aes blk link k (List.replicate 512 0) henc
        rw [hd] at hw
        rw [prepare_decrypts _ _ _ _ _ henc]
        rcases hd' : decryptUserData aes blk link k (List.replicate 512 0) with ⟨r, out'⟩
        rw [hd'] at hw
        cases r with
        | panic => simp [Res.mapErr] at hw
        | err e => simp [Res.mapErr] at hw
        | ok len =>
          simp only [Res.mapErr, Prod.mk.injEq, Res.ok.injEq] at hw
          obtain ⟨rfl, rfl⟩ := hw
          simp only [hsl, endOutcome, recordsToShow, hu]
          rw [read_crashed]
          refine ⟨DataRecords.new d (lsbOf blk), ?_, hp⟩
          cases hrec <;> rfl
  · have hf : (securityFields (some blk)).1 = false := by rw [secured_iff] at hs; simpa using hs
    rw [prepareSecurity_clear _ _ _ _ _ (by rw [hu]; exact hf)]
    simp only [endOutcome, recordsToShow, Bool.false_eq_true, if_false, read_crashed, hr]
    constructor
    · rintro ⟨r, h1, h2⟩
      cases attached_variable _ _ h1
      exact ⟨_, false, .clear blk hs, h2⟩
    · rintro ⟨d, lsb, hra, hp⟩
      have hnil : parseDataRecords cfg false [] = [] := (C27_items cfg false [] []).2 .nil
      cases hra with
      | clear =>
        refine ⟨DataRecords.new (variableData blk) false, ?_, hp⟩
        cases blk with
        | reset x => rw [show variableData (.reset x) = [] from rfl, hnil] at hp; cases hp
        | fixed => simp only [variableData, hnil] at hp; cases hp
        | _ => rfl
      | decrypted k _ _ _ hrec =>
        exfalso
        apply hs
        have := hmode k d hrec
        cases hrec with
        | long ell h block => simpa [Secured, userDataIsEncrypted, LongTplHeader.isEncrypted] using this
        | short ell h block =>
          exact .inl (by simpa [userDataIsEncrypted, ShortTplHeader.isEncrypted] using this)

theorem payload_crashed {ε F : Type} (cfg : Cfg) (aes : AesBlock) (haes : BlockSized aes) (frame : F)
    (m : MbusData F) (payload : List UInt8) (hl : payload.length ≤ 256)
    (hm : (MbusData.ofPayload frame payload : Res ε _) = .ok m) (link : Option ManufacturerId)
    (hid : ∀ id, link = some id → id.identificationNumber < 2 ^ 32) (key : Option (List UInt8)) :
    endOutcome cfg m (prepareSecurity aes m.userData link key (List.replicate 512 0)) = .crashed ↔
      ∃ blk d lsb, Block payload blk ∧ ReadAs aes key link blk d lsb ∧ .panic ∈ parseDataRecords cfg lsb d := by
  unfold MbusData.ofPayload at hm
  cases hx : UserDataBlock.tryFrom payload with
  | panic => rw [hx] at hm; cases hm
  | err e =>
    rw [hx] at hm
    cases hm
    constructor
    · intro h
      rw [prepareSecurity_clear _ _ _ _ _ rfl] at h
      simp [endOutcome, recordsToShow, read_none] at h
    · rintro ⟨blk, d, lsb, hb, -⟩
      rw [← C32_accepts_iff, hx] at hb
      cases hb
  | ok blk =>
    rw [hx] at hm
    cases hm
    have hb := (C32_accepts_iff _ _).1 hx
    rw [end_crashed cfg aes haes _ payload blk hl hb rfl rfl link hid key]
    constructor
    · rintro ⟨d, lsb, h⟩
      exact ⟨blk, d, lsb, hb, h⟩
    · rintro ⟨blk', d, lsb, hb', h⟩
      rw [← C32_accepts_iff, hx] at hb'
      cases hb'
      exact ⟨d, lsb, h⟩

theorem wired_unique {data : List UInt8} {g g' : WiredFrame} (h : WiredTelegram data g)
    (h' : WiredTelegram data g') : g = g' := by
  rw [← C01_wired_accepts_exactly_telegrams cfgRelease] at h h'
  rw [h] at h'
  cases h'
  rfl

theorem wireless_unique {data : List UInt8} {f f' : WirelessFrame} (h : WirelessTelegram data f)
    (h' : WirelessTelegram data f') : f = f' := by
  rw [← C12_wireless_accepts_exactly_telegrams] at h h'
  rw [h] at h'
  cases h'
  rfl

/-- C117, what crashes the decoding: bytes that crash the wired parser, or a record among the bytes that are
read as records, which are the variable data of the telegram or what they decrypt to. -/
theorem C117_decode_iff (cfg : Cfg) (aes : AesBlock) (haes : BlockSized aes) (data : List UInt8)
    (options : DecodeOptions) :
    decodeBytes cfg aes data options = .panic ↔ WiredFrame.tryFrom cfg data = .panic ∨
      ∃ link payload blk d lsb, Telegram data link payload ∧ Block payload blk ∧
        ReadAs aes options.key link blk d lsb ∧ .panic ∈ parseDataRecords cfg lsb d := by
  have crashed : decodeBytes cfg aes data options = .panic ↔
      outcome (decodeBytes cfg aes data options) = .crashed := by
    cases decodeBytes cfg aes data options <;> simp [outcome]
  by_cases hw : WiredFrame.tryFrom cfg data = .panic
  · have hne : data ≠ [] := by rintro rfl; rw [WiredFrame.tryFrom] at hw; cases hw
    have : decodeBytes cfg aes data options = .panic := by
      unfold decodeBytes
      rw [if_neg hne, (C37_frame_delivered_wired cfg data).2.1.2 hw]
    simp [this, hw]
  rw [crashed]
  have hd := decoding cfg aes data options
  generalize decodeBytes cfg aes data options = r at hd
  cases hd with
  | empty h =>
    subst h
    simp only [outcome, reduceCtorEq, false_iff, not_or]
    refine ⟨by rw [WiredFrame.tryFrom]; simp, ?_⟩
    rintro ⟨link, payload, blk, d, lsb, ht, -⟩
    cases ht with
    | wired fn address _ h => exact wired_nonempty h rfl
    | wireless f frame h1 h2 h3 =>
      cases h2 with
      | stripped _ h => simp at h
      | asIs => cases h3
  | crash h => simp [outcome, h]
  | wired g m h1 h2 h3 h4 =>
    have hx := (C01_wired_accepts_exactly_telegrams cfg data g).2 h2
    rw [finish_outcome _ _ _ _ _ _ _ _ _ (wired_carried cfg data m h4), hx]
    simp only [reduceCtorEq, false_or]
    have only : ∀ link payload, Telegram data link payload → link = none ∧ ∃ fn address, g = .longFrame fn address payload := by
      intro link payload ht
      cases ht with
      | wired fn address _ h => exact ⟨rfl, fn, address, wired_unique h2 h⟩
      | wireless f frame h => exact absurd h2 (h g)
    unfold MbusData.tryFromWired at h4
    rw [hx, Res.bind_ok] at h4
    have short : (∀ fn address payload, g ≠ .longFrame fn address payload) →
        m.userData = none → m.dataRecords = none →
        (endOutcome cfg m (prepareSecurity aes m.userData none options.key (List.replicate 512 0)) = .crashed ↔
      ∃ link payload blk d lsb, Telegram data link payload ∧ Block payload blk ∧
        ReadAs aes options.key link blk d lsb ∧ .panic ∈ parseDataRecords cfg lsb d) := by
      intro hn hu hr
      constructor
      · intro h
        rw [hu, prepareSecurity_clear _ _ _ _ _ rfl] at h
        simp [endOutcome, recordsToShow, hr, read_none] at h
      · rintro ⟨link, payload, blk, d, lsb, ht, -⟩
        obtain ⟨-, fn, address, hg⟩ := only _ _ ht
        exact absurd hg (hn _ _ _)
    cases g with
    | longFrame fn address payload =>
      simp only at h4
      have hl : payload.length ≤ 256 := by
        cases h2 with
        | long x c a _ fn _ _ hl => omega
      rw [payload_crashed cfg aes haes _ m payload hl h4 none (by simp) options.key]
      constructor
      · rintro ⟨blk, d, lsb, h⟩
        exact ⟨none, payload, blk, d, lsb, .wired fn address payload h2, h⟩
      · rintro ⟨link, payload', blk, d, lsb, ht, h⟩
        obtain ⟨rfl, fn', address', hg⟩ := only _ _ ht
        cases hg
        exact ⟨blk, d, lsb, h⟩
    | _ => cases h4; exact short (by simp) rfl rfl
  | wireless f m frame h1 h2 h3 h4 h5 h6 =>
    obtain ⟨hc, hid⟩ := wireless_carried frame m h6
    rw [finish_outcome _ _ _ _ _ _ _ _ _ hc]
    have only : ∀ link payload, Telegram data link payload → link = some f.manufacturerId ∧ payload = f.data := by
      intro link payload ht
      cases ht with
      | wired fn address _ h => exact absurd h (h2 _)
      | wireless f' frame' g1 g2 g3 =>
        cases normalized_unique h3 g2
        cases wireless_unique h4 g3
        exact ⟨rfl, rfl⟩
    have hx := (C12_wireless_accepts_exactly_telegrams frame f).2 h4
    unfold MbusData.tryFromWireless at h6
    rw [hx, Res.bind_ok] at h6
    have hl : f.data.length ≤ 256 := by
      obtain ⟨link, crc, _, g2, _, g3, _, g4⟩ := wireless_parts h4
      have := congrArg List.length g2
      simp only [List.length_append] at this
      omega
    subst h5
    rw [payload_crashed cfg aes haes _ m _ hl h6 (some m.frame.manufacturerId) (by simpa using hid) options.key]
    simp only [hw, false_or]
    constructor
    · rintro ⟨blk, d, lsb, h⟩
      exact ⟨_, _, blk, d, lsb, .wireless m.frame frame h2 h3 h4, h⟩
    · rintro ⟨link, payload', blk, d, lsb, ht, h⟩
      obtain ⟨rfl, rfl⟩ := only _ _ ht
      exact ⟨blk, d, lsb, h⟩
  | neither a b frame h1 h2 h3 h4 h5 =>
    simp only [outcome, h5, false_or, reduceCtorEq, false_iff]
    rintro ⟨link, payload, blk, d, lsb, ht, -⟩
    cases ht with
    | wired fn address _ h => exact h2 _ h
    | wireless f frame' g1 g2 g3 =>
      cases normalized_unique h3 g2
      exact h4 _ g3

/-- The two causes: a wired telegram that is too short, in builds with overflow checks, and a record with the
VIF 7D. -/
example : WiredFrame.tryFrom ⟨true, false⟩ [0x68, 0, 0, 0x68] = .panic ∧
    ∀ aes : AesBlock, ∃ payload blk d, Telegram (olderWired 0 [0x01, 0x7D, 0x00]) none payload ∧ Block payload blk ∧
      ReadAs aes none none blk d false ∧ .panic ∈ parseDataRecords cfgRelease false d := by
  refine ⟨by decide +kernel, fun aes => ?_⟩
  obtain ⟨fn, address, payload, h1, h2⟩ : WiredBlock (olderWired 0 [0x01, 0x7D, 0x00]) _ :=
    wired_block_of (by with_unfolding_all rfl) (by with_unfolding_all rfl)
  refine ⟨payload, _, [0x01, 0x7D, 0x00], .wired fn address payload h1, h2, .clear _ ?_, ?_⟩
  · rw [secured_iff]; decide +kernel
  · rw [parseDataRecords]; decide +kernel

theorem items_crash (cfg : Cfg) (lsb : Bool) (d : List UInt8) (h : .panic ∈ parseDataRecords cfg lsb d) :
    ∃ x, x <:+ d ∧ DataRecord.parse cfg lsb x = .panic := by
  have hi := (C27_items cfg lsb d _).1 rfl
  generalize parseDataRecords cfg lsb d = items at h hi
  induction hi with
  | nil => cases h
  | skip b data items _ _ ih =>
    obtain ⟨x, h1, h2⟩ := ih h
    exact ⟨x, h1.trans (List.suffix_cons _ _), h2⟩
  | record b data rest r items _ _ he _ _ ih =>
    obtain ⟨x, h1, h2⟩ := ih (by simpa using h)
    exact ⟨x, he ▸ h1.trans (List.suffix_append _ _), h2⟩
  | fail b data _ hf => exact ⟨b :: data, List.suffix_rfl, (List.mem_singleton.1 h).symm⟩

theorem telegram_infix {data : List UInt8} {link : Option ManufacturerId} {payload : List UInt8}
    (h : Telegram data link payload) : payload <:+: data ∨ ∃ frame, Normalized data frame ∧ payload <:+: frame := by
  cases h with
  | wired fn address _ h =>
    left
    cases h with
    | long x c a _ _ _ _ _ =>
      refine ⟨[0x68, UInt8.ofNat (payload.length + 2), UInt8.ofNat (payload.length + 2), x, c, a],
        [checksum (c :: a :: payload), 0x16], ?_⟩
      simp [longFrameBytes]
  | wireless f frame h1 h2 h3 =>
    obtain ⟨l, crc, _, g2, _⟩ := wireless_parts h3
    exact .inr ⟨frame, h2, l, crc, g2.symm⟩

theorem annotate_crashed (cfg : Cfg) (dt : Data → List Char) (data : List UInt8)
    (h : annotateFrame cfg dt data = .panic) :
    WiredFrame.tryFrom cfg data = .panic ∨ ∃ x, Inside data x ∧ DataRecord.parse cfg false x = .panic := by
  rcases C98_panics_only cfg dt data h with h | ⟨x, h1, h2⟩ | ⟨frame, buffer, x, h1, h2, h3⟩
  · exact .inl h
  · exact .inr ⟨x, .inl h1, h2⟩
  · obtain ⟨frame', hn⟩ := normalized_exists data
    obtain ⟨r, b, hs, hr⟩ := normalized_strip data frame' hn
    rw [h1] at hs
    cases hs
    cases hr
    exact .inr ⟨x, .inr ⟨_, hn, h2⟩, h3⟩

/-- The bytes of a decrypted view are those of the telegram with the decrypted data, and the wired parser
does not crash on them. -/
theorem revealed_of (cfg : Cfg) (aes : AesBlock) (haes : BlockSized aes) (k data shown : List UInt8)
    (h : decryptedHexview cfg aes k data = .ok shown) :
    Revealed aes k data shown ∧ WiredFrame.tryFrom cfg shown ≠ .panic := by
  unfold decryptedHexview at h
  split at h
  · rename_i d hd
    cases h
    obtain ⟨-, x, c, a, fn, header, blk, plain, h1, h2, h3, h4, h5, rfl, rfl⟩ := (C55_wired_iff cfg aes haes k data _).1 hd
    refine ⟨.wired x c a header plain blk h4 h5, fun hp => ?_⟩
    have := (C04_wired_panics_iff cfg _).1 hp
    simp only [longFrameBytes, List.length_append, List.length_cons, List.length_nil] at this
    omega
  · cases h
  · obtain ⟨-, frame, f, header, blk, plain, h1, h2, h3, h4, h5, rfl⟩ := (C56_wireless_iff aes haes k data _).1 h
    refine ⟨.wireless data frame plain f blk h1 h2 h4 h5, fun hp => ?_⟩
    have := (C04_wired_panics_iff cfg _).1 hp
    obtain ⟨link, crc, g1, g2, -⟩ := wireless_parts h2
    have hl := congrArg List.length g2
    have hv := congrArg List.length h3
    simp only [List.length_append, List.length_take] at this hl hv
    omega

/-- C117, what holds of it: no format crashes unless the bytes crash the wired parser, or bytes of the
telegram, of the telegram without its checksums, of what it decrypts to, or of the telegram with the decrypted
data in place of the encrypted ones crash the record parser. -/
theorem C117_rendering_partial (cfg : Cfg) (env : FrontEnv) (aes : AesBlock) (haes : BlockSized aes)
    (data : List UInt8) (options : RenderOptions) (format : OutputFormat)
    (h : renderBytes cfg env aes data format options = .panic) :
    CrashCause cfg aes options.decode.key data := by
  have decode : outcome (decodeBytes cfg aes data options.decode) = .crashed →
      CrashCause cfg aes options.decode.key data := by
    intro h
    replace h : decodeBytes cfg aes data options.decode = .panic := by
      cases hd : decodeBytes cfg aes data options.decode <;> rw [hd] at h <;> first | rfl | cases h
    rcases (C117_decode_iff cfg aes haes data options.decode).1 h with h | ⟨link, payload, blk, d, lsb, h1, h2, h3, h4⟩
    · exact Or.inl h
    · right
      obtain ⟨x, hx, hp⟩ := items_crash cfg lsb d h4
      refine ⟨lsb, x, hp, ?_⟩
      cases h3 with
      | clear =>
        have hv : variableData blk <:+ payload := by
          by_cases hv : variableData blk = []
          · rw [hv]; exact List.nil_suffix
          · obtain ⟨header, he, _⟩ := block_header h2 hv
            exact he ▸ List.suffix_append _ _
        have hi := (hx.trans hv).isInfix
        rcases telegram_infix h1 with h | ⟨frame, h, h'⟩
        · exact .inl (.inl (hi.trans h))
        · exact .inl (.inr ⟨frame, h, hi.trans h'⟩)
      | decrypted k _ hkey hk hrec => exact .inr (.inl ⟨link, payload, blk, k, d, h1, h2, hkey, hrec, hx.isInfix⟩)
  have structured : ∀ format, (renderBytes cfg env aes data format options =
      (decodeBytes cfg aes data options.decode).mapErr OutputError.failure >>=
        renderDecoded env format options.tableWidth) →
      (∀ o, renderDecoded env format options.tableWidth o ≠ .panic) →
      renderBytes cfg env aes data format options = .panic → CrashCause cfg aes options.decode.key data := by
    intro format h1 h2 h3
    rw [h1] at h3
    apply decode
    cases hd : decodeBytes cfg aes data options.decode with
    | panic => rfl
    | err e => rw [hd] at h3; cases h3
    | ok o => rw [hd] at h3; exact absurd h3 (h2 o)
  have annotated : annotateFrame cfg env.dataText data = .panic → CrashCause cfg aes options.decode.key data := by
    intro h
    rcases annotate_crashed cfg env.dataText data h with h | ⟨x, h1, h2⟩
    · exact .inl h
    · exact .inr ⟨false, x, h2, .inl h1⟩
  cases format with
  | json => exact structured _ rfl (fun o => by simp [renderDecoded]) h
  | yaml => exact structured _ rfl (fun o => by simp only [renderDecoded]; cases env.yaml o <;> simp) h
  | csv => exact structured _ rfl (fun o => by simp only [renderDecoded]; cases renderCsv env.text o <;> simp) h
  | table =>
    exact structured _ rfl (fun o => by
      simp only [renderDecoded]; cases renderTable env.text o (options.tableWidth.getD 100) <;> simp) h
  | mermaid => exact structured _ rfl (fun o => by simp [renderDecoded]) h
  | annotatedText =>
    apply annotated
    rw [← (C103_rejects cfg env.dataText data).2]
    simp only [renderBytes] at h
    cases hv : annotateAndRender cfg env.dataText data <;> rw [hv] at h <;> first | rfl | cases h
  | annotated =>
    replace h : annotatedView cfg env.dataText aes data options.decode.key = .panic := by
      simp only [renderBytes] at h
      cases hv : annotatedView cfg env.dataText aes data options.decode.key <;> rw [hv] at h <;>
        first | rfl | cases h
    unfold annotatedView at h
    rw [Res.bind_eq_panic] at h
    rcases h with h | ⟨segs, -, h⟩
    · exact annotated h
    cases hk : options.decode.key with
    | none => rw [hk] at h; cases h
    | some k =>
      simp only [hk] at h
      cases hd : decryptedHexview cfg aes k data with
      | err e => rw [hd] at h; cases h
      | panic =>
        left
        unfold decryptedHexview at hd
        split at hd
        · cases hd
        · exact decryptedWired_panic cfg aes k data (by assumption)
        · exact absurd hd (decryptedWireless_no_panic aes k data)
      | ok shown =>
        rw [hd] at h
        obtain ⟨hr, hp⟩ := revealed_of cfg aes haes k data shown hd
        simp only [decryptedView] at h
        rw [Res.bind_eq_panic] at h
        rcases h with h | ⟨inner, -, h⟩
        · rcases annotate_crashed cfg env.dataText shown h with h | ⟨x, h1, h2⟩
          · exact absurd h hp
          · exact .inr ⟨false, x, h2, .inr (.inr ⟨k, shown, rfl, hr, h1⟩)⟩
        · rw [Res.bind_eq_panic] at h
          rcases h with h | ⟨out, -, h⟩
          · rw [mapErr_panic_iff] at h
            obtain ⟨x, h1, h2⟩ := replace_panic cfg env.dataText shown inner h
            exact .inr ⟨false, x, h2, .inr (.inr ⟨k, shown, rfl, hr, .inl h1⟩)⟩
          · cases h
  | xml =>
    have ho : outcome (renderBytes cfg env aes data .xml options) = .crashed := by rw [h]; rfl
    by_cases hw : ∃ g, WiredTelegram data g
    · obtain ⟨g, hg⟩ := hw
      by_cases hb : ∃ ell header block, WiredBlock data (.long ell header block)
      · obtain ⟨ell, header, block, hb⟩ := hb
        by_cases hk : ¬ Secured (.long ell header block) ∨ options.decode.key ≠ none
        · exact decode (by rw [← C116_xml_long cfg env aes data options ell header block hb hk]; exact ho)
        · simp only [not_or, Classical.not_not] at hk
          rw [(C116_xml_encrypted cfg env aes data options ell header block hb hk.1 hk.2).2] at ho
          split at ho
          · rename_i hp
            obtain ⟨x, hx, hp⟩ := items_crash cfg false block hp
            obtain ⟨fn, address, payload, h1, h2⟩ := hb
            refine .inr ⟨false, x, hp, ?_⟩
            have hv : block <:+ payload := by
              by_cases hv : block = []
              · rw [hv]; exact List.nil_suffix
              · obtain ⟨header, he, _⟩ := block_header h2 hv
                exact he ▸ List.suffix_append _ _
            have hi := (hx.trans hv).isInfix
            rcases telegram_infix (.wired fn address payload h1) with h | ⟨frame, h, h'⟩
            · exact .inl (.inl (hi.trans h))
            · exact .inl (.inr ⟨frame, h, hi.trans h'⟩)
          · cases ho
      · by_cases hfx : ∃ a b c d e f, WiredBlock data (.fixed a b c d e f)
        · obtain ⟨a, b, c, d, e, f, hfx⟩ := hfx
          rw [(C116_xml_fixed cfg env aes data options a b c d e f hfx).1] at ho
          cases ho
        · rw [C116_xml_other cfg env aes data options g hg] at h
          · cases h
          · intro blk hblk
            exact ⟨fun ell header block he => hb ⟨ell, header, block, he ▸ hblk⟩,
              fun a b c d e f he => hfx ⟨a, b, c, d, e, f, he ▸ hblk⟩⟩
    · exact decode (by rw [← C116_xml_wireless cfg env aes data options (fun g hg => hw ⟨g, hg⟩)]; exact ho)

end MBus
