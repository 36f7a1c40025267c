import Verif.Spec.Checksums
import Verif.Props.Damage
import Verif.Props.Json
import Verif.Props.CsvText
import Mathlib.Tactic.IntervalCases
import Verif.Props.Messages
/-!
# C151: checksums of radio telegrams make no difference
-/
namespace MBus
open MBus.Spec

theorem fixL_telegram {frame : List UInt8} {f : WirelessFrame} (h : WirelessTelegram frame f) : fixL frame = frame := by
  obtain ⟨h11, l, rest, rfl, hl⟩ := wireless_length h
  simp only [List.length_cons, Nat.add_right_cancel_iff] at hl
  simp [fixL, ← hl]

theorem not_wired_err (cfg : Cfg) (data : List UInt8) (h11 : 11 ≤ data.length) (h : ∀ g, ¬ WiredTelegram data g) :
    ∃ e, MbusData.tryFromWired cfg data = .err e := by
  unfold MbusData.tryFromWired
  cases hw : WiredFrame.tryFrom cfg data with
  | ok g => exact absurd ((C01_wired_accepts_exactly_telegrams cfg _ _).1 hw) (h g)
  | err e => exact ⟨e, rfl⟩
  | panic => have := ((C04_wired_panics_iff cfg data).1 hw).2.2; omega

/-- What both forms of a telegram are taken for. -/
theorem strip_both {frame sent : List UInt8} {f : WirelessFrame} (hw : WirelessTelegram frame f) (ha : FormatA frame sent)
    (hb : ¬ BlockAt frame 10) :
    (∃ b, stripFormatACrcs sent (List.replicate 512 0) = .ok (some frame, b)) ∧
      ∃ r b, stripFormatACrcs frame (List.replicate 512 0) = .ok (r, b) ∧ r.getD frame = frame := by
  have hlen : sent.length ≤ 512 := by
    have := formatA_length ha
    obtain ⟨_, l, rest, _, hl⟩ := wireless_length hw
    have := l.toNat_lt
    omega
  constructor
  · obtain ⟨b, hs⟩ := C14_format_a_roundtrip frame sent (List.replicate 512 0) ha (by rw [List.length_replicate]; exact hlen)
    rw [fixL_telegram hw] at hs
    exact ⟨b, hs⟩
  · exact normalized_strip frame frame (.asIs (.inr (.inr hb)))

/-- C151 for the library: the two decoded forms of a telegram differ in the copies of its bytes only. -/
theorem C151_decoded_partial (cfg : Cfg) (aes : AesBlock) (frame sent : List UInt8) (f : WirelessFrame)
    (hw : WirelessTelegram frame f) (ha : FormatA frame sent) (hn : ∀ g, ¬ WiredTelegram frame g)
    (hn' : ∀ g, ¬ WiredTelegram sent g) (hb : ¬ BlockAt frame 10) (options : DecodeOptions) :
    Alike (fun o o' : DecodedOutput => o' = { o with raw := o'.raw }) (decodeBytes cfg aes sent options)
      (decodeBytes cfg aes frame options) := by
  have h11 := (wireless_length hw).1
  have h12 : 12 ≤ sent.length := by
    cases ha with
    | mk head body enc hi lo h10 hc hb => simp; omega
  obtain ⟨e, he⟩ := not_wired_err cfg frame h11 hn
  obtain ⟨e', he'⟩ := not_wired_err cfg sent (by omega) hn'
  obtain ⟨⟨b, hs⟩, r, b', hs', hr⟩ := strip_both hw ha hb
  unfold decodeBytes
  rw [if_neg (by rintro rfl; simp at h12), if_neg (by rintro rfl; simp at h11), he, he', hs, hs']
  simp only [Option.getD_some, hr]
  cases hm : MbusData.tryFromWireless frame with
  | panic => trivial
  | err e =>
    have := ((C37_wireless frame).1 e).1 hm
    rw [(C12_wireless_accepts_exactly_telegrams _ _).2 hw] at this
    cases this
  | ok parsed =>
    simp only
    cases prepareSecurity aes parsed.userData (some parsed.frame.manufacturerId) options.key (List.replicate 512 0) with
    | panic => trivial
    | err e => rfl
    | ok c =>
      simp only [buildOutput]
      cases collectRecords cfg (recordsToShow parsed c) with
      | none => trivial
      | some x => rfl

theorem alike_refl {ε α : Type} {R : α → α → Prop} (hR : ∀ a, R a a) (x : Res ε α) : Alike R x x := by
  cases x with
  | ok a => exact hR a
  | err e => rfl
  | panic => trivial

theorem alike_bind {ε α β : Type} {R : β → β → Prop} (x : Res ε α) (f g : α → Res ε β) (h : ∀ a, Alike R (f a) (g a)) :
    Alike R (x >>= f) (x >>= g) := by
  cases x with
  | ok a => exact h a
  | err e => exact rfl
  | panic => exact trivial

theorem alike_mapErr {ε ε' α : Type} {R : α → α → Prop} (m : ε → ε') (x y : Res ε α) (h : Alike R x y) :
    Alike R (x.mapErr m) (y.mapErr m) := by
  cases x <;> cases y <;> simp_all [Alike, Res.mapErr]

/-- What is alike for bytes is alike for all front ends. -/
theorem answered_alike (cfg : Cfg) (env : CliEnv) (aes : AesBlock) (text text' : List Char) (data data' : List UInt8)
    (hx : Spelled text data) (hx' : Spelled text' data') (format : String) (fmt : OutputFormat)
    (hf : OutputFormat.fromStr format.toList = some fmt) (R : List Char → List Char → Prop)
    (h : ∀ options, Alike R (renderBytes cfg env.front aes data fmt options) (renderBytes cfg env.front aes data' fmt options)) :
    AnsweredAlike cfg env aes text text' format R := by
  have hd := (decode_iff text data).2 hx
  have hd' := (decode_iff text' data').2 hx'
  have hr : ∀ options, Alike R (renderHex cfg env.front aes text fmt options) (renderHex cfg env.front aes text' fmt options) := by
    intro options
    simp only [renderHex, hd, hd', Res.mapErr]
    exact h options
  have hfmt : formatNamed format.toList = .ok fmt := by simp [formatNamed, hf]
  refine ⟨?_, ?_, ?_⟩
  · intro file dat file' dat' key width plain detected hi hi'
    simp only
    rw [cliMain_input hi, cliMain_input hi']
    have hc : Alike R (cliRun cfg env.front aes text ⟨format.toList, key, width, plain, detected⟩)
        (cliRun cfg env.front aes text' ⟨format.toList, key, width, plain, detected⟩) := by
      simp only [cliRun, hfmt]
      cases key with
      | none => exact hr _
      | some k => exact alike_bind (cliKey k) _ _ (fun key => hr _)
    unfold cliRendered
    revert hc
    cases cliRun cfg env.front aes text ⟨format.toList, key, width, plain, detected⟩ <;>
      cases cliRun cfg env.front aes text' ⟨format.toList, key, width, plain, detected⟩ <;>
      simp +contextual [Alike, cliFailed]
  · intro key width enrichment
    simp only [jsRender, hfmt]
    exact alike_bind (jsKey key) _ _ (fun key => hr _)
  · intro key width enrichment
    simp only [pyRender, hfmt, pyBytes, hd, hd', Res.mapErr]
    exact alike_bind _ _ _ (fun key => alike_mapErr _ _ _ (h _))

/-- C151 for the texts that do not repeat the bytes: the answers to both forms of a telegram are the same.  Missing are
telegrams that are taken for ones of the wire, and those without checksums that look as if they had one
(`C151_fails`). -/
theorem C151_texts_partial (cfg : Cfg) (env : CliEnv) (aes : AesBlock) (text text' : List Char) (frame sent : List UInt8)
    (f : WirelessFrame) (hw : WirelessTelegram frame f) (ha : FormatA frame sent) (hn : ∀ g, ¬ WiredTelegram frame g)
    (hn' : ∀ g, ¬ WiredTelegram sent g) (hb : ¬ BlockAt frame 10) (hx : Spelled text sent) (hx' : Spelled text' frame)
    (format : String) (hf : format ∈ bytesFree) : AnsweredAlike cfg env aes text text' format (· = ·) := by
  have hd := C151_decoded_partial cfg aes frame sent f hw ha hn hn' hb
  simp only [bytesFree, List.mem_cons, List.not_mem_nil, or_false] at hf
  have key : ∀ fmt, (∀ width (o o' : DecodedOutput), o' = { o with raw := o'.raw } →
      renderDecoded env.front fmt width o = renderDecoded env.front fmt width o') → ∀ options : RenderOptions,
      Alike (· = ·) ((decodeBytes cfg aes sent options.decode).mapErr OutputError.failure >>=
          renderDecoded env.front fmt options.tableWidth)
        ((decodeBytes cfg aes frame options.decode).mapErr OutputError.failure >>=
          renderDecoded env.front fmt options.tableWidth) := by
    intro fmt hfmt options
    have := hd options.decode
    revert this
    cases decodeBytes cfg aes sent options.decode <;> cases decodeBytes cfg aes frame options.decode <;> intro this <;>
      simp only [Alike] at this
    · simp only [Res.mapErr]
      show Alike _ (renderDecoded _ _ _ _) (renderDecoded _ _ _ _)
      rw [hfmt _ _ _ this]
      exact alike_refl (fun _ => rfl) _
    · subst this; exact rfl
    · exact trivial
  rcases hf with rfl | rfl | rfl
  · exact answered_alike cfg env aes text text' sent frame hx hx' "table" .table (by decide +kernel) _
      (key .table (fun width o o' h => by rw [h]; rfl))
  · exact answered_alike cfg env aes text text' sent frame hx hx' "mermaid" .mermaid (by decide +kernel) _
      (key .mermaid (fun width o o' h => by rw [h]; rfl))
  · refine answered_alike cfg env aes text text' sent frame hx hx' "xml" .xml (by decide +kernel) _ (fun options => ?_)
    have h11 := (wireless_length hw).1
    have h12 : 12 ≤ sent.length := by
      cases ha with
      | mk head body enc hi lo h10 hc hb => simp; omega
    obtain ⟨e, he⟩ := not_wired_err cfg frame h11 hn
    obtain ⟨e', he'⟩ := not_wired_err cfg sent (by omega) hn'
    obtain ⟨⟨b, hs⟩, r, b', hs', hr⟩ := strip_both hw ha hb
    simp only [renderBytes, Xml.renderFromBytes, he, he', hs, hs', Option.getD_some, hr]
    exact alike_refl (fun _ => rfl) _

/-- C151 for the JSON texts: they say the same but for the member `raw`, which repeats the bytes. -/
theorem C151_json_partial (cfg : Cfg) (env : CliEnv) (aes : AesBlock) (text text' : List Char) (frame sent : List UInt8)
    (f : WirelessFrame) (hw : WirelessTelegram frame f) (ha : FormatA frame sent) (hn : ∀ g, ¬ WiredTelegram frame g)
    (hn' : ∀ g, ¬ WiredTelegram sent g) (hb : ¬ BlockAt frame 10) (hx : Spelled text sent) (hx' : Spelled text' frame)
    (henv : ∀ bits, FiniteReal bits → NumberText (env.front.text.realText bits)) :
    AnsweredAlike cfg env aes text text' "json" SameButRaw := by
  refine answered_alike cfg env aes text text' sent frame hx hx' "json" .json (by decide +kernel) _ (fun options => ?_)
  have := C151_decoded_partial cfg aes frame sent f hw ha hn hn' hb options.decode
  simp only [renderBytes]
  cases h1 : decodeBytes cfg aes sent options.decode with
  | ok o =>
    cases h2 : decodeBytes cfg aes frame options.decode with
    | ok o' =>
      rw [h1, h2] at this
      simp only [Alike] at this
      show SameButRaw (renderJson env.front.text o) (renderJson env.front.text o')
      have j1 := (sound_telegram env.front.text henv o (decoded_plain cfg aes sent options.decode o h1))
      have j2 := (sound_telegram env.front.text henv o' (decoded_plain cfg aes frame options.decode o' h2))
      have t1 : JsonText (renderJson env.front.text o) (o.doc env.front.text) :=
        ⟨[], _, [], by simp [renderJson], blank_nil, text_reads j1 true 0, blank_nil⟩
      have t2 : JsonText (renderJson env.front.text o') (o'.doc env.front.text) :=
        ⟨[], _, [], by simp [renderJson], blank_nil, text_reads j2 true 0, blank_nil⟩
      refine ⟨_, _, fun x => ⟨fun h => json_eq h t1, fun h => h ▸ t1⟩, fun x => ⟨fun h => json_eq h t2, fun h => h ▸ t2⟩, ?_⟩
      intro name path hne
      rw [this]
      have hraw : ("raw".toList = name.toList) ↔ False := by
        simp only [iff_false]; intro h; exact hne (String.toList_inj.1 h).symm
      simp only [DecodedOutput.doc, follow, List.find?_append, field, List.find?_cons, List.find?_nil, hraw, decide_false]
    | err e => rw [h1, h2] at this; exact this.elim
    | panic => rw [h1, h2] at this; exact this.elim
  | err e =>
    cases h2 : decodeBytes cfg aes frame options.decode with
    | ok o' => rw [h1, h2] at this; exact this.elim
    | err e' => rw [h1, h2] at this; simp only [Alike] at this; subst this; exact rfl
    | panic => rw [h1, h2] at this; exact this.elim
  | panic =>
    cases h2 : decodeBytes cfg aes frame options.decode with
    | ok o' => rw [h1, h2] at this; exact this.elim
    | err e' => rw [h1, h2] at this; exact this.elim
    | panic => exact trivial

/-- C151 for the CSV texts: they say the same but for the column `frame_hex`, which repeats the bytes. -/
theorem C151_csv_partial (cfg : Cfg) (env : CliEnv) (aes : AesBlock) (text text' : List Char) (frame sent : List UInt8)
    (f : WirelessFrame) (hw : WirelessTelegram frame f) (ha : FormatA frame sent) (hn : ∀ g, ¬ WiredTelegram frame g)
    (hn' : ∀ g, ¬ WiredTelegram sent g) (hb : ¬ BlockAt frame 10) (hx : Spelled text sent) (hx' : Spelled text' frame) :
    AnsweredAlike cfg env aes text text' "csv" SameButFrame := by
  refine answered_alike cfg env aes text text' sent frame hx hx' "csv" .csv (by decide +kernel) _ (fun options => ?_)
  have := C151_decoded_partial cfg aes frame sent f hw ha hn hn' hb options.decode
  simp only [renderBytes]
  revert this
  cases decodeBytes cfg aes sent options.decode <;> cases decodeBytes cfg aes frame options.decode <;> intro this <;>
    simp only [Alike] at this
  · rename_i o o'
    obtain ⟨t, h1, h2⟩ := C113_csv env.front.text o
    obtain ⟨t', h1', h2'⟩ := C113_csv env.front.text o'
    simp only [Res.mapErr]
    show Alike _ (renderDecoded env.front .csv options.tableWidth o) (renderDecoded env.front .csv options.tableWidth o')
    simp only [renderDecoded, h1, h1']
    have hnames : (csvRows env.front.text o').1 = (csvRows env.front.text o).1 := by rw [this]; rfl
    rw [hnames] at h2'
    have l1 := C92_rows env.front.text o
    have l2 := C92_rows env.front.text o'
    refine ⟨_, _, _, h2, h2', by omega, by rw [← hnames]; omega, fun i hi => ?_⟩
    by_cases h17 : i = 17
    · subst h17
      exact absurd rfl hi
    · rw [this]
      by_cases hlt : i < 18
      · interval_cases i <;> first | rfl | exact absurd rfl h17
      · have hr : ∀ x : DecodedOutput, (csvRows env.front.text x).2[i]? =
            (x.records.flatMap (csvRecordValues env.front.text))[i - 18]? := by
          intro x
          exact List.getElem?_append_right (by simp [csvFrameRow]; omega)
        rw [hr, hr]
  · subst this; exact rfl
  · exact trivial

/-- A radio telegram without checksums whose eleventh and twelfth byte happen to be the CRC of the ten before: a meter sends
its serial number. -/
def unlucky : List UInt8 :=
  [0x10, 0x44, 0xE6, 0x1E, 0x77, 0x42, 0x00, 0x10, 0x3C, 0x07, 0x78, 0x0C, 0x78, 0x02, 0x13, 0x05, 0x00]

/-- The same with checksums. -/
def unluckyFramed : List UInt8 :=
  unlucky.take 10 ++ [0x78, 0x0C] ++ ([0x78, 0x0C, 0x78, 0x02, 0x13, 0x05, 0x00] ++ [0x00, 0xA9])

/-- C151 is false: a telegram with checksums is read as sent, a serial number; without them it is read by all front ends as
a volume, which the meter did not send. -/
theorem C151_fails (cfg : Cfg) (env : CliEnv) (aes : AesBlock) (enrichment : Bool)
    (henv : ∀ bits, FiniteReal bits → NumberText (env.front.text.realText bits)) :
    ∃ frame sent f, WirelessTelegram frame f ∧ FormatA frame sent ∧ (∀ g, ¬ WiredTelegram frame g) ∧
      (∀ g, ¬ WiredTelegram sent g) ∧
      ReadEverywhere cfg env aes (hexString sent) none enrichment [⟨0, 0, 0, 0, [0x78], .number 51302⟩] ∧
      ReadEverywhere cfg env aes (hexString frame) none enrichment [⟨0, 0, 0, 0, [0x13], .number 5⟩] := by
  obtain ⟨f, hf, _⟩ := checked (WirelessFrame.tryFrom unlucky) (fun _ => True) (by decide +kernel)
  refine ⟨unlucky, unluckyFramed, f, (C12_wireless_accepts_exactly_telegrams _ _).1 hf, ?_, ?_, ?_, ?_, ?_⟩
  · exact .mk (unlucky.take 10) [0x78, 0x0C, 0x78, 0x02, 0x13, 0x05, 0x00] _ 0x78 0x0C (by decide)
      ((crc16_iff _ _ _).1 (by decide +kernel))
      (.last _ 0x00 0xA9 (by decide) (by decide) ((crc16_iff _ _ _).1 (by decide +kernel)))
  · intro g h
    have := wired_telegram_length _ _ h
    revert this; decide
  · intro g h
    have := wired_telegram_length _ _ h
    revert this; decide
  · have r := Sent.record (bcdBytes := 7) ⟨0, 0, 0, 0, [0x78], .number 51302⟩ 0 12 _ (by decide) (by decide)
      (by decide) (by decide) (by decide) (by decide) (by decide) (.bcd 12 4 51302 (by decide) (by decide))
    exact C133_clear_partial cfg env aes _ unluckyFramed (some ⟨⟨71, 87, 70⟩, 10004277, .waterMeter, 0x3C, false⟩) _ _ none none
      enrichment _ henv ((decode_iff _ _).1 (by decide +kernel)) .none (isWireless_telegram _ _ _ (by decide +kernel))
      (.noTpl _) (.reading _ _ _ _ r .nil) (by decide +kernel)
  · have r := Sent.record (bcdBytes := 7) ⟨0, 0, 0, 0, [0x13], .number 5⟩ 0 2 _ (by decide) (by decide)
      (by decide) (by decide) (by decide) (by decide) (by decide) (.binary 2 2 5 (by decide) (by decide) (by decide))
    exact C133_clear_partial cfg env aes _ unlucky (some ⟨⟨71, 87, 70⟩, 10004277, .waterMeter, 0x3C, false⟩) _ _ none none
      enrichment _ henv ((decode_iff _ _).1 (by decide +kernel)) .none (isWireless_telegram _ _ _ (by decide +kernel))
      (.noTpl _) (.reading _ _ _ _ r .nil) (by decide +kernel)

/-- The telegram of C150 with and without checksums, the latter typed with blanks. -/
example (cfg : Cfg) (env : CliEnv) (aes : AesBlock)
    (henv : ∀ bits, FiniteReal bits → NumberText (env.front.text.realText bits)) :
    let frame := volumeSent.take 10 ++ [0x78, 0x0C, 0x13, 0x35, 0x02, 0x36, 0x00]
    AnsweredAlike cfg env aes (hexString volumeSent) (hexSpaced frame) "xml" (· = ·) ∧
      AnsweredAlike cfg env aes (hexString volumeSent) (hexSpaced frame) "json" SameButRaw ∧
      AnsweredAlike cfg env aes (hexString volumeSent) (hexSpaced frame) "csv" SameButFrame := by
  intro frame
  obtain ⟨f, hf, _⟩ := checked (WirelessFrame.tryFrom frame) (fun _ => True) (by decide +kernel)
  have hw := (C12_wireless_accepts_exactly_telegrams _ _).1 hf
  have hn : ∀ g, ¬ WiredTelegram frame g := by
    intro g h
    have := wired_telegram_length _ _ h
    revert this; decide
  have hn' : ∀ g, ¬ WiredTelegram volumeSent g := by
    intro g h
    have := wired_telegram_length _ _ h
    revert this; decide
  have hb : ¬ BlockAt frame 10 := by
    rw [blockAt_iff]
    rintro ⟨h, l, h1, h2, h3⟩
    cases h1; cases h2
    exact absurd h3 (by decide +kernel)
  have hx := (decode_iff (hexString volumeSent) volumeSent).1 (by decide +kernel)
  have hx' := (decode_iff (hexSpaced frame) frame).1 (by decide +kernel)
  exact ⟨C151_texts_partial cfg env aes _ _ frame volumeSent f hw volume_framed hn hn' hb hx hx' "xml" (by decide),
    C151_json_partial cfg env aes _ _ frame volumeSent f hw volume_framed hn hn' hb hx hx' henv,
    C151_csv_partial cfg env aes _ _ frame volumeSent f hw volume_framed hn hn' hb hx hx'⟩

end MBus
