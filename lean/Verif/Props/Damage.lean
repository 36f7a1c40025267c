import Verif.Spec.Damage
import Verif.Props.SentJson
import Verif.Props.Formats
import Verif.Props.Hexview
import Verif.Props.Legacy
/-!
# C150: damaged telegrams are turned away
-/
namespace MBus
open MBus.Spec

theorem turned_away (cfg : Cfg) (env : CliEnv) (aes : AesBlock) (text : List Char) (data : List UInt8)
    (keyText : Option (List Char)) (key : Option (List UInt8)) (enrichment : Bool) (hx : Spelled text data)
    (hk : KeyGiven keyText key) (hn : ∀ g, ¬ WiredTelegram data g)
    (hw : ∀ frame f, Normalized data frame → ¬ WirelessTelegram frame f) (format : String) (hf : format ∈ showing) :
    TurnedAway cfg env aes text keyText enrichment format := by
  have hd : ∀ o, decodeBytes cfg aes data ⟨key, enrichment⟩ ≠ .ok o := by
    intro o h
    have hd := decoding cfg aes data ⟨key, enrichment⟩
    rw [h] at hd
    generalize hr : Res.ok o = r at hd
    cases hd with
    | empty => cases hr
    | crash => cases hr
    | wired g m _ h1 => exact hn g h1
    | wireless f m frame _ _ h1 h2 => exact hw frame f h1 h2
    | neither => cases hr
  have hb : ∀ fmt width out, fmt ≠ .annotated → fmt ≠ .annotatedText →
      renderBytes cfg env.front aes data fmt ⟨⟨key, enrichment⟩, width⟩ ≠ .ok out := by
    intro fmt width out h1 h2 h
    have key : (∃ o, decodeBytes cfg aes data ⟨key, enrichment⟩ = .ok o) := by
      cases fmt with
      | annotated => exact absurd rfl h1
      | annotatedText => exact absurd rfl h2
      | xml =>
        have := C116_xml_wireless cfg env.front aes data ⟨⟨key, enrichment⟩, width⟩ hn
        rw [h] at this
        simp only at this
        cases hx : decodeBytes cfg aes data ⟨key, enrichment⟩ with
        | ok o => exact ⟨o, rfl⟩
        | err e => rw [hx] at this; cases this
        | panic => rw [hx] at this; cases this
      | _ =>
        simp only [renderBytes] at h
        cases hx : decodeBytes cfg aes data ⟨key, enrichment⟩ with
        | ok o => exact ⟨o, rfl⟩
        | err e => rw [hx] at h; cases h
        | panic => rw [hx] at h; cases h
    obtain ⟨o, ho⟩ := key
    exact hd o ho
  obtain ⟨fmt, hfmt, h1, h2⟩ : ∃ fmt, OutputFormat.fromStr format.toList = some fmt ∧ fmt ≠ .annotated ∧
      fmt ≠ .annotatedText := by
    simp only [showing, List.mem_cons, List.not_mem_nil, or_false] at hf
    rcases hf with rfl | rfl | rfl | rfl | rfl | rfl
    · exact ⟨.table, by decide +kernel, by decide, by decide⟩
    · exact ⟨.json, by decide +kernel, by decide, by decide⟩
    · exact ⟨.yaml, by decide +kernel, by decide, by decide⟩
    · exact ⟨.csv, by decide +kernel, by decide, by decide⟩
    · exact ⟨.mermaid, by decide +kernel, by decide, by decide⟩
    · exact ⟨.xml, by decide +kernel, by decide, by decide⟩
  have hdec := (decode_iff text data).2 hx
  have hr : ∀ width out, renderHex cfg env.front aes text fmt ⟨⟨key, enrichment⟩, width⟩ ≠ .ok out := by
    intro width out
    simp only [renderHex, hdec, Res.mapErr]
    exact hb fmt width out h1 h2
  have hk' : (keyText = none ∧ key = none) ∨ ∃ t k, keyText = some t ∧ key = some k ∧ KeyText t k := by
    cases hk with
    | none => exact .inl ⟨rfl, rfl⟩
    | key t k hkt => exact .inr ⟨t, k, rfl, rfl, hkt⟩
  have hsame := C115_same cfg env.front aes text _ fmt hfmt keyText key hk'
  refine ⟨?_, ?_, ?_⟩
  · intro file data' width detected hi
    have he : cliMain cfg env aes file data' ⟨format.toList, keyText, width, !enrichment, detected⟩ =
        cliRendered cfg env aes text ⟨format.toList, keyText, width, !enrichment, detected⟩ := cliMain_input hi _ _ _
    rw [he]
    unfold cliRendered
    rw [(hsame width detected enrichment).1]
    cases hc : renderHex cfg env.front aes text fmt ⟨⟨key, enrichment⟩, width.or detected⟩ with
    | ok out => exact absurd hc (hr _ _)
    | err e => exact ⟨by simp [cliFailed], rfl⟩
    | panic => exact ⟨by simp, rfl⟩
  · intro width out h
    have := (hsame width none enrichment).2.1
    rw [Option.or_none, h] at this
    exact hr _ _ this.symm
  · intro width out h
    have := (hsame width none enrichment).2.2
    rw [Option.or_none, h] at this
    cases hc : renderHex cfg env.front aes text fmt ⟨⟨key, enrichment⟩, width⟩ with
    | ok out => exact absurd hc (hr _ _)
    | err e => rw [hc] at this; cases this
    | panic => rw [hc] at this; cases this

theorem wireless_length {data : List UInt8} {f : WirelessFrame} (h : WirelessTelegram data f) :
    11 ≤ data.length ∧ ∃ l rest, data = l :: rest ∧ l.toNat + 1 = data.length := by
  cases h with
  | mk l c m0 m1 d0 d1 d2 d3 ver dev ci rest payload i j k fn hl =>
    exact ⟨by simp, _, _, rfl, by simp; omega⟩

theorem not_wireless {data : List UInt8} (hb : ¬ BlockAt data 10) (l : UInt8) (rest : List UInt8) (hd : data = l :: rest)
    (hl : l.toNat + 1 ≠ data.length) (frame : List UInt8) (f : WirelessFrame) (hn : Normalized data frame) :
    ¬ WirelessTelegram frame f := by
  intro h
  cases hn with
  | stripped tail _ _ h' => exact hb h'
  | asIs =>
    obtain ⟨-, l', rest', h1, h2⟩ := wireless_length h
    rw [hd] at h1
    obtain ⟨rfl, rfl⟩ := List.cons.inj h1
    exact hl h2

/-- C150 for the long and control frames of the wire: with one wrong byte the telegram is turned away.  Missing are the
fourth byte, which nobody looks at, the first byte if it becomes `E5` or the length of a radio telegram, telegrams of 105
bytes, and those where the eleventh and twelfth byte received are the CRC of the ten bytes before: these are taken for
other telegrams (`C150_start_fails`, `C150_long_fails`). -/
theorem C150_long_partial (cfg : Cfg) (env : CliEnv) (aes : AesBlock) (text : List Char) (sent received : List UInt8)
    (g : WiredFrame) (hg : WiredTelegram sent g) (h68 : sent[0]? = some 0x68) (i : Nat) (hi : WrongAt i sent received)
    (h3 : i ≠ 3) (hE5 : received[0]? ≠ some 0xE5) (h105 : i ≠ 0 → sent.length ≠ 105)
    (h0 : ∀ l, i = 0 → received[0]? = some l → l.toNat + 1 ≠ sent.length) (hb : ¬ BlockAt received 10)
    (hx : Spelled text received) (keyText : Option (List Char)) (key : Option (List UInt8)) (hk : KeyGiven keyText key)
    (enrichment : Bool) (format : String) (hf : format ∈ showing) :
    TurnedAway cfg env aes text keyText enrichment format := by
  obtain ⟨hlt, v, hv, rfl⟩ := hi
  have hn : ∀ g, ¬ WiredTelegram (sent.set i v) g := by
    intro g' hg'
    have := (C03_wired_long_detects_single_byte_change cfg sent g
      ((C01_wired_accepts_exactly_telegrams cfg _ _).2 hg) h68 i v hlt hv).1
      ⟨g', (C01_wired_accepts_exactly_telegrams cfg _ _).2 hg'⟩
    rcases this with h | ⟨rfl, rfl⟩
    · exact h3 h
    · exact hE5 (by simp [hlt])
  refine turned_away cfg env aes text _ keyText key enrichment hx hk hn (fun frame f hnorm => ?_) format hf
  cases hc : sent.set i v with
  | nil => simp at hc; subst hc; simp at hlt
  | cons l rest =>
    rw [hc] at hb hnorm
    refine not_wireless hb l rest rfl ?_ frame f hnorm
    rw [← hc, List.length_set]
    by_cases hi0 : i = 0
    · exact h0 l hi0 (by rw [hc]; rfl)
    · have : l = 0x68 := by
        have h := congrArg (fun x => x[0]?) hc
        simp only [List.getElem?_cons_zero] at h
        rw [List.getElem?_set_ne hi0, h68] at h
        exact (Option.some.inj h).symm
      subst this
      have := h105 hi0
      intro h
      exact this (by simpa using h.symm)

/-- C150 for the short frames of the wire.  Missing is the first byte if it becomes `E5`. -/
theorem C150_short_partial (cfg : Cfg) (env : CliEnv) (aes : AesBlock) (text : List Char) (sent received : List UInt8)
    (g : WiredFrame) (hg : WiredTelegram sent g) (h10 : sent[0]? = some 0x10) (i : Nat) (hi : WrongAt i sent received)
    (hE5 : received[0]? ≠ some 0xE5)
    (hx : Spelled text received) (keyText : Option (List Char)) (key : Option (List UInt8)) (hk : KeyGiven keyText key)
    (enrichment : Bool) (format : String) (hf : format ∈ showing) :
    TurnedAway cfg env aes text keyText enrichment format := by
  obtain ⟨hlt, v, hv, rfl⟩ := hi
  have hn : ∀ g, ¬ WiredTelegram (sent.set i v) g := by
    intro g' hg'
    obtain ⟨rfl, rfl⟩ := (C03_wired_short_detects_single_byte_change cfg sent g
      ((C01_wired_accepts_exactly_telegrams cfg _ _).2 hg) h10 i v hlt hv).1
      ⟨g', (C01_wired_accepts_exactly_telegrams cfg _ _).2 hg'⟩
    exact hE5 (by simp [hlt])
  have hl : sent.length = 5 := by
    cases hg with
    | single rest => simp at h10
    | short c a fn hf => rfl
    | long x c a payload fn hf hc hl => simp [longFrameBytes] at h10
    | control x a payload hl => simp [longFrameBytes] at h10
  refine turned_away cfg env aes text _ keyText key enrichment hx hk hn (fun frame f hnorm h => ?_) format hf
  have h11 := (wireless_length h).1
  cases hnorm with
  | stripped _ h12 => simp [hl] at h12
  | asIs => simp [hl] at h11

theorem block_codeword (data : List UInt8) (h : BlockAt data 10) : Codeword (data.take 12) ∧ 12 ≤ data.length := by
  obtain ⟨block, hi, lo, tail, hl, rfl, hc⟩ := h
  refine ⟨⟨block, hi, lo, ?_, hc⟩, by simp; omega⟩
  rw [List.take_left' (by simp [hl])]

theorem formatABlocks_length {body enc : List UInt8} (h : FormatABlocks body enc) : body.length ≤ enc.length := by
  induction h with
  | nil => simp
  | last => simp
  | cons b body enc hi lo h16 hc ht ih => simp; omega

/-- C150 for radio telegrams with checksums (format A): with one wrong byte or two adjacent ones in the first block or
its checksum, the telegram is turned away.  Missing are the other blocks (`C150_radio_fails`) and telegrams received with a
first byte that makes them look like one of the wire or like one without checksums. -/
theorem C150_radio_partial (cfg : Cfg) (env : CliEnv) (aes : AesBlock) (text : List Char)
    (frame sent received : List UInt8) (f : WirelessFrame) (hw : WirelessTelegram frame f) (ha : FormatA frame sent)
    (i : Nat) (hi : WrongPair i sent received) (h12 : i + 2 ≤ 12)
    (h0 : ∀ l, received[0]? = some l → l ≠ 0xE5 ∧ l ≠ 0x68 ∧ (i = 0 → l.toNat + 1 ≠ received.length))
    (hx : Spelled text received) (keyText : Option (List Char)) (key : Option (List UInt8)) (hk : KeyGiven keyText key)
    (enrichment : Bool) (format : String) (hf : format ∈ showing) :
    TurnedAway cfg env aes text keyText enrichment format := by
  obtain ⟨hne, before, a, b, a', b', after, hbl, hs, hr⟩ := hi
  have hlen : received.length = sent.length := by rw [hs, hr]; simp
  have hs12 : Codeword (sent.take 12) ∧ 12 ≤ sent.length ∧ frame.length + 2 ≤ sent.length := by
    cases ha with
    | mk head body enc h l h10 hc hb =>
      have := formatABlocks_length hb
      refine ⟨⟨head, h, l, ?_, hc⟩, by simp; omega, by simp; omega⟩
      rw [List.take_left' (by simp [h10])]
  have htake : ∀ x y : UInt8, (before ++ [x, y] ++ after).take 12 = before ++ [x, y] ++ after.take (12 - (i + 2)) := by
    intro x y
    rw [List.take_append, List.take_of_length_le (by simp; omega)]
    simp [hbl]
  have hb : ¬ BlockAt received 10 := by
    intro h
    have h2 := (block_codeword _ h).1
    have h1 := hs12.1
    rw [hs, htake] at h1
    rw [hr, htake] at h2
    obtain ⟨rfl, rfl⟩ := C11_crc_detects_two_bytes _ _ _ _ _ _ h1 h2
    exact hne (by rw [hs, hr])
  cases hc : received with
  | nil => rw [hc] at hlen; simp at hlen; omega
  | cons l rest =>
    rw [hc] at hb hx h0 hlen
    obtain ⟨h1, h2, h3⟩ := h0 l rfl
    refine turned_away cfg env aes text _ keyText key enrichment hx hk ?_ ?_ format hf
    · intro g hg
      generalize hd : l :: rest = d at hg
      cases hg with
      | single => exact h1 (List.cons.inj hd).1
      | short => have := congrArg List.length hd; simp [shortFrameBytes] at this; simp at hlen; omega
      | long => exact h2 (List.cons.inj hd).1
      | control => exact h2 (List.cons.inj hd).1
    · intro fr f' hn
      refine not_wireless hb l rest rfl ?_ fr f' hn
      by_cases hi0 : i = 0
      · exact h3 hi0
      · obtain ⟨-, l', rest', e1, e2⟩ := wireless_length hw
        have : l = l' := by
          have hf0 : sent[0]? = some l' := by
            cases ha with
            | mk head body enc h lo h10 hc' hb' =>
              cases head with
              | nil => simp at h10
              | cons x xs =>
                simp only [List.cons_append] at e1 ⊢
                rw [(List.cons.inj e1).1]; rfl
          have hr0 : received[0]? = sent[0]? := by
            cases before with
            | nil => simp at hbl; omega
            | cons x xs => rw [hs, hr]; rfl
          rw [hc, hf0] at hr0
          exact Option.some.inj hr0
        subst this
        rw [hlen]
        omega

theorem shown_anyway (cfg : Cfg) (env : CliEnv) (aes : AesBlock) (text : List Char) (data : List UInt8)
    (keyText : Option (List Char)) (key : Option (List UInt8)) (enrichment : Bool) (hx : Spelled text data)
    (hk : KeyGiven keyText key) (h : ∃ o, decodeBytes cfg aes data ⟨key, enrichment⟩ = .ok o) :
    AnsweredWell cfg env aes text keyText enrichment "json" (fun _ => True) := by
  obtain ⟨o, ho⟩ := h
  exact answered_well cfg env aes text data keyText key enrichment "json" .json (by decide +kernel) _ hx hk
    (fun width => ⟨renderJson env.front.text o, by simp [renderBytes, ho, renderDecoded, Res.mapErr], trivial⟩)

/-- What is answered is not turned away. -/
theorem answered_not_turned (cfg : Cfg) (env : CliEnv) (aes : AesBlock) (text : List Char)
    (keyText : Option (List Char)) (enrichment : Bool) (Good : List Char → Prop)
    (h : AnsweredWell cfg env aes text keyText enrichment "json" Good) :
    ¬ TurnedAway cfg env aes text keyText enrichment "json" := by
  intro ht
  obtain ⟨out, h1, -⟩ := h.2 none
  exact ht.javaScript none out h1

/-- C150 is false for the first byte: any telegram whose first byte is received as `E5` is taken for the single
character and answered. -/
theorem C150_start_fails (cfg : Cfg) (env : CliEnv) (aes : AesBlock) (text : List Char) (sent received : List UInt8)
    (_hi : WrongAt 0 sent received) (hE5 : received[0]? = some 0xE5) (hx : Spelled text received) (enrichment : Bool) :
    AnsweredWell cfg env aes text none enrichment "json" (fun _ => True) ∧
      ¬ TurnedAway cfg env aes text none enrichment "json" := by
  suffices h : AnsweredWell cfg env aes text none enrichment "json" (fun _ => True) from
    ⟨h, answered_not_turned cfg env aes text none enrichment _ h⟩
  cases hc : received with
  | nil => rw [hc] at hE5; simp at hE5
  | cons l rest =>
    rw [hc] at hE5 hx
    simp only [List.getElem?_cons_zero, Option.some.injEq] at hE5
    subst hE5
    refine shown_anyway cfg env aes text _ none none enrichment hx .none ?_
    have h1 : MbusData.tryFromWired cfg (0xE5 :: rest) = .ok ⟨.singleCharacter 0xE5, none, none, none⟩ := by
      unfold MbusData.tryFromWired
      rw [(C01_wired_accepts_exactly_telegrams cfg _ _).2 (.single rest)]
      rfl
    unfold decodeBytes
    rw [if_neg (by simp), h1]
    exact ⟨_, rfl⟩

/-- C150 is false for the fourth byte of a long frame, the second start byte: whatever is received there, the frame is the same. -/
theorem C150_fourth_fails (sent received : List UInt8) (g : WiredFrame) (hg : WiredTelegram sent g)
    (h68 : sent[0]? = some 0x68) (hi : WrongAt 3 sent received) : WiredTelegram received g := by
  obtain ⟨_, v, _, rfl⟩ := hi
  cases hg with
  | single rest => simp at h68
  | short c a fn hf => simp [shortFrameBytes] at h68
  | long x c a payload fn hf hc hl => exact .long v c a payload fn hf hc hl
  | control x a payload hl => exact .control v a payload hl

/-- A radio telegram with checksums in two blocks: a meter sends a volume of 360.235 m³. -/
def volumeSent : List UInt8 :=
  [0x10, 0x44, 0xE6, 0x1E, 0x78, 0x56, 0x34, 0x12, 0x3C, 0x07, 0xD7, 0xB7, 0x78, 0x0C, 0x13, 0x35, 0x02, 0x36, 0x00,
    0x2F, 0x2F]

theorem volume_framed : FormatA (volumeSent.take 10 ++ [0x78, 0x0C, 0x13, 0x35, 0x02, 0x36, 0x00]) volumeSent :=
  .mk (volumeSent.take 10) [0x78, 0x0C, 0x13, 0x35, 0x02, 0x36, 0x00] _ 0xD7 0xB7 (by decide)
    ((crc16_iff _ _ _).1 (by decide +kernel)) (.last _ 0x2F 0x2F (by decide) (by decide) ((crc16_iff _ _ _).1 (by decide +kernel)))

theorem volume_message (a b c d : UInt8) (n : Nat) (readings : List MeterReading) (tail : List UInt8)
    (hn : [a, b, c, d] = [0x35, 0x02, 0x36, 0x00] ∧ n = 360235 ∨ [a, b, c, d] = [0x35, 0x92, 0x36, 0x00] ∧ n = 369235)
    (ht : Message 7 readings tail) :
    Message 7 (⟨0, 0, 0, 0, [0x13], .number n⟩ :: readings) ([0x0C, 0x13, a, b, c, d] ++ tail) := by
  rcases hn with ⟨h, rfl⟩ | ⟨h, rfl⟩ <;> simp only [List.cons.injEq, and_true] at h <;> obtain ⟨rfl, rfl, rfl, rfl⟩ := h
  · have r := Sent.record (bcdBytes := 7) ⟨0, 0, 0, 0, [0x13], .number 360235⟩ 0 12 _ (by decide) (by decide)
      (by decide) (by decide) (by decide) (by decide) (by decide) (.bcd 12 4 360235 (by decide) (by decide))
    exact .reading _ _ _ _ r ht
  · have r := Sent.record (bcdBytes := 7) ⟨0, 0, 0, 0, [0x13], .number 369235⟩ 0 12 _ (by decide) (by decide)
      (by decide) (by decide) (by decide) (by decide) (by decide) (.bcd 12 4 369235 (by decide) (by decide))
    exact .reading _ _ _ _ r ht

/-- C150 is false for the blocks after the first: a radio telegram with checksums, received with one wrong byte that its
checksum shows, is answered by all front ends, without any remark, with a reading the meter did not send. -/
theorem C150_radio_fails (cfg : Cfg) (env : CliEnv) (aes : AesBlock) (enrichment : Bool)
    (henv : ∀ bits, FiniteReal bits → NumberText (env.front.text.realText bits)) :
    ∃ frame sent received, FormatA frame sent ∧ WrongAt 16 sent received ∧
      ReadEverywhere cfg env aes (hexString sent) none enrichment [⟨0, 0, 0, 0, [0x13], .number 360235⟩] ∧
      ReadEverywhere cfg env aes (hexString received) none enrichment [⟨0, 0, 0, 0, [0x13], .number 369235⟩] := by
  refine ⟨_, volumeSent, volumeSent.set 16 0x92, volume_framed, ⟨by decide, 0x92, by decide, rfl⟩, ?_, ?_⟩
  · exact C133_clear_partial cfg env aes _ volumeSent (some ⟨⟨71, 87, 70⟩, 12345678, .waterMeter, 0x3C, false⟩) _ _ none none
      enrichment _ henv ((decode_iff _ _).1 (by decide +kernel)) .none (isWireless_telegram _ _ _ (by decide +kernel))
      (.noTpl [0x0C, 0x13, 0x35, 0x02, 0x36, 0x00]) (volume_message _ _ _ _ _ [] [] (.inl ⟨rfl, rfl⟩) .nil) (by decide +kernel)
  · exact C133_clear_partial cfg env aes _ (volumeSent.set 16 0x92)
      (some ⟨⟨71, 87, 70⟩, 12345678, .waterMeter, 0x3C, false⟩) _ _ none none
      enrichment _ henv ((decode_iff _ _).1 (by decide +kernel)) .none (isWireless_telegram _ _ _ (by decide +kernel))
      (.noTpl [0x0C, 0x13, 0x35, 0x92, 0x36, 0x00, 0x2F, 0x2F])
      (volume_message _ _ _ _ _ [] [0x2F, 0x2F] (.inr ⟨rfl, rfl⟩) (.filler _ _ (.filler _ _ .nil))) (by decide +kernel)

/-- A telegram of 105 bytes of the wire: the meter with the identification 78563500 sends a volume of 360.235 m³. -/
def meterSent : List UInt8 :=
  longFrameBytes 0x68 0x08 0x01 ([0x72, 0x00, 0x35, 0x56, 0x78, 0x2F, 0x2F, 0x2F, 0x04, 0x13, 0x00, 0x00, 0x00] ++
    ([0x2F] ++ ([0x0C, 0x13, 0x35, 0x02, 0x36, 0x00] ++ List.replicate 77 0x2F)))

theorem fillers (n : Nat) (readings : List MeterReading) (tail : List UInt8) (h : Message 7 readings tail) :
    Message 7 readings (List.replicate n 0x2F ++ tail) := by
  induction n with
  | zero => exact h
  | succ n ih => exact .filler _ _ ih

set_option maxRecDepth 20000 in
/-- C150 is false for telegrams of 105 bytes of the wire: with one wrong byte, which the checksum shows, such a telegram is
taken for the radio telegram of another meter, and answered with three readings, none of which was sent. -/
theorem C150_long_fails (cfg : Cfg) (env : CliEnv) (aes : AesBlock) (enrichment : Bool)
    (henv : ∀ bits, FiniteReal bits → NumberText (env.front.text.realText bits)) :
    ∃ sent received g, WiredTelegram sent g ∧ sent[0]? = some 0x68 ∧ WrongAt 23 sent received ∧
      ReadEverywhere cfg env aes (hexString sent) none enrichment [⟨0, 0, 0, 0, [0x13], .number 360235⟩] ∧
      ReadEverywhere cfg env aes (hexString received) none enrichment
        [⟨0, 0, 0, 0, [0x13], .number 788529152⟩, ⟨0, 0, 0, 0, [0x13], .number 369235⟩, ⟨0, 0, 0, 0, [0x16], .nothing⟩] := by
  refine ⟨meterSent, meterSent.set 23 0x92, .longFrame (.rspUd false false) (.primary 1) _,
    (C01_wired_accepts_exactly_telegrams cfgRelease _ _).1 rfl, rfl, ⟨by decide +kernel, 0x92, by decide +kernel, rfl⟩, ?_, ?_⟩
  · exact C133_clear_partial cfg env aes _ meterSent none _ _ none none enrichment _ henv
      ((decode_iff _ _).1 (by decide +kernel)) .none
      (wired_telegram _ ([0x72, 0x00, 0x35, 0x56, 0x78, 0x2F, 0x2F, 0x2F, 0x04, 0x13, 0x00, 0x00, 0x00] ++
        ([0x2F] ++ ([0x0C, 0x13, 0x35, 0x02, 0x36, 0x00] ++ List.replicate 77 0x2F)))
        (.rspUd false false) (.primary 1) (by decide +kernel))
      (.long false 0x00 0x35 0x56 0x78 0x2F 0x2F 0x2F 0x04 0x13 0x00 0x00 0x00 _ (by decide +kernel) (by decide))
      (.filler _ _ (volume_message _ _ _ _ _ [] _ (.inl ⟨rfl, rfl⟩) (by simpa using fillers 77 [] [] .nil)))
      (by decide +kernel)
  · have r1 := Sent.record (bcdBytes := 7) ⟨0, 0, 0, 0, [0x13], .number 788529152⟩ 0 4 _ (by decide) (by decide)
      (by decide) (by decide) (by decide) (by decide) (by decide)
      (.binary 4 4 788529152 (by decide) (by decide) (by decide))
    have r3 := Sent.record (bcdBytes := 7) ⟨0, 0, 0, 0, [0x16], .nothing⟩ 0 0 _ (by decide) (by decide)
      (by decide) (by decide) (by decide) (by decide) (by decide) .nothing
    have m := fillers 3 _ _ (.reading _ _ _ _ r1 (volume_message 0x35 0x92 0x36 0x00 369235 _ _ (.inr ⟨rfl, rfl⟩)
      (fillers 77 _ _ (.reading _ _ _ _ r3 .nil))))
    exact C133_clear_partial cfg env aes _ (meterSent.set 23 0x92)
      (some ⟨⟨90, 67, 67⟩, 720108, .reserved 0x56, 0x35, false⟩) _ _ none none enrichment _ henv
      ((decode_iff _ _).1 (by decide +kernel)) .none (isWireless_telegram _ _ _ (by decide +kernel)) (.noTpl _) m
      (by decide +kernel)

/-- The wired telegram of the older examples with one wrong digit of a reading. -/
example (cfg : Cfg) (env : CliEnv) (aes : AesBlock) (enrichment : Bool) :
    TurnedAway cfg env aes (hexString ((olderWired 0 sentData).set 24 0xFB)) none enrichment "csv" :=
  C150_long_partial cfg env aes _ (olderWired 0 sentData) _ (.longFrame (.rspUd false false) (.primary 5) _)
    ((C01_wired_accepts_exactly_telegrams cfgRelease _ _).1 rfl) (by decide +kernel) 24
    ⟨by decide +kernel, 0xFB, by decide +kernel, rfl⟩ (by decide) (by decide +kernel) (fun _ => by decide +kernel)
    (by intro l h; cases h)
    (by
      rw [blockAt_iff]
      rintro ⟨h, l, h1, h2, h3⟩
      have e1 : ((olderWired 0 sentData).set 24 0xFB)[10]? = some 0x12 := rfl
      have e2 : ((olderWired 0 sentData).set 24 0xFB)[10 + 1]? = some 0x93 := rfl
      rw [e1] at h1; rw [e2] at h2
      cases h1; cases h2
      exact absurd h3 (by decide +kernel))
    ((decode_iff _ _).1 (by decide +kernel)) none none .none enrichment "csv" (by decide)

/-- A request to a meter with a wrong address. -/
example (cfg : Cfg) (env : CliEnv) (aes : AesBlock) (enrichment : Bool) :
    TurnedAway cfg env aes "10 5B 02 5C 16".toList none enrichment "xml" :=
  C150_short_partial cfg env aes _ [0x10, 0x5B, 0x01, 0x5C, 0x16] [0x10, 0x5B, 0x02, 0x5C, 0x16]
    (.shortFrame (.reqUd2 false) (.primary 1))
    ((C01_wired_accepts_exactly_telegrams cfgRelease _ _).1 (by decide +kernel)) (by decide) 2
    ⟨by decide, 0x02, by decide, rfl⟩ (by decide)
    ((decode_iff _ _).1 (by decide +kernel)) none none .none enrichment "xml" (by decide)

/-- The radio telegram with a wrong identification number. -/
example (cfg : Cfg) (env : CliEnv) (aes : AesBlock) (enrichment : Bool) :
    TurnedAway cfg env aes (hexString (volumeSent.set 5 0x65)) none enrichment "table" := by
  obtain ⟨f, hf, _⟩ := checked (WirelessFrame.tryFrom (volumeSent.take 10 ++ [0x78, 0x0C, 0x13, 0x35, 0x02, 0x36, 0x00]))
    (fun _ => True) (by decide +kernel)
  exact C150_radio_partial cfg env aes _ _ volumeSent (volumeSent.set 5 0x65) f
    ((C12_wireless_accepts_exactly_telegrams _ _).1 hf) volume_framed 5
    ⟨by decide, volumeSent.take 5, 0x56, 0x34, 0x65, 0x34, volumeSent.drop 7, by decide, by decide, by decide⟩ (by decide)
    (by intro l h; cases h; decide) ((decode_iff _ _).1 (by decide +kernel)) none none .none enrichment "table" (by decide)

end MBus
