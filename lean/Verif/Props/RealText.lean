import Verif.Spec.RealText
import Verif.Lemmas.RealText
import Verif.Props.SentJson
import Verif.Props.LegacyJson
/-!
# C140: the text of a real reads back as the real
-/
namespace MBus
open MBus.Spec

theorem real_fits (bits : UInt32) : (realMagnitude bits).1 ≠ 0 →
    ∃ m q, Fits (realMagnitude bits).1 (realMagnitude bits).2 m q := by
  intro hn
  have hr := magnitude_range bits
  obtain ⟨m, q, hf, -, -⟩ := fits_small hn (e := (realMagnitude bits).2) (by omega) (by omega) (by omega)
  exact ⟨m, q, hf⟩

/-- C140: the JSON number of a finite real is a number of JSON, and whoever reads it as binary64 gets the real.
(The document shows the reals that are not finite by name; the theorem's formula for them means nothing.) -/
theorem C140_json (style : RealStyle) (bits : UInt32) :
    NumberText (jsonReal style bits) ∧ ReadsBackAs (jsonReal style bits) (realValue bits.toNat) := by
  obtain ⟨h1, h2⟩ := jsonNumber_value style (decide (2 ^ 31 ≤ bits.toNat)) (realMagnitude bits).1 (realMagnitude bits).2
  refine ⟨h2, _, h1, ?_⟩
  rw [real_value]
  exact reads_sign (written_reads style.halfUp _ _ (real_fits bits)) _

/-- The real nearest to 0.1, 2^-149 and the greatest real. -/
example : jsonReal ryuStyle 0x3DCCCCCD = "0.10000000149011612".toList ∧
    jsonReal ryuStyle 0x00000001 = "1.401298464324817e-45".toList ∧
    jsonReal ryuStyle 0xFF7FFFFF = "-3.4028234663852886e38".toList ∧ jsonReal ryuStyle 0x80000000 = "-0.0".toList := by
  decide +kernel

/-- C140: `{}` of a finite real is a decimal number without exponent that reads back as the real. -/
theorem C140_display (bits : UInt32) (h : FiniteReal bits) :
    ∃ x, Denotes (displayReal bits) x ∧ ReadsAs x (realValue bits.toNat) := by
  obtain ⟨neg, ip, fp, h1, h2, h3, h4, -, h5⟩ := displayReal_value bits h
  refine ⟨_, ⟨neg, ip, fp, h2, h3, h4, h1, h5⟩, ?_⟩
  rw [real_value]
  exact reads_sign (written_reads true _ _ (real_fits bits)) _

/-- Half way between two numbers of 16 digits `{}` and the JSON document may differ in the last one. -/
example : FiniteReal 0x44000001 ∧ displayReal 0x44000001 = "512.0000610351563".toList ∧
    jsonReal ryuStyle 0x44000001 = "512.0000610351562".toList ∧ displayReal 0x3F800000 = ['1'] ∧
    displayReal 0xC1480000 = "-12.5".toList := by
  unfold FiniteReal; decide +kernel

/-- What `{}` shows of the reals that are no numbers. -/
theorem C140_special (bits : UInt32) (h : ¬FiniteReal bits) : displayReal bits =
    (if bits.toNat % 2 ^ 23 ≠ 0 then "NaN" else if bits.toNat < 2 ^ 31 then "inf" else "-inf").toList := by
  unfold FiniteReal at h
  unfold displayReal
  simp only [if_pos (not_not.1 h)]
  split
  · rfl
  · by_cases hs : 2 ^ 31 ≤ bits.toNat
    · rw [if_pos hs, if_neg (by omega)]; rfl
    · rw [if_neg hs, if_pos (by omega)]; rfl

example : ¬FiniteReal 0xFF800000 ∧ displayReal 0xFF800000 = "-inf".toList ∧ displayReal 0x7FC00000 = "NaN".toList := by
  unfold FiniteReal; decide +kernel

/-- C140: an integer in the older JSON document reads back if it is a number of binary64. -/
theorem C140_older (style : RealStyle) (v : Int) (h : IsDouble v) :
    NumberText (jsonLiteral style (.int v)) ∧ ReadsBackAs (jsonLiteral style (.int v)) v := by
  obtain ⟨h1, h2⟩ := jsonNumber_value style (decide (v < 0)) v.natAbs 0
  refine ⟨h2, _, h1, ?_⟩
  have hv : (v : ℚ) = if decide (v < 0) then -((v.natAbs : ℚ) * 2 ^ (0 : Int)) else (v.natAbs : ℚ) * 2 ^ (0 : Int) := by
    rw [zpow_zero, mul_one]
    by_cases hs : v < 0
    · rw [if_pos (by simpa using hs)]
      have : v = -(v.natAbs : Int) := by omega
      have : (v : ℚ) = ((-(v.natAbs : Int) : Int) : ℚ) := congrArg _ this
      rw [this, Int.cast_neg, Int.cast_natCast]
    · rw [if_neg (by simpa using hs)]
      have : v = (v.natAbs : Int) := by omega
      have : (v : ℚ) = (((v.natAbs : Int) : Int) : ℚ) := congrArg _ this
      rw [this, Int.cast_natCast]
  have hd : IsDouble ((v.natAbs : ℚ)) := by
    split at hv
    · have := double_neg h; rw [hv] at this; simpa using this
    · rw [hv] at h; simpa using h
  rw [hv]
  refine reads_sign (written_reads style.halfUp _ _ fun hn => ?_) _
  generalize v.natAbs = n at *
  by_cases hlt : n < 2 ^ 53
  · obtain ⟨m, q, hf, -, -⟩ := fits_small hn (e := 0) hlt (by norm_num) (by norm_num)
    exact ⟨m, q, hf⟩
  · obtain ⟨m, q, hm, -, hq, he⟩ := hd
    have he : (n : ℚ) = m * 2 ^ q := by
      rcases he with he | he
      · exact he
      · have : (0 : ℚ) < n := by exact_mod_cast Nat.pos_of_ne_zero hn
        have h0 : 0 ≤ (m : ℚ) * 2 ^ q := mul_nonneg (by positivity) (two_zpow_pos q).le
        linarith
    have hq0 : 0 ≤ q := by
      by_contra hneg
      have : (2 : ℚ) ^ q ≤ 1 := zpow_le_one_of_nonpos₀ (by norm_num) (by omega)
      have h1 : (n : ℚ) ≤ m := by
        rw [he]
        have := mul_le_mul_of_nonneg_left this (show (0 : ℚ) ≤ m by positivity)
        linarith
      have : n ≤ m := by exact_mod_cast h1
      omega
    obtain ⟨p, rfl⟩ := Int.eq_ofNat_of_zero_le hq0
    have he : n = m * 2 ^ p := by rw [zpow_natCast] at he; exact_mod_cast he
    have a := Nat.log2_self_le hn
    have hl : 53 ≤ n.log2 := (Nat.le_log2 hn).2 (by omega)
    have hp : n.log2 - 52 ≤ p := by
      by_contra hc
      have h1 : 2 ^ 53 * 2 ^ p ≤ 2 ^ n.log2 := by rw [← pow_add]; exact Nat.pow_le_pow_right (by norm_num) (by omega)
      have h2 : m * 2 ^ p < 2 ^ 53 * 2 ^ p := Nat.mul_lt_mul_of_pos_right hm (by positivity)
      omega
    have hdvd : 2 ^ (n.log2 - 52) ∣ n := (pow_dvd_pow 2 hp).trans ⟨m, by rw [he, mul_comm]⟩
    obtain ⟨s1, s2, -⟩ := significand_spec hn 0
    refine ⟨(significand53 n 0).1, (significand53 n 0).2, rfl, s1, s2, ?_, ?_, ?_⟩
    · unfold significand53
      rw [if_neg (by omega)]
      show ((n / 2 ^ (n.log2 - 52) : Nat) : ℚ) * 2 ^ (0 + ((n.log2 - 52 : Nat) : Int)) = _
      rw [zero_add, zpow_natCast, zpow_zero, mul_one]
      exact_mod_cast Nat.div_mul_cancel hdvd
    · unfold significand53
      rw [if_neg (by omega)]
      show -1074 ≤ 0 + ((n.log2 - 52 : Nat) : Int)
      omega
    · unfold significand53
      rw [if_neg (by omega)]
      show 0 + ((n.log2 - 52 : Nat) : Int) ≤ 971
      omega

example : IsDouble ((-12345678 : Int) : ℚ) ∧ jsonLiteral ryuStyle (.int (-12345678)) = "-12345678.0".toList ∧
    jsonLiteral ryuStyle (.int (2 ^ 63)) = "9.223372036854776e18".toList :=
  ⟨⟨12345678, 0, by norm_num, by norm_num, by norm_num, .inr (by norm_num)⟩, by decide +kernel, by decide +kernel⟩

/-- C140: no number with fewer decimal places, or with more zeros at the end, reads back as the real; and of the numbers
with as many places that read back none is nearer to it. -/
theorem C140_shortest (style : RealStyle) (bits : UInt32) (h : realValue bits.toNat ≠ 0) :
    ∃ (c k : Int), NumberValue (jsonReal style bits) (c * 10 ^ k) ∧
      (∀ j, k < j → ∀ c' : Int, ¬ReadsAs (c' * 10 ^ j) (realValue bits.toNat)) ∧
      ∀ c' : Int, ReadsAs (c' * 10 ^ k) (realValue bits.toNat) →
        |c * 10 ^ k - realValue bits.toNat| ≤ |c' * 10 ^ k - realValue bits.toNat| := by
  have hn : (realMagnitude bits).1 ≠ 0 := by
    intro h0; apply h; rw [real_value, h0]; simp
  have hr := magnitude_range bits
  obtain ⟨m, q, hf, hq1, hq2⟩ := fits_small hn (e := (realMagnitude bits).2) (by omega) (by omega) (by omega)
  obtain ⟨h1, -⟩ := jsonNumber_value style (decide (2 ^ 31 ≤ bits.toNat)) (realMagnitude bits).1 (realMagnitude bits).2
  change NumberValue (jsonReal style bits) _ at h1
  unfold writtenValue at h1
  rw [if_neg hn] at h1
  obtain ⟨-, s2⟩ := shortest_spec (halfUp := style.halfUp) hf.parts hf.low hf.high
  have s3 := shortest_nearest (halfUp := style.halfUp) hf.parts hf.low
  have hv := real_value bits
  rw [← hf.value] at hv
  generalize shortestDigits style.halfUp (realMagnitude bits).1 (realMagnitude bits).2 = p at *
  obtain ⟨c, k⟩ := p
  simp only at h1 s2 s3
  have key : ∀ (j c' : Int), ReadsAs (c' * 10 ^ j) (m * 2 ^ q) → ∃ n : Nat, c' = n ∧ Near m q (n * 10 ^ j) := by
    intro j c' hc
    have hnear := (reads_iff_near hf.low hf.high hq1 hq2).1 hc
    have hpos := near_pos hf.low hnear
    have hj : (0 : ℚ) < 10 ^ j := zpow_pos (by norm_num) j
    have : (0 : ℚ) < c' := by
      by_contra hle
      have := mul_nonpos_of_nonpos_of_nonneg (not_lt.1 hle) hj.le
      linarith
    have : 0 < c' := by exact_mod_cast this
    obtain ⟨n, rfl⟩ := Int.eq_ofNat_of_zero_le this.le
    exact ⟨n, rfl, by simpa using hnear⟩
  by_cases hs : 2 ^ 31 ≤ bits.toNat
  · rw [if_pos (by simpa using hs)] at h1 hv
    refine ⟨-(c : Int), k, by push_cast; rwa [neg_mul], ?_, ?_⟩
    · intro j hj c' hc
      rw [hv] at hc
      obtain ⟨n, -, hnn⟩ := key j (-c') (by push_cast; rw [neg_mul]; have := reads_neg hc; rwa [neg_neg] at this)
      exact s2 j hj n hnn
    · intro c' hc
      rw [hv] at hc ⊢
      obtain ⟨n, e, hnn⟩ := key k (-c') (by push_cast; rw [neg_mul]; have := reads_neg hc; rwa [neg_neg] at this)
      have e' : (c' : ℚ) = -(n : ℚ) := by
        have : c' = -(n : Int) := by omega
        rw [this]; push_cast; rfl
      have := s3 n hnn
      rw [e']
      push_cast
      rw [neg_mul, neg_mul, ← neg_sub', ← neg_sub', abs_neg, abs_neg]
      exact this
  · rw [if_neg (by simpa using hs)] at h1 hv
    refine ⟨(c : Int), k, by simpa using h1, ?_, ?_⟩
    · intro j hj c' hc
      rw [hv] at hc
      obtain ⟨n, -, hnn⟩ := key j c' hc
      exact s2 j hj n hnn
    · intro c' hc
      rw [hv] at hc ⊢
      obtain ⟨n, rfl, hnn⟩ := key k c' hc
      simpa using s3 n hnn

/-- The real nearest to 0.1 needs 17 digits as binary64. -/
example : realValue 0x3DCCCCCD ≠ 0 := by unfold realValue; norm_num

/-- C140: different finite reals have different texts, in the JSON document and with `{}`. -/
theorem C140_distinct (style : RealStyle) (b b' : UInt32) (h : jsonReal style b = jsonReal style b') : b = b' := by
  obtain ⟨h1, -⟩ := jsonNumber_value style (decide (2 ^ 31 ≤ b.toNat)) (realMagnitude b).1 (realMagnitude b).2
  obtain ⟨x, hx, hr⟩ := (C140_json style b).2
  obtain ⟨x', hx', hr'⟩ := (C140_json style b').2
  rw [← h] at hx'
  cases value_unique hx hx'
  obtain ⟨e1, e2⟩ := real_reads_inj hr hr'
  by_cases h0 : b.toNat % 2 ^ 31 = 0
  · have sign : ∀ b : UInt32, b.toNat % 2 ^ 31 = 0 →
        jsonReal style b = (if 2 ^ 31 ≤ b.toNat then ['-'] else []) ++ "0.0".toList := by
      intro b hb
      unfold jsonReal jsonNumber
      have : (realMagnitude b).1 = 0 := by
        unfold realMagnitude
        rw [if_pos (by omega)]
        show b.toNat % 2 ^ 23 = 0
        omega
      rw [if_pos this]
      by_cases hs : 2 ^ 31 ≤ b.toNat <;> simp
    rw [sign b h0, sign b' (e1 ▸ h0)] at h
    apply UInt32.toNat_inj.1
    have l1 := b.toNat_lt
    have l2 := b'.toNat_lt
    by_cases s1 : 2 ^ 31 ≤ b.toNat <;> by_cases s2 : 2 ^ 31 ≤ b'.toNat <;> simp only [s1, s2, if_true, if_false] at h
    · omega
    · exact absurd h (by decide)
    · exact absurd h (by decide)
    · omega
  · exact e2 h0

theorem C140_distinct_display (b b' : UInt32) (hb : FiniteReal b) (hb' : FiniteReal b')
    (h : displayReal b = displayReal b') : b = b' := by
  obtain ⟨x, hx, hr⟩ := C140_display b hb
  obtain ⟨x', hx', hr'⟩ := C140_display b' hb'
  rw [← h] at hx'
  cases value_unique (denotes_value hx) (denotes_value hx')
  obtain ⟨e1, e2⟩ := real_reads_inj hr hr'
  by_cases h0 : b.toNat % 2 ^ 31 = 0
  · have sign : ∀ b : UInt32, b.toNat % 2 ^ 31 = 0 → displayReal b = (if 2 ^ 31 ≤ b.toNat then ['-'] else []) ++ ['0'] := by
      intro b hb
      have h1 : (realMagnitude b).1 = 0 := by
        unfold realMagnitude
        rw [if_pos (by omega)]
        show b.toNat % 2 ^ 23 = 0
        omega
      unfold displayReal
      simp only [h1, if_true]
      rw [if_neg (by omega)]
    rw [sign b h0, sign b' (e1 ▸ h0)] at h
    apply UInt32.toNat_inj.1
    have l1 := b.toNat_lt
    have l2 := b'.toNat_lt
    by_cases s1 : 2 ^ 31 ≤ b.toNat <;> by_cases s2 : 2 ^ 31 ≤ b'.toNat <;> simp only [s1, s2, if_true, if_false] at h
    · omega
    · exact absurd h (by decide)
    · exact absurd h (by decide)
    · omega
  · exact e2 h0

example : FiniteReal 0x3DCCCCCD ∧ FiniteReal 0x3DCCCCCE ∧
    displayReal 0x3DCCCCCD = "0.10000000149011612".toList ∧ displayReal 0x3DCCCCCE = "0.10000000894069672".toList := by
  unfold FiniteReal; decide +kernel

/-- C140: the environment of the other properties exists: finite reals are printed as numbers. -/
theorem C140_environment (style : RealStyle) (charWidth : Char → Option Nat) (textWidth : List Char → Nat) :
    (∀ bits, FiniteReal bits → NumberText ((libraryText style charWidth textWidth).realText bits)) ∧
      PrintsLiterals (jsonLiteral style) := by
  refine ⟨fun bits _ => (C140_json style bits).1, fun v _ => ?_⟩
  cases v with
  | int v => exact (jsonNumber_value style _ _ _).2
  | negZero => exact (jsonNumber_value style true 0 0).2
  | real32 bits => exact (C140_json style bits).1

/-- C140: the JSON of every decoded telegram is a JSON text in which the value of each record that is a real is a number
that reads back as the real. -/
theorem C140_document (cfg : Cfg) (style : RealStyle) (charWidth : Char → Option Nat) (textWidth : List Char → Nat)
    (aes : AesBlock) (data : List UInt8) (options : DecodeOptions) (o : DecodedOutput)
    (h : decodeBytes cfg aes data options = .ok o) :
    ∃ d, JsonText (renderJson (libraryText style charWidth textWidth) o) d ∧
      ∀ i (hi : i < o.records.length) bits, o.records[i].value.value = some (.real bits) → FiniteReal bits ∧
        ∃ number, follow [.key "records", .at i, .key "value", .key "value"] d = some (.num number) ∧
          ReadsBackAs number (realValue bits.toNat) := by
  obtain ⟨d, h1, -, -, h4⟩ := C112_json cfg (libraryText style charWidth textWidth) aes data options o
    (C140_environment style charWidth textWidth).1 h
  refine ⟨d, h1, fun i hi bits hb => ⟨?_, _, ?_, (C140_json style bits).2⟩⟩
  · have := decoded_plain cfg aes data options o h o.records[i] (List.getElem_mem hi)
    rwa [hb] at this
  · have := h4.elements ([.key "records"], o.records.map (recordFields (libraryText style charWidth textWidth)))
      (by simp [telegramLists]) i (by simpa using hi)
      ([.key "value", .key "value"], some (.num (jsonReal style bits))) (by
        simp only [List.getElem_map]
        unfold recordFields below
        refine List.mem_append_right _ (List.mem_map.2 ⟨([], some (.num (jsonReal style bits))), ?_, rfl⟩)
        rw [hb]
        simp [valueFields, libraryText])
    exact this

/-- A telegram with the real 1.5. -/
example (aes : AesBlock) : ∃ o, decodeBytes ⟨false, false⟩ aes (olderWired 0 [0x05, 0x03, 0x00, 0x00, 0xC0, 0x3F]) ⟨none, true⟩ = .ok o ∧
    o.records.map (·.value.value) = [some (.real 0x3FC00000)] ∧ jsonReal ryuStyle 0x3FC00000 = "1.5".toList := by
  exact ⟨_, by with_unfolding_all rfl, by with_unfolding_all rfl, by decide +kernel⟩

/-- The reals among the readings of a JSON text read back. -/
theorem reals_read (style : RealStyle) (readings : List MeterReading) (text : List Char)
    (h : JsonReadings (jsonReal style) readings text) : RealsReadBack readings text := by
  obtain ⟨d, h1, -, h3, -⟩ := h
  refine ⟨d, (h1 d).2 rfl, fun i hi bits hc hf => ?_⟩
  obtain ⟨-, -, -, -, es, he, hv, -⟩ := h3 i hi
  rw [hc] at hv
  simp only [JsonValue, if_neg hf] at hv
  obtain ⟨-, b, hb, -, hq⟩ := hv
  exact ⟨es, _, he, hb, hq ▸ (C140_json style b).2⟩

/-- C133: for a telegram with unencrypted data, given as text in any spelling, the JSON texts of the command line program,
of JavaScript and of Python have the readings the meter sent, and the reals among them read back as they were sent.
Missing are the readings that are shown wrong (`C123_fails`). -/
theorem C133_reals_partial (cfg : Cfg) (env : CliEnv) (aes : AesBlock) (text : List Char) (data : List UInt8)
    (link : Option ManufacturerId) (payload d : List UInt8) (keyText : Option (List Char)) (key : Option (List UInt8))
    (enrichment : Bool) (readings : List MeterReading) (style : RealStyle)
    (henv : env.front.text.realText = jsonReal style)
    (hx : Spelled text data) (hk : KeyGiven keyText key)
    (ht : Telegram data link payload) (hd : ClearData payload d) (hm : Message 7 readings d)
    (hr : ∀ r ∈ readings, Readable r) :
    ReadEverywhere cfg env aes text keyText enrichment readings ∧
      AnsweredWell cfg env aes text keyText enrichment "json" (RealsReadBack readings) := by
  have h := C133_clear_partial cfg env aes text data link payload d keyText key enrichment readings
    (fun bits _ => by rw [henv]; exact (C140_json style bits).1) hx hk ht hd hm hr
  refine ⟨h, ?_⟩
  obtain ⟨⟨j1, j2, j3⟩, -⟩ := h
  rw [henv] at j1 j2 j3
  refine ⟨?_, ?_, ?_⟩
  · intro file data' width detected hb hi
    obtain ⟨out, o1, o2⟩ := j1 file data' width detected hb hi
    exact ⟨out, o1, reals_read style _ _ o2⟩
  · intro width
    obtain ⟨out, o1, o2⟩ := j2 width
    exact ⟨out, o1, reals_read style _ _ o2⟩
  · intro width
    obtain ⟨out, o1, o2⟩ := j3 width
    exact ⟨out, o1, reals_read style _ _ o2⟩

/-- `sentReadings` with its real 1.5, in a telegram typed as pairs of digits. -/
example (cfg : Cfg) (front : FrontEnv) (hf : front.text.realText = jsonReal ryuStyle) (aes : AesBlock) (enrichment : Bool) :
    AnsweredWell cfg (oneFile front "t.hex".toList []) aes (hexString (olderWired 0 sentData)) none enrichment "json"
      (RealsReadBack sentReadings) :=
  (C133_reals_partial cfg _ aes _ (olderWired 0 sentData) none _ sentData none none enrichment sentReadings ryuStyle hf
    ((decode_iff _ _).1 (by decide +kernel)) .none
    (wired_telegram _ ([0x72, 0x78, 0x56, 0x34, 0x12, 0x93, 0x15, 0x33, 0x03, 0x2A, 0x00, 0x00, 0] ++ sentData)
      (.rspUd false false) (.primary 5) (by decide +kernel))
    (.long false 0x78 0x56 0x34 0x12 0x93 0x15 0x33 0x03 0x2A 0x00 0x00 0 _ (by decide +kernel) (by decide))
    sent_example (by decide +kernel)).2

end MBus
