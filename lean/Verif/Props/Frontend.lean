import Verif.Spec.Frontend
import Verif.Props.Hex
import Verif.Props.Json
import Verif.Props.Csv
import Verif.Props.OutputFields
/-! Properties of the front ends. -/
namespace MBus
open MBus.Spec

theorem crateDecode_pairs {t : List Char} {bytes : List UInt8} (h : Pairs t bytes) : hexCrateDecode t = bytes := by
  induction h with
  | nil => rfl
  | cons hi lo a b rest bytes h1 h2 h3 ih => simp [hexCrateDecode, toDigit16_eq, h1, h2, ih]

theorem crateDecode_of_digits : ∀ t : List Char, (∀ c ∈ t, isAsciiHexdigit c = true) → t.length % 2 = 0 →
    Pairs t (hexCrateDecode t)
  | [], _, _ => .nil
  | [a], _, h => by simp at h
  | a :: b :: rest, h, hl => by
    have ha := h a (by simp)
    have hb := h b (by simp)
    rw [hexdigit_iff, Option.isSome_iff_exists] at ha hb
    obtain ⟨x, hx⟩ := ha
    obtain ⟨y, hy⟩ := hb
    simp only [hexCrateDecode, toDigit16_eq, hx, hy, Option.getD_some]
    exact .cons _ _ _ _ _ _ hx hy (crateDecode_of_digits rest (fun c hc => h c (by simp [hc]))
      (by simp at hl; omega))

theorem digits_size (t : List Char) (h : ∀ c ∈ t, isAsciiHexdigit c = true) :
    (t.map Char.utf8Size).sum = t.length := by
  induction t with
  | nil => rfl
  | cons c t ih =>
    have hc : c.utf8Size = 1 := by
      have := h c (by simp)
      unfold isAsciiHexdigit at this
      simp only [Bool.or_eq_true, Bool.and_eq_true, decide_eq_true_eq, Char.le_def, UInt32.le_iff_toNat_le] at this
      unfold Char.utf8Size
      rw [if_pos]
      have e1 : ('9' : Char).val.toNat = 57 := rfl
      have e2 : ('F' : Char).val.toNat = 70 := rfl
      have e3 : ('f' : Char).val.toNat = 102 := rfl
      show c.val.toNat ≤ 127
      omega
    simp [hc, ih (fun c hc => h c (by simp [hc]))]; omega

/-- C115: the command line takes exactly the keys spelled with 32 hexadecimal digits. -/
theorem C115_cli_key (text : List Char) :
    (∀ key, cliKey text = .ok key ↔ KeyText text key) ∧
    ((∀ key, ¬ KeyText text key) → cliKey text = .err (.invalidOption "key")) := by
  have h : ∀ key, cliKey text = .ok key ↔ KeyText text key := by
    intro key
    unfold cliKey
    constructor
    · intro h
      split at h
      · cases h
      · rename_i hn
        simp only [Bool.or_eq_true, decide_eq_true_eq, not_or, Decidable.not_not, Bool.not_eq_true', Bool.not_eq_false] at hn
        obtain ⟨h1, h2⟩ := hn
        rw [List.all_eq_true] at h2
        rw [digits_size _ h2] at h1
        have hp := crateDecode_of_digits text h2 (by omega)
        cases h
        refine ⟨?_, hp⟩
        have := (pairs_all _ _ hp).2
        omega
    · rintro ⟨h1, h2⟩
      obtain ⟨h3, h4⟩ := pairs_all _ _ h2
      rw [if_neg, crateDecode_pairs h2]
      simp only [Bool.or_eq_true, decide_eq_true_eq, not_or, Decidable.not_not, Bool.not_eq_true', Bool.not_eq_false]
      exact ⟨by rw [digits_size _ h3]; omega, List.all_eq_true.2 h3⟩
  refine ⟨h, fun hn => ?_⟩
  cases hk : cliKey text with
  | ok key => exact absurd ((h key).1 hk) (hn key)
  | panic => unfold cliKey at hk; split at hk <;> cases hk
  | err e => unfold cliKey at hk; split at hk <;> cases hk; rfl

theorem pyBytes_text (text : List Char) :
    pyBytes (.text text) = (decodeHexBytes text).mapErr (fun e => .parser e.failure) := rfl

theorem pyKey_some (value : PyValue) : pyKey (some value) = pyBytes value >>= fun bytes =>
    if bytes.length = 16 then .ok (some bytes) else .err (.parser (.invalidOption "key")) := rfl

theorem jsKey_some (text : List Char) : jsKey (some text) = if (trim text).isEmpty then .ok none
    else (decodeHexBytes text).mapErr HexError.failure >>= fun bytes =>
      if bytes.length = 16 then .ok (some bytes) else .err (.invalidOption "key") := rfl

theorem decode_iff (text : List Char) (bytes : List UInt8) :
    decodeHexBytes text = .ok bytes ↔ Spelled text bytes := C43_accepts_iff text bytes

theorem trim_blank (text : List Char) : trim text = [] ↔ BlankText text := by
  rw [← trimmed_iff]
  constructor
  · rintro ⟨l, r, h1, h2, -, -⟩ c hc
    exact h2 c (by simpa [h1] using hc)
  · intro h
    exact ⟨text, [], by simp, by simpa [BlankText] using h, by simp, by simp⟩

/-- C115: Python and JavaScript take a key in every spelling the library reads, and the same key; JavaScript
takes a blank text for no key. -/
theorem C115_keys (text : List Char) (key : List UInt8) :
    (pyKey (some (.text text)) = .ok (some key) ↔ Spelled text key ∧ key.length = 16) ∧
    (jsKey (some text) = .ok (some key) ↔ Spelled text key ∧ key.length = 16) ∧
    (jsKey (some text) = .ok none ↔ BlankText text) ∧ pyKey (some (.text text)) ≠ .ok none := by
  rw [← decode_iff, ← trim_blank]
  have hb : trim text = [] → decodeHexBytes text = .err .emptyInput := by
    intro h; unfold decodeHexBytes; simp [h]
  rw [pyKey_some, jsKey_some, pyBytes_text]
  by_cases ht : trim text = []
  · rw [hb ht]; simp [ht, Res.mapErr]
  · have hi : ¬ (trim text).isEmpty := by simpa using ht
    rw [if_neg hi]
    cases hd : decodeHexBytes text with
    | err e => simp [Res.mapErr, ht]
    | panic => simp [Res.mapErr, ht]
    | ok bytes =>
      simp only [Res.mapErr, Res.bind_ok, Res.ok.injEq, ht]
      by_cases hl : bytes.length = 16
      · simp only [hl, if_true, Res.ok.injEq, Option.some.injEq, reduceCtorEq, iff_false, not_false_eq_true,
          ne_eq, and_true]
        constructor <;> exact ⟨fun h => ⟨h, h ▸ hl⟩, fun h => h.1⟩
      · simp only [hl, if_false, reduceCtorEq, false_iff, iff_false, not_false_eq_true, ne_eq, and_true, not_and]
        constructor <;> · rintro rfl; exact hl

/-- C115: every key the command line takes is the same key for Python, as text and as bytes, and for
JavaScript. -/
theorem C115_same_key (text : List Char) (key : List UInt8) (h : cliKey text = .ok key) :
    jsKey (some text) = .ok (some key) ∧ pyKey (some (.text text)) = .ok (some key) ∧
      pyKey (some (.bytes key)) = .ok (some key) := by
  obtain ⟨h1, h2⟩ := ((C115_cli_key text).1 key).1 h
  have hs : Spelled text key := by
    refine ⟨by rintro rfl; simp at h1, text, trimmed_self _ ?_, .inl h2⟩
    intro c hc; rw [← hexdigit_iff]; exact (pairs_all _ _ h2).1 c hc
  refine ⟨(C115_keys text key).2.1.2 ⟨hs, h1⟩, (C115_keys text key).1.2 ⟨hs, h1⟩, ?_⟩
  have : key.isEmpty = false := by cases key <;> simp_all
  simp [pyKey, pyBytes, this, h1]

example : cliKey "00112233445566778899aabbccddEEff".toList =
    .ok [0x00, 0x11, 0x22, 0x33, 0x44, 0x55, 0x66, 0x77, 0x88, 0x99, 0xAA, 0xBB, 0xCC, 0xDD, 0xEE, 0xFF] := by
  decide +kernel

/-- C115 fails for keys: the spelling 0x00 … is a key for Python and JavaScript and an error on the command
line, and a blank key is an error for the command line and for Python, and no key for JavaScript. -/
theorem C115_keys_fails :
    (∃ text key, jsKey (some text) = .ok (some key) ∧ pyKey (some (.text text)) = .ok (some key) ∧
      cliKey text = .err (.invalidOption "key")) ∧
    ∃ text, jsKey (some text) = .ok none ∧ pyKey (some (.text text)) = .err (.parser .emptyInput) ∧
      cliKey text = .err (.invalidOption "key") := by
  refine ⟨⟨"00 11 22 33 44 55 66 77 88 99 AA BB CC DD EE 0xFF".toList, [0x00, 0x11, 0x22, 0x33, 0x44, 0x55, 0x66, 0x77,
    0x88, 0x99, 0xAA, 0xBB, 0xCC, 0xDD, 0xEE, 0xFF], ?_⟩, " ".toList, ?_⟩
  · decide +kernel
  · decide +kernel

/-- C115: for a supported format and no key or a key of 32 hexadecimal digits, the command line, JavaScript
and Python give the same answer to a telegram given as text: the same text, or the same error. -/
theorem C115_same (cfg : Cfg) (env : FrontEnv) (aes : AesBlock) (input name : List Char) (format : OutputFormat)
    (hf : OutputFormat.fromStr name = some format) (keyText : Option (List Char)) (key : Option (List UInt8))
    (hk : (keyText = none ∧ key = none) ∨ ∃ t k, keyText = some t ∧ key = some k ∧ KeyText t k)
    (width detected : Option Nat) (enrichment : Bool) :
    let result := renderHex cfg env aes input format ⟨⟨key, enrichment⟩, width.or detected⟩
    cliRun cfg env aes input ⟨name, keyText, width, !enrichment, detected⟩ = result ∧
      jsRender cfg env aes input name keyText (width.or detected) (some enrichment) = result ∧
      pyRender cfg env aes (.text input) name (keyText.map .text) (width.or detected) enrichment
        = result.mapErr .parser := by
  intro result
  have hn : formatNamed name = .ok format := by unfold formatNamed; rw [hf]
  have hp : ∀ k, pyKey (keyText.map .text) = .ok k →
      pyRender cfg env aes (.text input) name (keyText.map .text) (width.or detected) enrichment =
        (renderHex cfg env aes input format ⟨⟨k, enrichment⟩, width.or detected⟩).mapErr .parser := by
    intro k hk
    unfold pyRender renderHex
    rw [pyBytes_text, hn, hk]
    cases decodeHexBytes input <;> simp [Res.mapErr]
  rcases hk with ⟨rfl, rfl⟩ | ⟨t, k, rfl, rfl, hk⟩
  · refine ⟨?_, ?_, hp none rfl⟩
    · simp [cliRun, hn, result]
    · simp [jsRender, hn, jsKey, result]
  · have hc := ((C115_cli_key t).1 k).2 hk
    obtain ⟨h1, h2, -⟩ := C115_same_key t k hc
    refine ⟨?_, ?_, hp _ h2⟩
    · simp [cliRun, hn, hc, result]
    · simp [jsRender, hn, h1, result]

example : OutputFormat.fromStr "json".toList = some .json ∧
    KeyText "00112233445566778899aabbccddEEff".toList
      [0x00, 0x11, 0x22, 0x33, 0x44, 0x55, 0x66, 0x77, 0x88, 0x99, 0xAA, 0xBB, 0xCC, 0xDD, 0xEE, 0xFF] :=
  ⟨by decide +kernel, ((C115_cli_key _).1 _).1 (by decide +kernel)⟩

/-- What the command line prints for a telegram of one byte E5. -/
example (cfg : Cfg) (env : FrontEnv) (aes : AesBlock) :
    cliRun cfg env aes "E5".toList ⟨"xml".toList, none, none, false, none⟩ =
      .err (.rendering "xml.unsupported".toList) := by
  obtain ⟨oc, tf⟩ := cfg
  cases oc <;> cases tf <;> with_unfolding_all rfl

/-- C115: an unsupported format is refused by all three, by Python after the telegram was read. -/
theorem C115_unsupported (cfg : Cfg) (env : FrontEnv) (aes : AesBlock) (input name : List Char)
    (hf : OutputFormat.fromStr name = none) (keyText : Option (List Char)) (width detected : Option Nat)
    (enrichment : Bool) :
    cliRun cfg env aes input ⟨name, keyText, width, !enrichment, detected⟩ = .err (.unsupportedFormat name) ∧
      jsRender cfg env aes input name keyText width (some enrichment) = .err (.unsupportedFormat name) ∧
      ((∃ bytes, Spelled input bytes) → pyRender cfg env aes (.text input) name (keyText.map .text) width enrichment
        = .err (.parser (.unsupportedFormat name))) := by
  have hn : formatNamed name = .err (.unsupportedFormat name) := by unfold formatNamed; rw [hf]
  refine ⟨by simp [cliRun, hn], by simp [jsRender, hn], ?_⟩
  rintro ⟨bytes, hb⟩
  rw [← decode_iff] at hb
  simp [pyRender, pyBytes, hb, Res.mapErr, hn]

/-- C115 fails for errors: of two mistakes in a call the front ends report different ones. -/
theorem C115_order_fails (cfg : Cfg) (env : FrontEnv) (aes : AesBlock) :
    ∃ input name, cliRun cfg env aes input ⟨name, none, none, false, none⟩ = .err (.unsupportedFormat name) ∧
      jsRender cfg env aes input name none none none = .err (.unsupportedFormat name) ∧
      pyRender cfg env aes (.text input) name none none true = .err (.parser .emptyInput) := by
  have hf : OutputFormat.fromStr "pdf".toList = none := by decide +kernel
  have hn : formatNamed "pdf".toList = .err (.unsupportedFormat "pdf".toList) := by unfold formatNamed; rw [hf]
  have hd : decodeHexBytes [] = .err .emptyInput := by decide +kernel
  refine ⟨[], "pdf".toList, by simp only [cliRun, hn, Res.bind_err], by simp only [jsRender, hn, Res.bind_err], ?_⟩
  simp [pyRender, pyBytes, hd, Res.mapErr, HexError.failure]

/-- C115: in Python a telegram given as bytes and the same telegram given as text in any of the spellings
have the same answer, except that no telegram has no bytes. -/
theorem C115_bytes_or_text (cfg : Cfg) (env : FrontEnv) (aes : AesBlock) (text : List Char) (bytes : List UInt8)
    (h : Spelled text bytes) (name : List Char) (key : Option PyValue) (width : Option Nat) (enrichment : Bool) :
    pyRender cfg env aes (.text text) name key width enrichment =
      pyRender cfg env aes (.bytes bytes) name key width enrichment ∧
    pyParse cfg env aes (.text text) key enrichment = pyParse cfg env aes (.bytes bytes) key enrichment := by
  have h1 : pyBytes (.text text) = .ok bytes := by
    rw [pyBytes_text, (decode_iff _ _).2 h]; rfl
  have h2 : pyBytes (.bytes bytes) = .ok bytes := by
    unfold pyBytes
    have : bytes.isEmpty = false := by have := h.1; cases bytes <;> simp_all
    simp [this]
  constructor
  · unfold pyRender; rw [h1, h2]
  · unfold pyParse; rw [h1, h2]

example : Spelled " 68-0x0D 0D 68 ".toList [0x68, 0x0D, 0x0D, 0x68] := (decode_iff _ _).1 (by decide +kernel)

/-- C115: what Python's parse reads is what its JSON rendering says, by RFC 8259. -/
theorem C115_parse_is_json (cfg : Cfg) (env : FrontEnv) (aes : AesBlock) (data : PyValue) (key : Option PyValue)
    (width : Option Nat) (enrichment : Bool)
    (henv : ∀ bits, FiniteReal bits → NumberText (env.text.realText bits)) (name : List Char)
    (hf : OutputFormat.fromStr name = some .json) :
    (∀ compact, pyParse cfg env aes data key enrichment = .ok compact →
      ∃ text, pyRender cfg env aes data name key width enrichment = .ok text ∧
        ∀ d, JsonText compact d ↔ JsonText text d) ∧
    ∀ e, pyParse cfg env aes data key enrichment = .err e ↔
      pyRender cfg env aes data name key width enrichment = .err e := by
  have hn : formatNamed name = .ok .json := by unfold formatNamed; rw [hf]
  unfold pyParse pyRender
  rw [hn]
  cases hd : pyBytes data with
  | err e => simp
  | panic => simp
  | ok bytes =>
    simp only [Res.bind_ok, Res.mapErr]
    cases hk : pyKey key with
    | err e => simp
    | panic => simp
    | ok k =>
      simp only [Res.bind_ok, renderBytes]
      cases ho : decodeBytes cfg aes bytes ⟨k, enrichment⟩ with
      | err e => simp [Res.mapErr]
      | panic => simp [Res.mapErr]
      | ok o =>
        simp only [Res.mapErr, Res.bind_ok, renderDecoded, Res.ok.injEq, reduceCtorEq, implies_true, and_true]
        rintro compact rfl
        obtain ⟨d, h1, h2, -⟩ := C112_json cfg env.text aes bytes _ o henv ho
        refine ⟨_, rfl, fun d' => ⟨fun h => ?_, fun h => ?_⟩⟩
        · rw [C112_one_meaning _ _ _ h h2]; exact h1
        · rw [C112_one_meaning _ _ _ h h1]; exact h2

example (cfg : Cfg) (env : FrontEnv) (aes : AesBlock) :
    ∃ compact, pyParse cfg env aes (.bytes [0xE5]) none true = .ok compact := by
  obtain ⟨oc, tf⟩ := cfg
  cases oc <;> cases tf <;> exact ⟨_, rfl⟩

/-- C115: Python's older m_bus_parse succeeds exactly where render does with a table of 100 columns and
enrichment, and with the same text.  With a supported format and a usable key they also fail alike. -/
theorem C115_m_bus_parse (cfg : Cfg) (env : FrontEnv) (aes : AesBlock) (data name : List Char)
    (key : Option (List Char)) :
    (∀ text, pyMbusParse cfg env aes data name key = .ok text ↔
      pyRender cfg env aes (.text data) name (key.map .text) (some 100) true = .ok text) ∧
    ((OutputFormat.fromStr name).isSome → (∃ k, pyKey (key.map .text) = .ok k) →
      pyMbusParse cfg env aes data name key =
        pyRender cfg env aes (.text data) name (key.map .text) (some 100) true) := by
  unfold pyMbusParse pyRender renderHex
  rw [pyBytes_text]
  constructor
  · intro text
    cases pyKey (key.map .text) <;> cases formatNamed name <;> cases decodeHexBytes data <;>
      simp [Res.mapErr]
  · intro hf ⟨k, hk⟩
    obtain ⟨format, hf⟩ := Option.isSome_iff_exists.1 hf
    have hn : formatNamed name = .ok format := by unfold formatNamed; rw [hf]
    rw [hk, hn]
    cases decodeHexBytes data <;> simp [Res.mapErr]

/-- C115: m_bus_parse looks at the key and the format before the telegram, so that a telegram and a format
that are both wrong are reported otherwise than by render. -/
theorem C115_m_bus_parse_fails (cfg : Cfg) (env : FrontEnv) (aes : AesBlock) :
    ∃ data name, pyMbusParse cfg env aes data name none = .err (.parser (.unsupportedFormat name)) ∧
      pyRender cfg env aes (.text data) name none (some 100) true = .err (.parser .emptyInput) := by
  have hf : OutputFormat.fromStr "pdf".toList = none := by decide +kernel
  have hn : formatNamed "pdf".toList = .err (.unsupportedFormat "pdf".toList) := by unfold formatNamed; rw [hf]
  have hd : decodeHexBytes [] = .err .emptyInput := by decide +kernel
  refine ⟨[], "pdf".toList, ?_, ?_⟩
  · unfold pyMbusParse; rw [hn]; rfl
  · unfold pyRender; rw [pyBytes_text, hd]; rfl

example (cfg : Cfg) (env : FrontEnv) (aes : AesBlock) :
    ∃ text, pyMbusParse cfg env aes "E5".toList "json".toList none = .ok text := by
  obtain ⟨oc, tf⟩ := cfg
  cases oc <;> cases tf <;> exact ⟨_, by with_unfolding_all rfl⟩

/-- A decoded telegram less the text it was read from. -/
def withoutText (o : DecodedOutput) : DecodedOutput := { o with raw := { o.raw with input := none } }

/-- C115: the object JavaScript's m_bus_decode answers says what its JSON rendering says, and what Python's
parse reads, but that it also repeats the text it was given.  It fails with the same error. -/
theorem C115_decode (cfg : Cfg) (env : FrontEnv) (aes : AesBlock) (data : List Char) (key : Option (List Char))
    (width : Option Nat) (enrichment : Option Bool)
    (henv : ∀ bits, FiniteReal bits → NumberText (env.text.realText bits)) (name : List Char)
    (hf : OutputFormat.fromStr name = some .json) :
    (∀ o, jsDecode cfg aes data key enrichment = .ok o →
      o.raw.input = some data ∧
      ∃ text d, jsRender cfg env aes data name key width enrichment = .ok text ∧
        JsonText text d ∧ ShowsTelegram env.text (withoutText o) d) ∧
    (∀ e, jsDecode cfg aes data key enrichment = .err e ↔
      jsRender cfg env aes data name key width enrichment = .err e) ∧
    ∀ o bytes k, jsDecode cfg aes data key enrichment = .ok o → Spelled data bytes → jsKey key = .ok k →
      decodeBytes cfg aes bytes ⟨k, enrichment.getD true⟩ = .ok (withoutText o) ∧
        ∃ compact d, pyParse cfg env aes (.bytes bytes) (k.map .bytes) (enrichment.getD true) = .ok compact ∧
          JsonText compact d ∧ ShowsTelegram env.text (withoutText o) d := by
  have hn : formatNamed name = .ok .json := by unfold formatNamed; rw [hf]
  have key16 : ∀ k, jsKey key = .ok k → pyKey (k.map .bytes) = .ok k := by
    intro k hk
    cases key with
    | none => cases hk; rfl
    | some t =>
      rw [jsKey_some] at hk
      split at hk
      · cases hk; rfl
      · cases hb : decodeHexBytes t with
        | err e => rw [hb] at hk; simp [Res.mapErr] at hk
        | panic => rw [hb] at hk; simp [Res.mapErr] at hk
        | ok b =>
          rw [hb] at hk
          simp only [Res.mapErr, Res.bind_ok] at hk
          split at hk
          · rename_i hl
            cases hk
            have : b.isEmpty = false := by cases b <;> simp_all
            simp [pyKey, pyBytes, this, hl]
          · cases hk
  unfold jsDecode jsRender renderHex decodeHex
  rw [hn]
  cases hk : jsKey key with
  | err e => simp
  | panic => simp
  | ok k =>
    cases hd : decodeHexBytes data with
    | err e => simp [Res.mapErr]
    | panic => simp [Res.mapErr]
    | ok bytes =>
      simp only [Res.bind_ok, Res.mapErr, renderBytes]
      cases ho : decodeBytes cfg aes bytes ⟨k, enrichment.getD true⟩ with
      | err e => simp [Res.mapErr]
      | panic => simp [Res.mapErr]
      | ok o =>
        obtain ⟨d, h1, h2, -, h3⟩ := C112_json cfg env.text aes bytes _ o henv ho
        have hin : o.raw.input = none := (C84_raw cfg aes bytes _ o ho).1
        have hw : withoutText { o with raw := { o.raw with input := some data } } = o := by
          unfold withoutText
          obtain ⟨_, _, _, _, _, _, _, raw, _, _⟩ := o
          obtain ⟨_, _, _, _, _, _⟩ := raw
          simp only at hin
          subst hin
          rfl
        simp only [Res.mapErr, Res.bind_ok, renderDecoded, Res.ok.injEq, reduceCtorEq, implies_true,
          true_and]
        refine ⟨?_, ?_⟩
        · rintro o' rfl; rw [hw]; exact ⟨rfl, _, d, rfl, h1, h3⟩
        · rintro o' b' k' rfl hs rfl
          rw [hw]
          have hb := (decode_iff _ _).2 hs
          rw [hd] at hb
          cases hb
          refine ⟨ho, _, d, ?_, h2, h3⟩
          have : bytes.isEmpty = false := by
            have := hs.1
            cases bytes <;> simp_all
          unfold pyParse
          rw [key16 k hk]
          simp [pyBytes, this, ho, Res.mapErr]

/-- C115: the text a telegram was given as is in the object of m_bus_decode and not in the JSON of m_bus_render. -/
theorem C115_decode_fails (cfg : Cfg) (env : FrontEnv) (aes : AesBlock)
    (henv : ∀ bits, FiniteReal bits → NumberText (env.text.realText bits)) :
    ∃ data o text d, jsDecode cfg aes data none none = .ok o ∧ o.raw.input = some data ∧
      jsRender cfg env aes data "json".toList none none none = .ok text ∧ JsonText text d ∧
      follow [.key "raw", .key "input"] d = none := by
  have ho : ∃ o, jsDecode cfg aes "E5".toList none none = .ok o := by
    obtain ⟨oc, tf⟩ := cfg
    cases oc <;> cases tf <;> exact ⟨_, by with_unfolding_all rfl⟩
  obtain ⟨o, ho⟩ := ho
  obtain ⟨h1, text, d, h2, h3, h4⟩ := (C115_decode cfg env aes "E5".toList none none none henv "json".toList
    (by decide +kernel)).1 o ho
  exact ⟨_, o, text, d, ho, h1, h2, h3, h4.fields ([.key "raw", .key "input"], none) (by simp [telegramFields, withoutText])⟩

example (cfg : Cfg) (aes : AesBlock) : ∃ o, jsDecode cfg aes "E5".toList none none = .ok o := by
  obtain ⟨oc, tf⟩ := cfg
  cases oc <;> cases tf <;> exact ⟨_, by with_unfolding_all rfl⟩

end MBus
