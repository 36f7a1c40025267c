import Verif.Spec.Spelling
import Verif.Props.SentJson
/-!
# C152: how a telegram and a key are typed makes no difference
-/
namespace MBus
open MBus.Spec

theorem key_given {keyText : Option (List Char)} {key : Option (List UInt8)} (h : KeyGiven keyText key) :
    jsKey keyText = .ok key ∧ pyKey (keyText.map .text) = .ok key ∧
      (∀ t, keyText = some t → ∃ k, key = some k ∧ cliKey t = .ok k) ∧ (keyText = none → key = none) := by
  cases h with
  | none => exact ⟨rfl, rfl, by simp, fun _ => rfl⟩
  | key t k hk =>
    have hc := ((C115_cli_key t).1 k).2 hk
    have := C115_same_key t k hc
    exact ⟨this.1, this.2.1, by simp [hc], by simp⟩

theorem cliRun_key {cfg : Cfg} {env : FrontEnv} {aes : AesBlock} {input format : List Char} {keyText : Option (List Char)}
    {key : Option (List UInt8)} {width detected : Option Nat} {plain : Bool} (h : KeyGiven keyText key) :
    cliRun cfg env aes input ⟨format, keyText, width, plain, detected⟩ =
      formatNamed format >>= fun f => renderHex cfg env aes input f ⟨⟨key, !plain⟩, width.or detected⟩ := by
  obtain ⟨-, -, h1, h2⟩ := key_given h
  cases keyText with
  | none => rw [h2 rfl]; rfl
  | some t =>
    obtain ⟨k, rfl, hk⟩ := h1 t rfl
    simp only [cliRun, hk]
    rfl

/-- C152: two spellings of a telegram, with two spellings of a key or none, get the same answers from all front ends. -/
theorem C152_spelling (cfg : Cfg) (env : CliEnv) (aes : AesBlock) (text text' : List Char) (data : List UInt8)
    (keyText keyText' : Option (List Char)) (key : Option (List UInt8)) (hx : Spelled text data) (hx' : Spelled text' data)
    (hk : KeyGiven keyText key) (hk' : KeyGiven keyText' key) :
    SameAnswers cfg env aes text text' keyText keyText' := by
  have hd := (decode_iff text data).2 hx
  have hd' := (decode_iff text' data).2 hx'
  have hr : ∀ fmt options, renderHex cfg env.front aes text fmt options = renderHex cfg env.front aes text' fmt options := by
    intro fmt options
    simp only [renderHex, hd, hd']
  obtain ⟨j, p, -, -⟩ := key_given hk
  obtain ⟨j', p', -, -⟩ := key_given hk'
  refine ⟨?_, ?_, ?_, ?_, ?_⟩
  · intro file dat file' dat' format width plain detected hi hi'
    rw [cliMain_input hi, cliMain_input hi']
    unfold cliRendered
    rw [cliRun_key hk, cliRun_key hk']
    simp only [hr]
  · intro format width enrichment
    simp only [jsRender, j, j', hr]
  · intro enrichment
    simp only [jsDecode, j, j', decodeHex, hd, hd']
    show Alike _ (Res.mapErr _ _) (Res.mapErr _ _)
    cases decodeBytes cfg aes data ⟨key, enrichment.getD true⟩ with
    | ok o => exact ⟨rfl, rfl⟩
    | err e => exact rfl
    | panic => exact trivial
  · intro format width enrichment
    simp only [pyRender, pyBytes, p, p', hd, hd']
  · intro enrichment
    simp only [pyParse, pyBytes, p, p', hd, hd']

/-- C152: Python takes the bytes of a telegram and of a key as well as their spelling. -/
theorem C152_bytes (cfg : Cfg) (env : FrontEnv) (aes : AesBlock) (text : List Char) (data : List UInt8)
    (keyText : Option (List Char)) (key : Option (List UInt8)) (hx : Spelled text data) (hk : KeyGiven keyText key) :
    (∀ format width enrichment, pyRender cfg env aes (.bytes data) format (key.map .bytes) width enrichment =
      pyRender cfg env aes (.text text) format (keyText.map .text) width enrichment) ∧
    ∀ enrichment, pyParse cfg env aes (.bytes data) (key.map .bytes) enrichment =
      pyParse cfg env aes (.text text) (keyText.map .text) enrichment := by
  have hd := (decode_iff text data).2 hx
  have hne : data.isEmpty = false := by
    have := hx.1
    cases data <;> simp_all
  have hp : pyKey (key.map .bytes) = pyKey (keyText.map .text) := by
    cases hk with
    | none => rfl
    | key t k hk =>
      have := C115_same_key t k (((C115_cli_key t).1 k).2 hk)
      exact this.2.2.trans this.2.1.symm
  constructor
  · intro format width enrichment
    simp only [pyRender, pyBytes, hd, hne, hp]
    rfl
  · intro enrichment
    simp only [pyParse, pyBytes, hd, hne, hp]
    rfl

/-- A telegram as in a log, with white space and prefixes, and as digits; the key in small and large letters. -/
example (cfg : Cfg) (env : CliEnv) :
    SameAnswers cfg env Aes.aes128 "\t0x10 0x5b 01:5C-16\n".toList "105B015c16".toList
      (some "0102030405060708090a0B0c0D0E0F11".toList) (some "0102030405060708090A0b0C0d0e0f11".toList) :=
  C152_spelling cfg env _ _ _ [0x10, 0x5B, 0x01, 0x5C, 0x16] _ _ (some exampleKey)
    ((decode_iff _ _).1 (by decide +kernel)) ((decode_iff _ _).1 (by decide +kernel))
    (.key _ _ (((C115_cli_key _).1 _).1 (by decide +kernel))) (.key _ _ (((C115_cli_key _).1 _).1 (by decide +kernel)))

end MBus
