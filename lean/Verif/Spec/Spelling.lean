import Verif.Spec.Checksums
/-!
# Ways to type a telegram

A telegram and a key may be typed in many ways.  What a user may expect: it makes no difference.
-/
namespace MBus.Spec

/-- All front ends give the same answers to two texts with two keys, in all formats, even unknown ones.  Only the
object of the JavaScript package repeats the text as typed. -/
structure SameAnswers (cfg : Cfg) (env : CliEnv) (aes : AesBlock) (text text' : List Char)
    (key key' : Option (List Char)) : Prop where
  commandLine : ∀ file data file' data' format width plain detected,
    InputGiven env file data text → InputGiven env file' data' text' →
    cliMain cfg env aes file data ⟨format, key, width, plain, detected⟩ =
      cliMain cfg env aes file' data' ⟨format, key', width, plain, detected⟩
  javaScript : ∀ format width enrichment,
    jsRender cfg env.front aes text format key width enrichment =
      jsRender cfg env.front aes text' format key' width enrichment
  javaScriptObject : ∀ enrichment,
    Alike (fun o o' : DecodedOutput => o.raw.input = some text ∧ o' = { o with raw := { o.raw with input := some text' } })
      (jsDecode cfg aes text key enrichment) (jsDecode cfg aes text' key' enrichment)
  python : ∀ format width enrichment,
    pyRender cfg env.front aes (.text text) format (key.map .text) width enrichment =
      pyRender cfg env.front aes (.text text') format (key'.map .text) width enrichment
  pythonObject : ∀ enrichment,
    pyParse cfg env.front aes (.text text) (key.map .text) enrichment =
      pyParse cfg env.front aes (.text text') (key'.map .text) enrichment

end MBus.Spec
