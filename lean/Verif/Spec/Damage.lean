import Verif.Spec.SentJson
/-!
# Telegrams damaged on their way

What a user may expect if bytes are received, or typed, that were not sent: the telegram is turned away.
-/
namespace MBus.Spec

/-- The telegram was received with a wrong byte at the given place. -/
def WrongAt (i : Nat) (sent received : List UInt8) : Prop :=
  ∃ (h : i < sent.length) (v : UInt8), v ≠ sent[i] ∧ received = sent.set i v

/-- The telegram was received with at most two adjacent wrong bytes, the first at the given place. -/
def WrongPair (i : Nat) (sent received : List UInt8) : Prop :=
  received ≠ sent ∧ ∃ before a b a' b' after, before.length = i ∧ sent = before ++ [a, b] ++ after ∧
    received = before ++ [a', b'] ++ after

/-- The formats that show what a telegram says.  (The annotated formats explain bytes, whatever they are.) -/
def showing : List String := ["table", "json", "yaml", "csv", "mermaid", "xml"]

/-- A telegram as text is turned away by all front ends in a format: the command line program prints nothing and does
not end well, for the telegram on the command line and in a file, JavaScript and Python do not return a text. -/
structure TurnedAway (cfg : Cfg) (env : CliEnv) (aes : AesBlock) (text : List Char) (keyText : Option (List Char))
    (enrichment : Bool) (format : String) : Prop where
  commandLine : ∀ file data width detected, InputGiven env file data text →
    let ended := cliMain cfg env aes file data ⟨format.toList, keyText, width, !enrichment, detected⟩
    ended.status ≠ 0 ∧ ended.stdout = []
  javaScript : ∀ width out,
    jsRender cfg env.front aes text format.toList keyText width (some enrichment) ≠ .ok out
  python : ∀ width out,
    pyRender cfg env.front aes (.text text) format.toList (keyText.map .text) width enrichment ≠ .ok out

end MBus.Spec
