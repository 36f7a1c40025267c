import Verif.Spec.SentJson
import Verif.Spec.CsvText
/-!
# Telegrams with and without checksums

Receivers of radio telegrams hand them on with the checksums of their blocks or without.  What a user may expect: it makes
no difference.
-/
namespace MBus.Spec

/-- Two attempts end the same way: with related results, with the same error, or both with a crash. -/
def Alike {ε α : Type} (R : α → α → Prop) : Res ε α → Res ε α → Prop
  | .ok a, .ok b => R a b
  | .err e, .err e' => e = e'
  | .panic, .panic => True
  | _, _ => False

/-- All front ends give related answers in a format to two telegrams given as texts, with any key, good or bad. -/
structure AnsweredAlike (cfg : Cfg) (env : CliEnv) (aes : AesBlock) (text text' : List Char) (format : String)
    (R : List Char → List Char → Prop) : Prop where
  commandLine : ∀ file data file' data' key width plain detected,
    InputGiven env file data text → InputGiven env file' data' text' →
    let a := cliMain cfg env aes file data ⟨format.toList, key, width, plain, detected⟩
    let a' := cliMain cfg env aes file' data' ⟨format.toList, key, width, plain, detected⟩
    a.status = a'.status ∧ a.stderr = a'.stderr ∧
      (a.status = 0 → R a.stdout a'.stdout) ∧ (a.status ≠ 0 → a.stdout = a'.stdout)
  javaScript : ∀ key width enrichment,
    Alike R (jsRender cfg env.front aes text format.toList key width enrichment)
      (jsRender cfg env.front aes text' format.toList key width enrichment)
  python : ∀ key width enrichment,
    Alike R (pyRender cfg env.front aes (.text text) format.toList key width enrichment)
      (pyRender cfg env.front aes (.text text') format.toList key width enrichment)

/-- The formats whose texts do not repeat the bytes of a telegram. -/
def bytesFree : List String := ["table", "mermaid", "xml"]

/-- Two JSON texts say the same, but for the member that repeats the bytes received. -/
def SameButRaw (out out' : List Char) : Prop :=
  ∃ d d', (∀ x, JsonText out x ↔ x = d) ∧ (∀ x, JsonText out' x ↔ x = d') ∧
    ∀ name path, name ≠ "raw" → follow (.key name :: path) d = follow (.key name :: path) d'

/-- Two CSV texts have the same names of columns, and the same cells but for the column that repeats the bytes
received. -/
def SameButFrame (out out' : List Char) : Prop :=
  ∃ names cells cells', (∀ rows, CsvFile out rows ↔ rows = [names, cells]) ∧
    (∀ rows, CsvFile out' rows ↔ rows = [names, cells']) ∧ cells.length = names.length ∧ cells'.length = names.length ∧
    ∀ i : Nat, names[i]? ≠ some "frame_hex".toList → cells[i]? = cells'[i]?

end MBus.Spec
