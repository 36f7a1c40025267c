import Verif.Model.RecordOutput
/-! Model of the hexadecimal input parsers: `decode_hex_bytes` (src/output.rs) and `clean_and_convert`
(src/mbus_data.rs).  Texts are lists of characters. -/
namespace MBus

/-- `char::is_whitespace` of the Rust standard library: the Unicode property White_Space. -/
def isWhitespace (c : Char) : Bool :=
  let n := c.toNat
  (9 ≤ n && n ≤ 13) || n == 0x20 || n == 0x85 || n == 0xA0 || n == 0x1680 || (0x2000 ≤ n && n ≤ 0x200A) ||
    n == 0x2028 || n == 0x2029 || n == 0x202F || n == 0x205F || n == 0x3000

/-- `str::trim`. -/
def trim (s : List Char) : List Char :=
  ((s.dropWhile isWhitespace).reverse.dropWhile isWhitespace).reverse

/-- `char::is_ascii_whitespace`: space, tab, line feed, form feed and carriage return. -/
def isAsciiWhitespace (c : Char) : Bool := c == ' ' || c == '\t' || c == '\n' || c == '\x0C' || c == '\r'

/-- `char::is_ascii_hexdigit`. -/
def isAsciiHexdigit (c : Char) : Bool :=
  ('0' ≤ c && c ≤ '9') || ('A' ≤ c && c ≤ 'F') || ('a' ≤ c && c ≤ 'f')

/-- `char::to_digit(16)`. -/
def toDigit16 (c : Char) : Option Nat :=
  if '0' ≤ c ∧ c ≤ '9' then some (c.toNat - 48)
  else if 'a' ≤ c ∧ c ≤ 'f' then some (c.toNat - 87)
  else if 'A' ≤ c ∧ c ≤ 'F' then some (c.toNat - 55)
  else none

/-- The digit loop of `u8::from_str_radix(_, 16)`; `none` for a bad digit or a value above 255. -/
def radixLoop : List Char → Nat → Option Nat
  | [], acc => some acc
  | c :: rest, acc =>
    match toDigit16 c with
    | none => none
    | some d => if acc * 16 + d > 255 then none else radixLoop rest (acc * 16 + d)

/-- `u8::from_str_radix(_, 16)` of the Rust standard library: an optional plus sign and at least one
digit. -/
def fromStrRadix16 (s : List Char) : Option UInt8 :=
  match s with
  | [] => none
  | ['+'] => none
  | ['-'] => none
  | '+' :: rest => (radixLoop rest 0).map UInt8.ofNat
  | s => (radixLoop s 0).map UInt8.ofNat

/-- The errors of `decode_hex_bytes` (`OutputError::EmptyInput` and `OutputError::InvalidHex`, whose
message is omitted). -/
inductive HexError
  | emptyInput
  | invalidHex (index : Nat)
  deriving DecidableEq, Repr

/-- `push_hex_token`, src/output.rs:608-629: the byte pushed to the output. -/
def pushHexToken (token : List Char) (index : Nat) : Res HexError UInt8 :=
  let digits :=
    match token with
    | '0' :: 'x' :: rest => rest
    | '0' :: 'X' :: rest => rest
    | t => t
  if (digits.map Char.utf8Size).sum ≠ 2 || !digits.all isAsciiHexdigit then .err (.invalidHex index)
  else
    match fromStrRadix16 digits with
    | some b => .ok b
    | none => .err (.invalidHex index)

/-- The `map` over `(0..len).step_by(2)` of `decode_hex_bytes`, src/output.rs:570-580.  The text is known
to be ASCII, so slices of bytes are slices of characters. -/
def compactLoop : List Char → (index : Nat) → Res HexError (List UInt8)
  | a :: b :: rest, index =>
    match fromStrRadix16 [a, b] with
    | none => .err (.invalidHex index)
    | some x => do
      let xs ← compactLoop rest (index + 2)
      .ok (x :: xs)
  | _, _ => .ok []

/-- The separators of byte tokens, src/output.rs:588. -/
def isHexSeparator (c : Char) : Bool := isAsciiWhitespace c || c == ':' || c == '-'

/-- The loop of `decode_hex_bytes` over the characters and what follows it, src/output.rs:583-606. -/
def hexLoop : List Char → (index : Nat) → (bytes : List UInt8) → (token : List Char) →
    (tokenStart : Nat) → (sawSeparator : Bool) → Res HexError (List UInt8)
  | [], _, bytes, token, tokenStart, _ => do
    let bytes ← if token.isEmpty then .ok bytes else do
      let b ← pushHexToken token tokenStart
      .ok (bytes ++ [b])
    if bytes.isEmpty then .err .emptyInput else .ok bytes
  | c :: rest, index, bytes, token, tokenStart, sawSeparator =>
    if isHexSeparator c then do
      if token.isEmpty then hexLoop rest (index + c.utf8Size) bytes [] tokenStart true
      else do
        let b ← pushHexToken token tokenStart
        hexLoop rest (index + c.utf8Size) (bytes ++ [b]) [] tokenStart true
    else
      let tokenStart := if sawSeparator then index else tokenStart
      hexLoop rest (index + c.utf8Size) bytes (token ++ [c]) tokenStart false

/-- `decode_hex_bytes`, src/output.rs:550-606. -/
def decodeHexBytes (input : List Char) : Res HexError (List UInt8) :=
  let trimmed := trim input
  if trimmed.isEmpty then .err .emptyInput
  else if trimmed.all isAsciiHexdigit then
    if trimmed.length % 2 ≠ 0 then .err (.invalidHex (trimmed.length - 1)) else compactLoop trimmed 0
  else hexLoop trimmed 0 [] [] 0 true

/-- One upper-case hexadecimal digit as printed by `{:X}`. -/
def upperHexDigit (n : Nat) : Char := Char.ofNat (if n < 10 then 48 + n else 55 + n)

/-- `hex_string`, src/output.rs:2578-2580 (`{:02X}` of every byte). -/
def hexString (data : List UInt8) : List Char :=
  data.flatMap (fun b => [upperHexDigit (b.toNat / 16), upperHexDigit (b.toNat % 16)])

/-- `str::replace("0x", "")`. -/
def remove0x : List Char → List Char
  | '0' :: 'x' :: rest => remove0x rest
  | c :: rest => c :: remove0x rest
  | [] => []

/-- `slice::chunks(2)`. -/
def chunks2 {α : Type} : List α → List (List α)
  | a :: b :: rest => [a, b] :: chunks2 rest
  | [a] => [[a]]
  | [] => []

/-- `clean_and_convert`, src/mbus_data.rs:124-137. -/
def cleanAndConvert (input : List Char) : List UInt8 :=
  let cleaned := (remove0x (trim input)).filter (fun c => !(c == ' ' || c == ',' || c == 'x'))
  (chunks2 (cleaned.flatMap String.utf8EncodeChar)).map (fun chunk =>
    let byteStr := (fromUtf8 chunk).getD []
    (fromStrRadix16 byteStr).getD 0)

end MBus
