import Verif.Model.Base
/-! What the hexadecimal input formats are. -/
namespace MBus.Spec

/-- The value of a hexadecimal digit. -/
def hexDigit (c : Char) : Option Nat := "0123456789abcdef".toList.findIdx? (· == c.toLower)

/-- The text consists of two hexadecimal digits for each byte. -/
inductive Pairs : List Char → List UInt8 → Prop
  | nil : Pairs [] []
  | cons (hi lo : Char) (a b : Nat) (rest : List Char) (bytes : List UInt8) :
      hexDigit hi = some a → hexDigit lo = some b → Pairs rest bytes →
      Pairs (hi :: lo :: rest) (UInt8.ofNat (16 * a + b) :: bytes)

/-- The separators between byte tokens: ASCII white space, colon and hyphen. -/
def separators : List Char := [' ', '\t', '\n', '\x0C', '\r', ':', '-']

/-- A byte token: two hexadecimal digits, with or without the prefix 0x or 0X. -/
def ByteToken (token : List Char) (byte : UInt8) : Prop :=
  ∃ pre digits, token = pre ++ digits ∧ pre ∈ [[], ['0', 'x'], ['0', 'X']] ∧ Pairs digits [byte]

/-- The text consists of byte tokens separated, preceded and followed by separators. -/
inductive Tokens : List Char → List UInt8 → Prop
  | nil : Tokens [] []
  | sep (c : Char) (rest : List Char) (bytes : List UInt8) :
      c ∈ separators → Tokens rest bytes → Tokens (c :: rest) bytes
  | last (token : List Char) (byte : UInt8) : ByteToken token byte → Tokens token [byte]
  | token (token : List Char) (byte : UInt8) (c : Char) (rest : List Char) (bytes : List UInt8) :
      ByteToken token byte → c ∈ separators → Tokens rest bytes →
      Tokens (token ++ c :: rest) (byte :: bytes)

/-- The code points with the Unicode property White_Space. -/
def whiteSpace : List Nat :=
  [0x9, 0xA, 0xB, 0xC, 0xD, 0x20, 0x85, 0xA0, 0x1680, 0x2000, 0x2001, 0x2002, 0x2003, 0x2004, 0x2005,
    0x2006, 0x2007, 0x2008, 0x2009, 0x200A, 0x2028, 0x2029, 0x202F, 0x205F, 0x3000]

/-- `t` is the text without white space at its ends. -/
def Trimmed (text t : List Char) : Prop :=
  ∃ l r, text = l ++ t ++ r ∧ (∀ c ∈ l ++ r, c.toNat ∈ whiteSpace) ∧
    (∀ c ∈ t.head?, c.toNat ∉ whiteSpace) ∧ (∀ c ∈ t.getLast?, c.toNat ∉ whiteSpace)

/-- Two hexadecimal digits, upper or lower case. -/
def hexPair (upper : Bool) (b : UInt8) : List Char :=
  let digit (n : Nat) : Char := (if upper then "0123456789ABCDEF" else "0123456789abcdef").toList.getD n '0'
  [digit (b.toNat / 16), digit (b.toNat % 16)]

/-- The number of bytes of a text in UTF-8. -/
def utf8Length (text : List Char) : Nat := (text.map Char.utf8Size).sum

/-- The first thing wrong in a text of byte tokens: a maximal piece without separators that is no byte
token, after complete tokens. -/
def BadToken (text : List Char) (i : Nat) : Prop :=
  ∃ before bad after bytes, text = before ++ bad ++ after ∧ Tokens before bytes ∧
    (∀ c ∈ before.getLast?, c ∈ separators) ∧ bad ≠ [] ∧ (∀ c ∈ bad, c ∉ separators) ∧
    (∀ c ∈ after.head?, c ∈ separators) ∧ (∀ b, ¬ ByteToken bad b) ∧ utf8Length before = i

/-- A listing of bytes: two hexadecimal digits for each byte, with or without the prefix 0x, and any number
of blanks and commas between the bytes. -/
inductive Listing : List Char → List UInt8 → Prop
  | nil : Listing [] []
  | noise (c : Char) (rest : List Char) (bytes : List UInt8) :
      c ∈ [' ', ','] → Listing rest bytes → Listing (c :: rest) bytes
  | byte (pre digits : List Char) (b : UInt8) (rest : List Char) (bytes : List UInt8) :
      pre ∈ [[], ['0', 'x']] → Pairs digits [b] → Listing rest bytes →
      Listing (pre ++ digits ++ rest) (b :: bytes)

/-- What the legacy parser makes of two characters: the byte if both are hexadecimal digits, the digit if
one follows a plus sign, and 0 in all other cases. -/
def lenientByte (a b : Char) : UInt8 :=
  match hexDigit a, hexDigit b with
  | some x, some y => UInt8.ofNat (16 * x + y)
  | none, some y => if a = '+' then UInt8.ofNat y else 0
  | _, _ => 0

end MBus.Spec
