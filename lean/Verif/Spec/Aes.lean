/-!
# Specification of AES-128 (FIPS 197)

The crates `aes` and `cbc` are dependencies and not in /repo, so the model of the parser takes the block
cipher as a parameter.  This file gives the cipher itself, read from the standard, so that the theorems
about that parameter can be stated for the real one.  A state is the list of its 16 bytes in the order
in which they enter the cipher (column by column).
-/
namespace MBus.Spec.Aes

/-- Multiplication by `x` in GF(2^8) (FIPS 197, 4.2.1). -/
def xtime (b : UInt8) : UInt8 := (b <<< 1) ^^^ (if b >>> 7 = 1 then 0x1B else 0)

/-- Multiplication in GF(2^8) by a factor below 16 (FIPS 197, 4.2): the sum of the products with the
powers of `x` in the factor. -/
def times (k : Nat) (b : UInt8) : UInt8 :=
  (if k.testBit 0 then b else 0) ^^^ (if k.testBit 1 then xtime b else 0) ^^^
    (if k.testBit 2 then xtime (xtime b) else 0) ^^^
    (if k.testBit 3 then xtime (xtime (xtime b)) else 0)

/-- The substitution table (FIPS 197, figure 7). -/
def sboxTable : List UInt8 := [
  0x63, 0x7C, 0x77, 0x7B, 0xF2, 0x6B, 0x6F, 0xC5, 0x30, 0x01, 0x67, 0x2B, 0xFE, 0xD7, 0xAB, 0x76,
  0xCA, 0x82, 0xC9, 0x7D, 0xFA, 0x59, 0x47, 0xF0, 0xAD, 0xD4, 0xA2, 0xAF, 0x9C, 0xA4, 0x72, 0xC0,
  0xB7, 0xFD, 0x93, 0x26, 0x36, 0x3F, 0xF7, 0xCC, 0x34, 0xA5, 0xE5, 0xF1, 0x71, 0xD8, 0x31, 0x15,
  0x04, 0xC7, 0x23, 0xC3, 0x18, 0x96, 0x05, 0x9A, 0x07, 0x12, 0x80, 0xE2, 0xEB, 0x27, 0xB2, 0x75,
  0x09, 0x83, 0x2C, 0x1A, 0x1B, 0x6E, 0x5A, 0xA0, 0x52, 0x3B, 0xD6, 0xB3, 0x29, 0xE3, 0x2F, 0x84,
  0x53, 0xD1, 0x00, 0xED, 0x20, 0xFC, 0xB1, 0x5B, 0x6A, 0xCB, 0xBE, 0x39, 0x4A, 0x4C, 0x58, 0xCF,
  0xD0, 0xEF, 0xAA, 0xFB, 0x43, 0x4D, 0x33, 0x85, 0x45, 0xF9, 0x02, 0x7F, 0x50, 0x3C, 0x9F, 0xA8,
  0x51, 0xA3, 0x40, 0x8F, 0x92, 0x9D, 0x38, 0xF5, 0xBC, 0xB6, 0xDA, 0x21, 0x10, 0xFF, 0xF3, 0xD2,
  0xCD, 0x0C, 0x13, 0xEC, 0x5F, 0x97, 0x44, 0x17, 0xC4, 0xA7, 0x7E, 0x3D, 0x64, 0x5D, 0x19, 0x73,
  0x60, 0x81, 0x4F, 0xDC, 0x22, 0x2A, 0x90, 0x88, 0x46, 0xEE, 0xB8, 0x14, 0xDE, 0x5E, 0x0B, 0xDB,
  0xE0, 0x32, 0x3A, 0x0A, 0x49, 0x06, 0x24, 0x5C, 0xC2, 0xD3, 0xAC, 0x62, 0x91, 0x95, 0xE4, 0x79,
  0xE7, 0xC8, 0x37, 0x6D, 0x8D, 0xD5, 0x4E, 0xA9, 0x6C, 0x56, 0xF4, 0xEA, 0x65, 0x7A, 0xAE, 0x08,
  0xBA, 0x78, 0x25, 0x2E, 0x1C, 0xA6, 0xB4, 0xC6, 0xE8, 0xDD, 0x74, 0x1F, 0x4B, 0xBD, 0x8B, 0x8A,
  0x70, 0x3E, 0xB5, 0x66, 0x48, 0x03, 0xF6, 0x0E, 0x61, 0x35, 0x57, 0xB9, 0x86, 0xC1, 0x1D, 0x9E,
  0xE1, 0xF8, 0x98, 0x11, 0x69, 0xD9, 0x8E, 0x94, 0x9B, 0x1E, 0x87, 0xE9, 0xCE, 0x55, 0x28, 0xDF,
  0x8C, 0xA1, 0x89, 0x0D, 0xBF, 0xE6, 0x42, 0x68, 0x41, 0x99, 0x2D, 0x0F, 0xB0, 0x54, 0xBB, 0x16]

/-- The inverse substitution table (FIPS 197, figure 14). -/
def invSboxTable : List UInt8 := [
  0x52, 0x09, 0x6A, 0xD5, 0x30, 0x36, 0xA5, 0x38, 0xBF, 0x40, 0xA3, 0x9E, 0x81, 0xF3, 0xD7, 0xFB,
  0x7C, 0xE3, 0x39, 0x82, 0x9B, 0x2F, 0xFF, 0x87, 0x34, 0x8E, 0x43, 0x44, 0xC4, 0xDE, 0xE9, 0xCB,
  0x54, 0x7B, 0x94, 0x32, 0xA6, 0xC2, 0x23, 0x3D, 0xEE, 0x4C, 0x95, 0x0B, 0x42, 0xFA, 0xC3, 0x4E,
  0x08, 0x2E, 0xA1, 0x66, 0x28, 0xD9, 0x24, 0xB2, 0x76, 0x5B, 0xA2, 0x49, 0x6D, 0x8B, 0xD1, 0x25,
  0x72, 0xF8, 0xF6, 0x64, 0x86, 0x68, 0x98, 0x16, 0xD4, 0xA4, 0x5C, 0xCC, 0x5D, 0x65, 0xB6, 0x92,
  0x6C, 0x70, 0x48, 0x50, 0xFD, 0xED, 0xB9, 0xDA, 0x5E, 0x15, 0x46, 0x57, 0xA7, 0x8D, 0x9D, 0x84,
  0x90, 0xD8, 0xAB, 0x00, 0x8C, 0xBC, 0xD3, 0x0A, 0xF7, 0xE4, 0x58, 0x05, 0xB8, 0xB3, 0x45, 0x06,
  0xD0, 0x2C, 0x1E, 0x8F, 0xCA, 0x3F, 0x0F, 0x02, 0xC1, 0xAF, 0xBD, 0x03, 0x01, 0x13, 0x8A, 0x6B,
  0x3A, 0x91, 0x11, 0x41, 0x4F, 0x67, 0xDC, 0xEA, 0x97, 0xF2, 0xCF, 0xCE, 0xF0, 0xB4, 0xE6, 0x73,
  0x96, 0xAC, 0x74, 0x22, 0xE7, 0xAD, 0x35, 0x85, 0xE2, 0xF9, 0x37, 0xE8, 0x1C, 0x75, 0xDF, 0x6E,
  0x47, 0xF1, 0x1A, 0x71, 0x1D, 0x29, 0xC5, 0x89, 0x6F, 0xB7, 0x62, 0x0E, 0xAA, 0x18, 0xBE, 0x1B,
  0xFC, 0x56, 0x3E, 0x4B, 0xC6, 0xD2, 0x79, 0x20, 0x9A, 0xDB, 0xC0, 0xFE, 0x78, 0xCD, 0x5A, 0xF4,
  0x1F, 0xDD, 0xA8, 0x33, 0x88, 0x07, 0xC7, 0x31, 0xB1, 0x12, 0x10, 0x59, 0x27, 0x80, 0xEC, 0x5F,
  0x60, 0x51, 0x7F, 0xA9, 0x19, 0xB5, 0x4A, 0x0D, 0x2D, 0xE5, 0x7A, 0x9F, 0x93, 0xC9, 0x9C, 0xEF,
  0xA0, 0xE0, 0x3B, 0x4D, 0xAE, 0x2A, 0xF5, 0xB0, 0xC8, 0xEB, 0xBB, 0x3C, 0x83, 0x53, 0x99, 0x61,
  0x17, 0x2B, 0x04, 0x7E, 0xBA, 0x77, 0xD6, 0x26, 0xE1, 0x69, 0x14, 0x63, 0x55, 0x21, 0x0C, 0x7D]

def sbox (b : UInt8) : UInt8 := sboxTable.getD b.toNat 0
def invSbox (b : UInt8) : UInt8 := invSboxTable.getD b.toNat 0

/-- SubBytes (FIPS 197, 5.1.1). -/
def subBytes (s : List UInt8) : List UInt8 := s.map sbox
def invSubBytes (s : List UInt8) : List UInt8 := s.map invSbox

/-- ShiftRows (FIPS 197, 5.1.2): row `r` of the state is rotated to the left by `r`. -/
def shiftRows : List UInt8 → List UInt8
  | [a0, a1, a2, a3, b0, b1, b2, b3, c0, c1, c2, c3, d0, d1, d2, d3] =>
    [a0, b1, c2, d3, b0, c1, d2, a3, c0, d1, a2, b3, d0, a1, b2, c3]
  | s => s

/-- InvShiftRows (FIPS 197, 5.3.1). -/
def invShiftRows : List UInt8 → List UInt8
  | [a0, a1, a2, a3, b0, b1, b2, b3, c0, c1, c2, c3, d0, d1, d2, d3] =>
    [a0, d1, c2, b3, b0, a1, d2, c3, c0, b1, a2, d3, d0, c1, b2, a3]
  | s => s

/-- A column multiplied by the circulant matrix with first row `p q r s`. -/
def column (p q r s : Nat) (a b c d : UInt8) : List UInt8 :=
  [times p a ^^^ times q b ^^^ times r c ^^^ times s d,
   times s a ^^^ times p b ^^^ times q c ^^^ times r d,
   times r a ^^^ times s b ^^^ times p c ^^^ times q d,
   times q a ^^^ times r b ^^^ times s c ^^^ times p d]

/-- The four columns of a state multiplied by a circulant matrix. -/
def columns (p q r s : Nat) : List UInt8 → List UInt8
  | [a0, a1, a2, a3, b0, b1, b2, b3, c0, c1, c2, c3, d0, d1, d2, d3] =>
    column p q r s a0 a1 a2 a3 ++ column p q r s b0 b1 b2 b3 ++ column p q r s c0 c1 c2 c3 ++
      column p q r s d0 d1 d2 d3
  | s => s

/-- MixColumns and InvMixColumns (FIPS 197, 5.1.3 and 5.3.3). -/
def mixColumns (s : List UInt8) : List UInt8 := columns 2 3 1 1 s
def invMixColumns (s : List UInt8) : List UInt8 := columns 14 11 13 9 s

/-- AddRoundKey (FIPS 197, 5.1.4). -/
def addRoundKey (k s : List UInt8) : List UInt8 := List.zipWith (· ^^^ ·) s k

/-- The next round key (FIPS 197, 5.2): the four words after the last four. -/
def nextKey (rcon : UInt8) (k : List UInt8) : List UInt8 :=
  let w (i : Nat) := (k.drop (4 * i)).take 4
  let xor := List.zipWith (α := UInt8) (β := UInt8) (· ^^^ ·)
  let temp := match w 3 with
    | [a, b, c, d] => [sbox b ^^^ rcon, sbox c, sbox d, sbox a]
    | t => t
  let w0 := xor (w 0) temp
  let w1 := xor (w 1) w0
  let w2 := xor (w 2) w1
  w0 ++ w1 ++ w2 ++ xor (w 3) w2

/-- The round keys of a key, from the given round constants on. -/
def expand : List UInt8 → List UInt8 → List (List UInt8)
  | [], k => [k]
  | rcon :: rest, k => k :: expand rest (nextKey rcon k)

/-- The key schedule of AES-128: eleven round keys. -/
def roundKeys (key : List UInt8) : List (List UInt8) :=
  expand [0x01, 0x02, 0x04, 0x08, 0x10, 0x20, 0x40, 0x80, 0x1B, 0x36] key

/-- The rounds of the cipher (FIPS 197, 5.1): the last one does not mix columns. -/
def rounds : List (List UInt8) → List UInt8 → List UInt8
  | [], s => s
  | [k], s => addRoundKey k (shiftRows (subBytes s))
  | k :: ks, s => rounds ks (addRoundKey k (mixColumns (shiftRows (subBytes s))))

/-- Encryption of a block. -/
def encrypt (key block : List UInt8) : List UInt8 :=
  match roundKeys key with
  | [] => block
  | k :: ks => rounds ks (addRoundKey k block)

/-- The rounds of the inverse cipher (FIPS 197, 5.3), with the round keys from the last but one down
to the first. -/
def invRounds : List (List UInt8) → List UInt8 → List UInt8
  | [], s => s
  | [k], s => addRoundKey k (invSubBytes (invShiftRows s))
  | k :: ks, s => invRounds ks (invMixColumns (addRoundKey k (invSubBytes (invShiftRows s))))

/-- Decryption of a block. -/
def decrypt (key block : List UInt8) : List UInt8 :=
  match (roundKeys key).reverse with
  | [] => block
  | k :: ks => invRounds ks (addRoundKey k block)

/-- The block decryption that the parser's cipher crates offer.  There are only keys of 16 bytes. -/
def aes128 (key block : List UInt8) : List UInt8 := if key.length = 16 then decrypt key block else block

/-! The substitution table is the one the standard constructs: the inverse in GF(2^8) followed by an
affine map (FIPS 197, 5.1.1). -/

/-- The product of two elements of GF(2^8), from the lowest bit of the first factor on. -/
def product : Nat → UInt8 → UInt8 → UInt8
  | 0, _, _ => 0
  | n + 1, a, b => (if a % 2 = 1 then b else 0) ^^^ product n (a / 2) (xtime b)

/-- A byte rotated to the left. -/
def rotated (b : UInt8) (n : Nat) : UInt8 := UInt8.ofNat (b.toNat * 2 ^ n % 256 + b.toNat / 2 ^ (8 - n))

/-- The affine map of the substitution. -/
def affine (b : UInt8) : UInt8 :=
  b ^^^ rotated b 1 ^^^ rotated b 2 ^^^ rotated b 3 ^^^ rotated b 4 ^^^ 0x63

end MBus.Spec.Aes
