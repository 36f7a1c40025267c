import Verif.Model.Wired
/-!
# Specification of wired M-Bus telegrams (EN 13757-2)

Independent of the parser: it only uses the result *types* of the model.
-/
namespace MBus.Spec

/-- The arithmetic checksum: sum of the bytes modulo 256. -/
def checksum (bytes : List UInt8) : UInt8 := UInt8.ofNat (bytes.map UInt8.toNat).sum

/-- The C-field codes of the standard that the library knows, with their meaning: the low nibble
is the function, bit 6 is PRM (message from the master), bits 5 and 4 are FCB/FCV for the master
and ACD/DFC for the slave. -/
inductive FunctionCode : UInt8 → Function → Prop
  | sndNk : FunctionCode 0x40 (.sndNk false)
  | sndNr : FunctionCode 0x44 .sndNr
  | sndUd0 : FunctionCode 0x53 (.sndUd false)
  | sndUd1 : FunctionCode 0x73 (.sndUd true)
  | reqUd1_0 : FunctionCode 0x5A (.reqUd1 false)
  | reqUd1_1 : FunctionCode 0x7A (.reqUd1 true)
  | reqUd2_0 : FunctionCode 0x5B (.reqUd2 false)
  | reqUd2_1 : FunctionCode 0x7B (.reqUd2 true)
  | rspUd00 : FunctionCode 0x08 (.rspUd false false)
  | rspUd01 : FunctionCode 0x18 (.rspUd false true)
  | rspUd10 : FunctionCode 0x28 (.rspUd true false)
  | rspUd11 : FunctionCode 0x38 (.rspUd true true)

/-- Meaning of the A-field: 0 unconfigured, 1-252 primary, 253 secondary addressing,
254 broadcast with reply, 255 broadcast without reply.  (251, 252 are reserved in the standard;
the library reports them as primary.) -/
def addressOf (a : UInt8) : Address :=
  if a.toNat = 0 then .uninitalized
  else if a.toNat < 253 then .primary a
  else if a.toNat = 253 then .secondary
  else .broadcast (a.toNat = 254)

/-- Bytes of a long frame `68 L L x C A payload CS 16`; `x` should be 68. -/
def longFrameBytes (x c a : UInt8) (payload : List UInt8) : List UInt8 :=
  let l := UInt8.ofNat (payload.length + 2)
  [0x68, l, l, x, c, a] ++ payload ++ [checksum (c :: a :: payload), 0x16]

/-- Bytes of a short frame `10 C A CS 16`. -/
def shortFrameBytes (c a : UInt8) : List UInt8 := [0x10, c, a, checksum [c, a], 0x16]

/-- `WiredTelegram bytes frame`: the byte string is a telegram with the content `frame`.  As in
the library, anything after the single character `E5` is ignored and the fourth byte of a long
frame is free. -/
inductive WiredTelegram : List UInt8 → WiredFrame → Prop
  | single (rest : List UInt8) : WiredTelegram (0xE5 :: rest) (.singleCharacter 0xE5)
  | short (c a : UInt8) (fn : Function) (hf : FunctionCode c fn) :
      WiredTelegram (shortFrameBytes c a) (.shortFrame fn (addressOf a))
  | long (x c a : UInt8) (payload : List UInt8) (fn : Function) (hf : FunctionCode c fn)
      (hc : c ≠ 0x53) (hl : payload.length ≤ 253) :
      WiredTelegram (longFrameBytes x c a payload) (.longFrame fn (addressOf a) payload)
  | control (x a : UInt8) (payload : List UInt8) (hl : payload.length ≤ 253) :
      WiredTelegram (longFrameBytes x 0x53 a payload)
        (.controlFrame (.sndUd false) (addressOf a) payload)

end MBus.Spec
