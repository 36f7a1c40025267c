import Verif.Model.Annotate
/-!
# Nested calls

The two functions of the program that call themselves, with a stack that has room for a given number of nested calls.  `none`
means that the stack is exhausted, upon which a Rust program is aborted.
-/
namespace MBus

/-- `UserDataBlock::try_from(&[u8])`, application-layer lib.rs:779-1207, which calls itself at 1135, with room for `room`
nested calls. -/
def UserDataBlock.tryFromWithin : Nat → List UInt8 → Option (Res AppError UserDataBlock)
  | 0, _ => none
  | room + 1, data =>
    match data with
    | [] => some (.err .missingControlInformation)
    | ci :: rest =>
      match ControlInformation.ofByte ci with
      | .err e => some (.err e)
      | .panic => some .panic
      | .ok .resetAtApplicationLevel => some (do
        let b ← Res.ofOption .insufficientData (ci :: rest)[1]?
        .ok (.reset (ApplicationResetSubcode.ofByte b)))
      | .ok (.responseWithVariableDataStructure lsbOrder) => some (parseLong lsbOrder (ci :: rest))
      | .ok .responseWithFixedDataStructure => some (parseFixed (ci :: rest))
      | .ok .applicationLayerNoTransport => some (do
        let block ← Res.ofOption .insufficientData (slice? (ci :: rest) 1 (ci :: rest).length)
        .ok (.noTpl none block))
      | .ok .applicationLayerShortTransport => some (parseShort ci (ci :: rest))
      | .ok .extendedLinkLayerI =>
        match rest with
        | cc :: acc :: inner =>
          (tryFromWithin room inner).map (UserDataBlock.underEll ⟨cc, acc, none, none⟩)
        | _ => some (.err .insufficientData)
      | .ok .extendedLinkLayerII => some (parseEll .formatII (ci :: rest))
      | .ok .extendedLinkLayerIII => some (parseEll .formatIII (ci :: rest))
      | .ok c =>
        match c.unimplementedName with
        | some feature => some (.err (.unimplemented feature))
        | none => some .panic

/-- `annotate_application_layer`, src/annotate.rs:370-678, which calls itself at 581, with room for `room` nested calls. -/
def annotateAppWithin (cfg : Cfg) (dataText : Data → List Char) :
    Nat → Nat → List UInt8 → Option (Res Unit (List ByteSegment))
  | 0, _, _ => none
  | room + 1, base, app =>
    match app with
    | [] => some (.ok [])
    | ci :: tail =>
      if ci = 0x72 ∨ ci = 0x76 then
        if (ci :: tail).length < 13 then
          some (.ok [headerSeg base (base + (ci :: tail).length) .unknown
            "Incomplete long TPL header".toList])
        else some (do
          let records ← variableDataSegs cfg dataText
            (configEncrypted (byteOr0 (ci :: tail) 11) (byteOr0 (ci :: tail) 12)) (base + 13)
            ((ci :: tail).drop 13)
          .ok (longTplSegs base (ci :: tail) ++ records))
      else if ci = 0x7A ∨ (0xA0 ≤ ci ∧ ci ≤ 0xAF) then
        if (ci :: tail).length < shortTplOffset ci then
          some (.ok [headerSeg base (base + (ci :: tail).length) .unknown
            "Incomplete short TPL header".toList])
        else some (do
          let records ← variableDataSegs cfg dataText
            (configEncrypted (byteOr0 (ci :: tail) (shortTplSkip ci + 2))
              (byteOr0 (ci :: tail) (shortTplSkip ci + 3)))
            (base + shortTplOffset ci) ((ci :: tail).drop (shortTplOffset ci))
          .ok (shortTplSegs base (ci :: tail) ci ++ records))
      else if ci = 0x78 then some (do
        let records ← recordsIfAny cfg dataText (base + 1) tail
        .ok (headerSeg base (base + 1) .ciField "CI: 0x78 (Application Layer, no TPL header)".toList
          :: records))
      else if ci = 0x8C then
        if (ci :: tail).length < 3 then
          some (.ok [headerSeg base (base + (ci :: tail).length) .unknown "Incomplete ELL I header".toList])
        else
          (if (tail.drop 2).isEmpty then some (.ok []) else annotateAppWithin cfg dataText room (base + 3) (tail.drop 2)).map
            fun inner => do
              let inner ← inner
              .ok ([headerSeg base (base + 1) .ciField "CI: 0x8C (ELL I)".toList,
                headerSeg (base + 1) (base + 3) .extendedLinkLayer "ELL I: CC + Access Number".toList]
                ++ inner)
      else if ci = 0x8D then
        some (ellSegs cfg dataText base (ci :: tail) 8 "ELL II".toList "CC + ACC + SN[4] + CRC[2]".toList
          "CI: 0x8D (ELL II)".toList)
      else if ci = 0x8E then
        some (ellSegs cfg dataText base (ci :: tail) 16 "ELL III".toList
          "CC + ACC + MFR[2] + ADDR[6] + SN[4] + CRC[2]".toList "CI: 0x8E (ELL III)".toList)
      else
        some (.ok [headerSeg base (base + (ci :: tail).length) .unknown
          ("Unknown CI: 0x".toList ++ hexString [ci])])

end MBus
