import Verif.Model.Annotate
import Verif.Model.Render
/-!
# Model of the text rendering of annotations, `src/annotate.rs:1347-1480`
-/
namespace MBus

/-- `{:<width}` of a text. -/
def padRight (width : Nat) (text : List Char) : List Char :=
  text ++ List.replicate (width - text.length) ' '

/-- `{:0widthX}` of a `usize`. -/
def upperHexNat (width n : Nat) : List Char :=
  let digits := (Nat.toDigits 16 n).map Char.toUpper
  List.replicate (width - digits.length) '0' ++ digits

/-- `slice::chunks(16)`. -/
def chunks16 (data : List UInt8) : List (List UInt8) :=
  match data with
  | [] => []
  | b :: rest => (b :: rest).take 16 :: chunks16 ((b :: rest).drop 16)
termination_by data.length
decreasing_by simp only [List.length_drop, List.length_cons]; omega

/-- The character shown for a byte, src/annotate.rs:1384-1389; `is_ascii_graphic` is `'!'..='~'`. -/
def dumpChar (b : UInt8) : Char :=
  if (0x21 ≤ b ∧ b ≤ 0x7E) ∨ b = 0x20 then Char.ofNat b.toNat else '·'

/-- One line of the dump, src/annotate.rs:1364-1392. -/
def dumpLine (i : Nat) (chunk : List UInt8) : List Char :=
  "  ".toList ++ upperHexNat 4 (i * 16) ++ "  ".toList
  ++ chunk.zipIdx.flatMap (fun (b, j) => (if j = 8 then [' '] else []) ++ hexString [b] ++ [' '])
  ++ (List.replicate (16 - chunk.length) "   ".toList).flatten
  ++ (if chunk.length ≤ 8 then [' '] else [])
  ++ [' '] ++ chunk.map dumpChar

/-- The offset column, src/annotate.rs:1433-1437. -/
def offsetText (cfg : Cfg) (seg : ByteSegment) : Res Unit (List Char) := do
  let n ← usizeSub cfg seg.stop seg.start
  .ok (if n = 1 then ['['] ++ upperHexNat 2 seg.start ++ [']']
    else ['['] ++ upperHexNat 2 seg.start ++ "..".toList ++ upperHexNat 2 seg.stop ++ [']'])

/-- The column of bytes, src/annotate.rs:1440-1458.  Slicing beyond the data panics. -/
def bytesText (cfg : Cfg) (data : List UInt8) (seg : ByteSegment) : Res Unit (List Char) := do
  let byteCount ← usizeSub cfg seg.stop seg.start
  if seg.start < data.length then do
    let available ← usizeSub cfg (min seg.stop data.length) seg.start
    let shown := min available 8
    if data.length < seg.start + shown then .panic
    else
      let h := ((data.drop seg.start).take shown).flatMap (fun b => hexString [b] ++ [' '])
      .ok (if byteCount > 8 then h ++ "...".toList else h.dropLast)
  else .ok []

/-- The heading of a layer, src/annotate.rs:1410-1419. -/
def layerLine (layer : Layer) : List Char :=
  let header := match layer with
    | .frame => "Frame"
    | .appHeader => "Application Header"
    | .recordField => "Data Records"
  "┌─ ".toList ++ header.toList
    ++ " ────────────────────────────────────────────────────────".toList

/-- The heading of a record, src/annotate.rs:1426. -/
def recordLine (g : Nat) : List Char := "│  ── Record ".toList ++ natText g ++ " ──".toList

/-- The line of a segment, src/annotate.rs:1432-1466. -/
def segmentLine (cfg : Cfg) (data : List UInt8) (seg : ByteSegment) : Res Unit (List Char) := do
  let offset ← offsetText cfg seg
  let hex ← bytesText cfg data seg
  .ok ("│  ".toList ++ padRight 10 offset ++ [' '] ++ padRight 24 hex ++ [' ']
    ++ padRight 22 seg.kind.display ++ [' '] ++ seg.detail)

/-- The headings printed before a segment, src/annotate.rs:1405-1430. -/
def headingLines (layer : Option Layer) (group : Option Nat) (seg : ByteSegment) : List (List Char) :=
  (if layer ≠ some seg.layer then [layerLine seg.layer] else [])
  ++ (if seg.layer = .recordField ∧ seg.group ≠ group then
      match seg.group with
      | some g => [recordLine g]
      | none => []
    else [])

/-- `current_group` after a segment, src/annotate.rs:1405-1430. -/
def groupAfter (layer : Option Layer) (group : Option Nat) (seg : ByteSegment) : Option Nat :=
  if seg.layer = .recordField ∧ seg.group ≠ group then seg.group
  else if layer ≠ some seg.layer then none else group

/-- The loop over the segments, src/annotate.rs:1402-1467. -/
def segmentLines (cfg : Cfg) (data : List UInt8) :
    (layer : Option Layer) → (group : Option Nat) → List ByteSegment → Res Unit (List (List Char))
  | _, _, [] => .ok []
  | layer, group, seg :: segs => do
    let line ← segmentLine cfg data seg
    let more ← segmentLines cfg data (some seg.layer) (groupAfter layer group seg) segs
    .ok (headingLines layer group seg ++ [line] ++ more)

/-- The lines of `render_annotations`, src/annotate.rs:1352-1470. -/
def annotationLines (cfg : Cfg) (segments : List ByteSegment) (data : List UInt8) :
    Res Unit (List (List Char)) := do
  let table ← segmentLines cfg data none none segments
  .ok (["Hex Dump:".toList,
      "────────────────────────────────────────────────────────────────────".toList]
    ++ (chunks16 data).zipIdx.map (fun (chunk, i) => dumpLine i chunk)
    ++ [[],
      padRight 12 "Offset".toList ++ [' '] ++ padRight 24 "Hex".toList ++ [' ']
        ++ padRight 22 "Kind".toList ++ " Detail".toList,
      padRight 12 "────────────".toList ++ [' '] ++ padRight 24 "────────────────────────".toList ++ [' ']
        ++ padRight 22 "──────────────────────".toList ++ " ──────────────────────────".toList]
    ++ table)

/-- `render_annotations`, src/annotate.rs:1352-1470. -/
def renderAnnotations (cfg : Cfg) (segments : List ByteSegment) (data : List UInt8) :
    Res Unit (List Char) := do
  let lines ← annotationLines cfg segments data
  .ok (unlines lines)

/-- `annotate_and_render`, src/annotate.rs:1474-1477. -/
def annotateAndRender (cfg : Cfg) (dataText : Data → List Char) (data : List UInt8) :
    Res FrameError (List Char) := do
  let segments ← annotateFrame cfg dataText data
  (renderAnnotations cfg segments data).mapErr (fun _ => FrameError.invalidStartByte)

end MBus
