import Verif.Lemmas.AnnotateText
import Verif.Props.Annotate
/-! C103: the annotation as text. -/
namespace MBus
open Spec

/-- C103: whenever a telegram can be annotated, the text can be made, and it consists of a dump that shows
every byte at its place, and of a table that lists every segment once, in order, with its range, its bytes
and its description, below the headings of its layer and, if it belongs to a record, of that record.
Missing: a segment that belongs to no record may stand below the heading of a record, and a description may
contain line ends, see `C103_fails_filler` and `C103_fails_line`. -/
theorem C103_text_partial (cfg : Cfg) (dt : Data → List Char) (data : List UInt8)
    (segs : List ByteSegment) (h : annotateFrame cfg dt data = .ok segs) :
    ∃ title rule dump heading rule2 table,
      annotateAndRender cfg dt data =
        .ok (([title, rule] ++ dump ++ [[], heading, rule2] ++ table).flatMap (· ++ ['\n'])) ∧
      Dump data dump ∧ Listed data none none segs table := by
  obtain ⟨table, e, hl⟩ := segmentLines_ok cfg data segs (annotate_ranges cfg dt data segs h) none none none
    (by intro g hg; cases hg)
  refine ⟨"Hex Dump:".toList,
    "────────────────────────────────────────────────────────────────────".toList, _,
    padRight 12 "Offset".toList ++ [' '] ++ padRight 24 "Hex".toList ++ [' ']
        ++ padRight 22 "Kind".toList ++ " Detail".toList,
    padRight 12 "────────────".toList ++ [' '] ++ padRight 24 "────────────────────────".toList ++ [' ']
        ++ padRight 22 "──────────────────────".toList ++ " ──────────────────────────".toList,
    table, ?_, dump_ok data, hl⟩
  unfold annotateAndRender
  rw [h, Res.bind_ok]
  unfold renderAnnotations annotationLines
  rw [e]
  rfl

/-- C103: the text is refused for the same telegrams as the annotation, and with the same error. -/
theorem C103_rejects (cfg : Cfg) (dt : Data → List Char) (data : List UInt8) :
    (∀ e, annotateAndRender cfg dt data = .err e ↔ annotateFrame cfg dt data = .err e) ∧
    (annotateAndRender cfg dt data = .panic ↔ annotateFrame cfg dt data = .panic) := by
  cases h : annotateFrame cfg dt data with
  | ok segs =>
    obtain ⟨_, _, _, _, _, _, e, _⟩ := C103_text_partial cfg dt data segs h
    simp [e]
  | err e => simp [annotateAndRender, h]
  | panic => simp [annotateAndRender, h]

/-- C103: different kinds have different names. -/
theorem C103_kinds (a b : SegmentKind) (h : a.display = b.display) : a = b := by
  revert h
  cases a <;> cases b <;> decide

theorem ok_of_check {ε α : Type} {x : Res ε α} (p : α → Bool)
    (h : (match x with | .ok a => p a | _ => false) = true) : ∃ a, x = .ok a ∧ p a = true := by
  cases x with
  | ok a => exact ⟨a, rfl, h⟩
  | err _ => cases h
  | panic => cases h

/-- The rows of the table in `C103_fails_filler`. -/
def fillerRows : List Char :=
  "│  ── Record 0 ──\n".toList ++
  "│  [07]       01                       DIF                    DIF: 0x01\n".toList ++
  "│  [08]       13                       VIF                    VIF: 0x13\n".toList ++
  "│  [09]       05                       Data                   \n".toList ++
  "│  [0A]       2F                       Idle Filler            Idle Filler: 0x2F\n".toList

/-- C103 is false of fillers: the idle filler after a record stands below the heading of the record. -/
theorem C103_fails_filler (cfg : Cfg) :
    ∃ data segs filler text n, data = wiredLong [0x78, 0x01, 0x13, 0x05, 0x2F] ∧
      annotateFrame cfg (fun _ => []) data = .ok segs ∧
      filler ∈ segs ∧ filler.start = 10 ∧ filler.stop = 11 ∧ filler.group = none ∧
      annotateAndRender cfg (fun _ => []) data = .ok text ∧ (text.drop n).take 305 = fillerRows := by
  obtain ⟨segs, h1, k1⟩ := ok_of_check
    (x := annotateFrame cfg (fun _ => []) (wiredLong [0x78, 0x01, 0x13, 0x05, 0x2F]))
    (fun segs => segs.any (fun s => s.start == 10 && s.stop == 11 && s.group == none)) (by
      obtain ⟨oc, tf⟩ := cfg
      cases oc <;> cases tf <;> decide +kernel)
  obtain ⟨text, h2, k2⟩ := ok_of_check
    (x := annotateAndRender cfg (fun _ => []) (wiredLong [0x78, 0x01, 0x13, 0x05, 0x2F]))
    (fun text => decide ((text.drop 1060).take 305 = fillerRows)) (by
      obtain ⟨oc, tf⟩ := cfg
      cases oc <;> cases tf <;> decide +kernel)
  obtain ⟨f, hf, hp⟩ := List.any_eq_true.1 k1
  simp only [Bool.and_eq_true, beq_iff_eq] at hp
  exact ⟨_, segs, f, text, 1060, rfl, h1, hf, hp.1.1, hp.1.2, hp.2, h2, of_decide_eq_true k2⟩

/-- C103 is false of descriptions with a line end: the text a meter sends as the name of a unit goes into
the table as it is, so that the meter can put lines of its own into it. -/
theorem C103_fails_line (cfg : Cfg) :
    ∃ data text n, annotateAndRender cfg (fun _ => []) data = .ok text ∧
      (text.drop n).take 4 = "\nA\"\n".toList := by
  obtain ⟨oc, tf⟩ := cfg
  cases tf
  · obtain ⟨text, h2, k2⟩ := ok_of_check
      (x := annotateAndRender ⟨oc, false⟩ (fun _ => [])
        (wiredLong [0x78, 0x01, 0xFC, 0x74, 0x03, 0x43, 0x0A, 0x41, 0x05]))
      (fun text => decide ((text.drop 1443).take 4 = "\nA\"\n".toList)) (by
        cases oc <;> decide +kernel)
    exact ⟨_, text, 1443, h2, of_decide_eq_true k2⟩
  · obtain ⟨text, h2, k2⟩ := ok_of_check
      (x := annotateAndRender ⟨oc, true⟩ (fun _ => [])
        (wiredLong [0x78, 0x01, 0xFC, 0x03, 0x43, 0x0A, 0x41, 0x74, 0x05]))
      (fun text => decide ((text.drop 1443).take 4 = "\nA\"\n".toList)) (by
        cases oc <;> decide +kernel)
    exact ⟨_, text, 1443, h2, of_decide_eq_true k2⟩

/-- A telegram with a record can be annotated. -/
example : ∃ segs, annotateFrame cfgRelease (fun _ => []) (wiredLong [0x78, 0x01, 0x13, 0x05]) = .ok segs ∧
    segs.length = 11 := by
  obtain ⟨segs, h, k⟩ := ok_of_check
    (x := annotateFrame cfgRelease (fun _ => []) (wiredLong [0x78, 0x01, 0x13, 0x05]))
    (fun s => decide (s.length = 11)) (by decide +kernel)
  exact ⟨segs, h, of_decide_eq_true k⟩

/-- One that is cut off is refused. -/
example : annotateAndRender cfgRelease (fun _ => []) [0x68, 0x04] = .err .invalidStartByte := by
  decide +kernel

end MBus
