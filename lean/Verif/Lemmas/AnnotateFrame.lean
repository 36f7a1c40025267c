import Verif.Lemmas.AnnotateRecords
/-! # Lemmas about the annotation of whole telegrams -/
namespace MBus
open Spec

/-! ## The three ways to accept a telegram -/

theorem frame_cases {cfg : Cfg} {dt : Data → List Char} {data : List UInt8} {segs : List ByteSegment}
    (h : annotateFrame cfg dt data = .ok segs) :
    annotateWired cfg dt data = .ok segs ∨
    ((∃ e, annotateWired cfg dt data = .err e) ∧
      ((∃ stripped b, stripFormatACrcs data (List.replicate 512 0) = .ok (some stripped, b) ∧
        annotateFormatA cfg dt data stripped = .ok segs) ∨
      (annotateWirelessInner cfg dt data = .ok segs ∧
        ∀ stripped b, stripFormatACrcs data (List.replicate 512 0) = .ok (some stripped, b) →
          ∃ e, annotateFormatA cfg dt data stripped = .err e))) := by
  have inner : ∀ {x : Res FrameError (List ByteSegment)},
      x = (match annotateWirelessInner cfg dt data with
        | .ok segs => .ok segs
        | .err _ => .err .invalidStartByte
        | .panic => .panic) → x = .ok segs → annotateWirelessInner cfg dt data = .ok segs := by
    intro x hx h
    rw [h] at hx
    split at hx <;> first | (cases hx; assumption) | cases hx
  unfold annotateFrame at h
  simp only at h
  cases hw : annotateWired cfg dt data with
  | ok s => rw [hw] at h; cases h; exact .inl rfl
  | panic => rw [hw] at h; cases h
  | err e =>
    rw [hw] at h
    refine .inr ⟨⟨e, rfl⟩, ?_⟩
    simp only at h
    cases hs : stripFormatACrcs data (List.replicate 512 0) with
    | panic => rw [hs] at h; cases h
    | err e => rw [hs] at h; exact .inr ⟨inner rfl h, by simp⟩
    | ok p =>
      obtain ⟨o, b⟩ := p
      rw [hs] at h
      cases o with
      | none => exact .inr ⟨inner rfl h, by simp⟩
      | some stripped =>
        simp only at h
        cases ha : annotateFormatA cfg dt data stripped with
        | panic => rw [ha] at h; cases h
        | err e =>
          rw [ha] at h
          refine .inr ⟨inner rfl h, ?_⟩
          rintro s b h
          cases h
          exact ⟨e, ha⟩
        | ok s => rw [ha] at h; cases h; exact .inl ⟨stripped, b, rfl, ha⟩

/-- What a successful stripping means. -/
theorem strip_some {data output stripped b : List UInt8}
    (h : stripFormatACrcs data output = .ok (some stripped, b)) :
    ∃ head hi lo rest tail, head.length = 10 ∧ CrcOk head hi lo ∧ data = head ++ [hi, lo] ++ rest ∧
      Stripped rest tail ∧ stripped = fixL (head ++ tail) := by
  have hn : ¬ ∃ b, stripFormatACrcs data output = .ok (none, b) := by
    rintro ⟨b', h'⟩; rw [h] at h'; simp at h'
  rw [C15_strip_none_iff] at hn
  push Not at hn
  obtain ⟨_, h2, block, hi, lo, tail, hl, rfl, hc⟩ := hn
  obtain ⟨t, ht, he⟩ := strip_ok block hi lo tail output hl hc h2
  rw [he] at h
  simp only [Res.ok.injEq, Prod.mk.injEq, Option.some.injEq] at h
  exact ⟨block, hi, lo, tail, t, hl, hc, rfl, ht, h.1.symm⟩

theorem fixL_length (l : List UInt8) : (fixL l).length = l.length := by
  cases l <;> simp [fixL]

/-- The maps of a stripped frame. -/
theorem strip_maps {data output stripped b : List UInt8}
    (h : stripFormatACrcs data output = .ok (some stripped, b)) :
    MapOk 0 stripped.length (offsetMap data) (crcPositions data) data.length := by
  obtain ⟨head, hi, lo, rest, tail, hl, hc, rfl, ht, rfl⟩ := strip_some h
  rw [fixL_length]
  exact maps_ok head hi lo rest tail hl ht

theorem formatA_inner {cfg : Cfg} {dt : Data → List Char} {original stripped : List UInt8}
    {segs : List ByteSegment} (h : annotateFormatA cfg dt original stripped = .ok segs) :
    ∃ inner, annotateWirelessInner cfg dt stripped = .ok inner := by
  unfold annotateFormatA at h
  rw [Res.bind_eq_ok] at h
  exact ⟨h.choose, h.choose_spec.1⟩

theorem frame_covers (cfg : Cfg) (dt : Data → List Char) (data : List UInt8)
    (segs : List ByteSegment) (h : annotateFrame cfg dt data = .ok segs)
    (he : ∀ x rest, data ≠ 0xE5 :: x :: rest) : Covers 0 data.length segs := by
  rcases frame_cases h with h | ⟨_, ⟨stripped, b, hs, h⟩ | ⟨h, _⟩⟩
  · exact annotateWired_covers _ _ _ _ h he
  · obtain ⟨inner, hi⟩ := formatA_inner h
    exact (formatA_ok _ _ _ _ _ _ (strip_maps hs) hi h).1
  · exact inner_covers _ _ _ _ h

/-! ## Positions in Format A framing -/

theorem offsetMapLoop_blocks {body enc : List UInt8} (h : FormatABlocks body enc) (pos : Nat) :
    offsetMapLoop pos enc = (List.range body.length).map (fun i => pos + i + 2 * (i / 16)) := by
  induction h generalizing pos with
  | nil => rw [offsetMapLoop]; simp
  | last b hi lo h0 h16 hc =>
    have hf : findBlock (b ++ [hi, lo]) (min 16 ((b ++ [hi, lo]).length - 2)) = some b.length := by
      rcases findBlock_spec (b ++ [hi, lo]) (min 16 ((b ++ [hi, lo]).length - 2)) with
          ⟨m, h1, h2, h4, hb, hmax⟩ | ⟨h1, h2⟩
      · rw [h1]
        have hle : m ≤ b.length := by
          have := blockAt_length hb; simp at this; omega
        rcases Nat.lt_or_ge m b.length with hlt | hge
        · exact absurd ⟨b, hi, lo, [], rfl, by simp, hc⟩ (hmax b.length hlt (by simp; omega))
        · congr 1; omega
      · exact absurd ⟨b, hi, lo, [], rfl, by simp, hc⟩ (h2 b.length h0 (by simp; omega))
    rw [offsetMapLoop, dif_pos (by simp), if_neg (by simp; omega), hf]
    simp only
    have hd : (b ++ [hi, lo]).drop (b.length + 2) = [] := by simp
    rw [hd, offsetMapLoop]
    simp only [List.length_nil, Nat.lt_irrefl, dite_false, List.append_nil]
    apply List.map_congr_left
    intro i hi
    have : i < b.length := by simpa using hi
    have : i / 16 = 0 := by omega
    omega
  | cons b body enc hi lo h16 hc ht ih =>
    have hlen : (b ++ [hi, lo] ++ enc).length = 18 + enc.length := by simp; omega
    have hf : findBlock (b ++ [hi, lo] ++ enc) (min 16 ((b ++ [hi, lo] ++ enc).length - 2)) =
        some 16 := by
      rcases findBlock_spec (b ++ [hi, lo] ++ enc) (min 16 ((b ++ [hi, lo] ++ enc).length - 2)) with
          ⟨m, h1, h2, h4, hb, hmax⟩ | ⟨h1, h2⟩
      · rw [h1]
        rcases Nat.lt_or_ge m 16 with hlt | hge
        · exact absurd ⟨b, hi, lo, enc, h16, rfl, hc⟩ (hmax 16 hlt (by omega))
        · congr 1; omega
      · exact absurd ⟨b, hi, lo, enc, h16, rfl, hc⟩ (h2 16 (by omega) (by omega))
    have hd : (b ++ [hi, lo] ++ enc).drop (16 + 2) = enc := by
      rw [show 16 + 2 = (b ++ [hi, lo]).length by simp; omega, List.drop_left]
    rw [offsetMapLoop, dif_pos (by omega), if_neg (by omega), hf]
    simp only
    rw [hd, ih, List.length_append, h16, List.range_add, List.map_append, List.map_map]
    refine congrArg₂ _ ?_ ?_
    · apply List.map_congr_left
      intro i hi
      have : i < 16 := List.mem_range.mp hi
      have : i / 16 = 0 := by omega
      omega
    · apply List.map_congr_left
      intro i _
      have : (16 + i) / 16 = 1 + i / 16 := by omega
      simp only [Function.comp_apply]
      omega

theorem offsetMap_formatA {frame enc : List UInt8} (h : FormatA frame enc) :
    offsetMap enc = (List.range frame.length).map formatAPos := by
  cases h with
  | mk head body enc hi lo h10 hc hb =>
    have hd : (head ++ [hi, lo] ++ enc).drop 12 = enc := by
      rw [show 12 = (head ++ [hi, lo]).length by simp; omega, List.drop_left]
    have hlen : (head ++ [hi, lo] ++ enc).length = 12 + enc.length := by simp; omega
    unfold offsetMap
    have hf : (head ++ body).length = 10 + body.length := by simp [h10]
    rw [if_neg (by omega), hd, offsetMapLoop_blocks hb, hf, List.range_add,
      List.map_append, List.map_map, hlen, show min 10 (12 + enc.length) = 10 by omega]
    refine congrArg₂ _ rfl ?_
    apply List.map_congr_left
    intro i _
    simp only [Function.comp_apply, formatAPos]
    rw [if_neg (by omega)]
    have : (10 + i - 10) / 16 = i / 16 := by congr 1; omega
    omega

theorem formatA_length {frame enc : List UInt8} (h : FormatA frame enc) :
    enc.length ≤ frame.length + frame.length / 8 + 4 := by
  have hb : ∀ {body enc : List UInt8}, FormatABlocks body enc →
      enc.length ≤ body.length + 2 * ((body.length + 15) / 16) := by
    intro body enc h
    induction h with
    | nil => simp
    | last b hi lo h0 h16 hc => simp; omega
    | cons b body enc hi lo h16 hc ht ih => simp; omega
  cases h with
  | mk head body enc hi lo h10 hc hb' =>
    have := hb hb'
    simp
    omega

end MBus
