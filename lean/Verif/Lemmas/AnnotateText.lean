import Verif.Lemmas.AnnotateFrame
import Verif.Lemmas.XmlDoc
import Verif.Model.AnnotateText
import Verif.Spec.AnnotateText
/-! Lemmas for C103. -/
namespace MBus
open Spec

/-! ## Numbers -/

theorem hexDigit_digitChar (n : Nat) (h : n < 16) : hexDigit (Nat.digitChar n).toUpper = some n := by
  interval_cases n <;> decide +kernel

theorem hexNumber_append (a : List Char) (c : Char) (n d : Nat) (ha : hexNumber a = some n)
    (hc : hexDigit c = some d) : hexNumber (a ++ [c]) = some (16 * n + d) := by
  unfold hexNumber at *
  rw [List.foldl_append, ha]
  simp [hc]

theorem hexNumber_toDigits (n : Nat) : hexNumber ((Nat.toDigits 16 n).map Char.toUpper) = some n := by
  induction n using Nat.strong_induction_on with
  | _ n ih =>
    rw [Nat.toDigits_eq_if (by omega)]
    by_cases h : n < 16
    · rw [if_pos h]
      have := hexNumber_append [] _ 0 n rfl (hexDigit_digitChar n h)
      simpa using this
    · rw [if_neg h, List.map_append]
      have := hexNumber_append _ _ _ _ (ih (n / 16) (by omega)) (hexDigit_digitChar (n % 16) (by omega))
      rw [List.map_cons, List.map_nil, this]
      congr 1; omega

theorem hexNumber_zeros (k : Nat) (a : List Char) : hexNumber (List.replicate k '0' ++ a) = hexNumber a := by
  induction k with
  | zero => rfl
  | succ k ih =>
    rw [List.replicate_succ, List.cons_append, ← ih]
    have : hexDigit '0' = some 0 := by decide +kernel
    unfold hexNumber
    rw [List.foldl_cons]
    simp [this]

theorem upperHexNat_number (w n : Nat) : hexNumber (upperHexNat w n) = some n := by
  unfold upperHexNat
  rw [hexNumber_zeros, hexNumber_toDigits]

theorem upperHexNat_length (w n : Nat) : w ≤ (upperHexNat w n).length := by
  simp only [upperHexNat, List.length_append, List.length_replicate]
  omega

theorem hexString_pair (b : UInt8) : hexString [b] = hexPair true b := by
  obtain ⟨b, hb⟩ : ∃ n : Fin 256, b = UInt8.ofNat n.1 := ⟨⟨b.toNat, b.toNat_lt⟩, by simp⟩
  subst hb
  revert b
  decide +kernel

/-! ## The dump -/

theorem chunks16_get (data : List UInt8) (k : Nat) : (chunks16 data)[k]? =
    if 16 * k < data.length then some ((data.drop (16 * k)).take 16) else none := by
  induction k generalizing data with
  | zero =>
    cases data with
    | nil => simp [chunks16]
    | cons b rest => rw [chunks16]; simp
  | succ k ih =>
    cases data with
    | nil => simp [chunks16]
    | cons b rest =>
      rw [chunks16, List.getElem?_cons_succ, ih, List.length_drop, List.drop_drop]
      have e : 16 + 16 * k = 16 * (k + 1) := by omega
      rw [e]
      have : (16 * k < (b :: rest).length - 16) ↔ (16 * (k + 1) < (b :: rest).length) := by omega
      simp only [this]

theorem chunks16_length (data : List UInt8) : (chunks16 data).length = (data.length + 15) / 16 := by
  refine Nat.le_antisymm ?_ ?_
  · by_contra h
    have h2 : (data.length + 15) / 16 < (chunks16 data).length := by omega
    have := List.getElem?_eq_getElem h2
    rw [chunks16_get, if_neg (by omega)] at this
    cases this
  · by_contra h
    have h2 : (chunks16 data)[(chunks16 data).length]? = none := by simp
    rw [chunks16_get, if_pos (by omega)] at h2
    cases h2

/-- The digits of a line of the dump, bytes counted from `s`. -/
def dumpHex (s : Nat) (chunk : List UInt8) : List Char :=
  (chunk.zipIdx s).flatMap (fun (b, j) => (if j = 8 then [' '] else []) ++ hexString [b] ++ [' '])

theorem dumpHex_cons (s : Nat) (b : UInt8) (c : List UInt8) : dumpHex s (b :: c) =
    ((if s = 8 then [' '] else []) ++ hexString [b] ++ [' ']) ++ dumpHex (s + 1) c := by
  simp [dumpHex, List.zipIdx_cons]

theorem hexString_one_length (b : UInt8) : (hexString [b]).length = 2 := rfl

theorem dumpHex_length (c : List UInt8) (s : Nat) :
    (dumpHex s c).length = 3 * c.length + if s ≤ 8 ∧ 8 < s + c.length then 1 else 0 := by
  induction c generalizing s with
  | nil => simp [dumpHex]
  | cons b c ih =>
    rw [dumpHex_cons]
    simp only [List.length_append, ih, hexString_one_length, List.length_cons, List.length_nil]
    by_cases h : s = 8
    · simp [h]; omega
    · simp only [h, if_false, List.length_nil]
      split <;> split <;> omega

theorem dumpHex_append (a c : List UInt8) (s : Nat) :
    dumpHex s (a ++ c) = dumpHex s a ++ dumpHex (s + a.length) c := by
  induction a generalizing s with
  | nil => simp [dumpHex]
  | cons b a ih =>
    rw [List.cons_append, dumpHex_cons, dumpHex_cons, ih, List.length_cons]
    have e : s + 1 + a.length = s + (a.length + 1) := by omega
    rw [e]
    simp only [List.append_assoc]

theorem dumpHex_get (c : List UInt8) (i : Nat) (b : UInt8) (h : c[i]? = some b) (tail : List Char) :
    ((dumpHex 0 c ++ tail).drop (3 * i + if i < 8 then 0 else 1)).take 3 = hexPair true b ++ [' '] := by
  have hi : i < c.length := (List.getElem?_eq_some_iff.1 h).1
  have e : c = c.take i ++ b :: c.drop (i + 1) := by
    have := List.getElem?_eq_some_iff.1 h
    rw [← this.2, List.getElem_cons_drop, List.take_append_drop]
  have hl : (c.take i).length = i := by simp; omega
  have e2 : dumpHex 0 c ++ tail = (dumpHex 0 (c.take i) ++ if i = 8 then [' '] else []) ++
      ((hexString [b] ++ [' ']) ++ (dumpHex (i + 1) (c.drop (i + 1)) ++ tail)) := by
    conv => lhs; rw [e]
    rw [dumpHex_append, dumpHex_cons, hl, Nat.zero_add]
    simp [List.append_assoc]
  have e3 : (dumpHex 0 (c.take i) ++ if i = 8 then [' '] else []).length = 3 * i + if i < 8 then 0 else 1 := by
    rw [List.length_append, dumpHex_length, hl]
    by_cases h8 : i = 8
    · simp [h8]
    · simp only [h8, if_false, List.length_nil]
      split <;> split <;> omega
  rw [e2, ← e3, List.drop_left, hexString_pair]
  have : (hexPair true b ++ [' ']).length = 3 := rfl
  rw [← this, List.take_left]

theorem dumpChar_eq (b : UInt8) :
    dumpChar b = if 32 ≤ b ∧ b ≤ 126 then Char.ofNat b.toNat else '·' := by
  unfold dumpChar
  have : ((0x21 ≤ b ∧ b ≤ 0x7E) ∨ b = 0x20) ↔ (32 ≤ b ∧ b ≤ 126) := by
    rw [UInt8.le_iff_toNat_le, UInt8.le_iff_toNat_le, UInt8.le_iff_toNat_le, ← UInt8.toNat_inj]
    simp only [show (0x21 : UInt8).toNat = 33 by rfl, show (0x7E : UInt8).toNat = 126 by rfl,
      show (0x20 : UInt8).toNat = 32 by rfl, show (32 : UInt8).toNat = 32 by rfl,
      show (126 : UInt8).toNat = 126 by rfl]
    omega
  simp only [this]

theorem dump_ok (data : List UInt8) :
    Dump data ((chunks16 data).zipIdx.map (fun (chunk, i) => dumpLine i chunk)) := by
  refine ⟨by simp [chunks16_length], ?_⟩
  intro i b hb
  have hi : i < data.length := (List.getElem?_eq_some_iff.1 hb).1
  obtain ⟨chunk, hc⟩ : ∃ chunk, chunk = (data.drop (16 * (i / 16))).take 16 := ⟨_, rfl⟩
  have hg : (chunks16 data)[i / 16]? = some chunk := by
    rw [chunks16_get, if_pos (by omega), hc]
  have hcb : chunk[i % 16]? = some b := by
    rw [hc, List.getElem?_take, if_pos (by omega), List.getElem?_drop, ← hb]
    congr 1; omega
  have hlen : chunk.length ≤ 16 := by rw [hc]; simp
  have hm : i % 16 < chunk.length := (List.getElem?_eq_some_iff.1 hcb).1
  refine ⟨upperHexNat 4 (i / 16 * 16), dumpHex 0 chunk
    ++ ((List.replicate (16 - chunk.length) "   ".toList).flatten
    ++ (if chunk.length ≤ 8 then [' '] else []) ++ [' '] ++ chunk.map dumpChar), ?_, ?_, ?_, ?_, ?_⟩
  · simp only [List.getElem?_map, List.getElem?_zipIdx, hg, Option.map_some, Nat.zero_add]
    simp only [dumpLine, dumpHex, List.append_assoc]
  · exact upperHexNat_length _ _
  · rw [upperHexNat_number, Nat.mul_comm]
  · exact dumpHex_get chunk (i % 16) b hcb _
  · have hl : (dumpHex 0 chunk ++ ((List.replicate (16 - chunk.length) "   ".toList).flatten
        ++ (if chunk.length ≤ 8 then [' '] else []) ++ [' '])).length = 50 := by
      have hr : ((List.replicate (16 - chunk.length) "   ".toList).flatten).length = 3 * (16 - chunk.length) := by
        simp [Nat.mul_comm]
      simp only [List.length_append, dumpHex_length, hr, List.length_cons, List.length_nil]
      by_cases h8 : chunk.length ≤ 8
      · rw [if_neg (by omega), if_pos h8]; simp; omega
      · simp only [h8, if_false, List.length_nil]
        rw [if_pos (by omega)]; omega
    rw [← List.append_assoc, List.getElem?_append_right (by omega), hl]
    simp only [Nat.add_sub_cancel_left, List.getElem?_map, hcb, Option.map_some, dumpChar_eq]

/-! ## The segments -/

theorem padRight_padded (w : Nat) (t : List Char) : Padded w t (padRight w t) :=
  ⟨w - t.length, rfl, by simp [padRight]; omega, by simp [padRight]; omega⟩

theorem spaced (bytes : List UInt8) (h : bytes ≠ []) :
    bytes.flatMap (fun b => hexString [b] ++ [' ']) = [' '].intercalate (bytes.map (hexPair true)) ++ [' '] := by
  induction bytes with
  | nil => exact absurd rfl h
  | cons b bytes ih =>
    cases bytes with
    | nil => simp [List.intercalate, hexString_pair]
    | cons c bytes =>
      rw [List.flatMap_cons, ih (by simp), hexString_pair]
      simp [List.intercalate, List.append_assoc]

theorem offsetText_ok (cfg : Cfg) (seg : ByteSegment) (h : seg.start < seg.stop) :
    ∃ t, offsetText cfg seg = .ok t ∧ RangeText seg.start seg.stop t := by
  unfold offsetText usizeSub
  rw [if_pos (by omega), Res.bind_ok]
  refine ⟨_, rfl, upperHexNat 2 seg.start, upperHexNat_number _ _, upperHexNat_length _ _, ?_⟩
  by_cases h1 : seg.stop - seg.start = 1
  · rw [if_pos h1]; exact .inl ⟨by omega, rfl⟩
  · rw [if_neg h1]
    exact .inr ⟨by omega, upperHexNat 2 seg.stop, upperHexNat_number _ _, upperHexNat_length _ _, rfl⟩

theorem bytesText_ok (cfg : Cfg) (data : List UInt8) (seg : ByteSegment) (h : seg.start < seg.stop)
    (h2 : seg.stop ≤ data.length) :
    bytesText cfg data seg = .ok (bytesShown ((data.drop seg.start).take (seg.stop - seg.start))) := by
  unfold bytesText usizeSub
  rw [if_pos (by omega), Res.bind_ok, if_pos (by omega), if_pos (by omega), Res.bind_ok,
    Nat.min_eq_left h2, if_neg (by omega)]
  generalize hn : seg.stop - seg.start = n at *
  have hlen : ((data.drop seg.start).take n).length = n := by simp; omega
  unfold bytesShown
  rw [hlen]
  by_cases h8 : n ≤ 8
  · have h9 : ¬ n > 8 := by omega
    simp only [h8, h9, if_true, if_false]
    rw [Nat.min_eq_left h8, spaced _ (by
      intro h0; rw [h0] at hlen; simp at hlen; omega)]
    simp
  · have h9 : n > 8 := by omega
    simp only [h8, h9, if_true, if_false]
    rw [Nat.min_eq_right (by omega), spaced _ (by
      intro h0
      have := congrArg List.length h0
      simp at this; omega), List.take_take, Nat.min_eq_left (by omega)]
    simp [List.append_assoc]

theorem segmentLine_ok (cfg : Cfg) (data : List UInt8) (seg : ByteSegment) (h : seg.start < seg.stop)
    (h2 : seg.stop ≤ data.length) :
    ∃ line, segmentLine cfg data seg = .ok line ∧ SegmentLine data seg line := by
  obtain ⟨t, e, ht⟩ := offsetText_ok cfg seg h
  unfold segmentLine
  rw [e, Res.bind_ok, bytesText_ok cfg data seg h h2, Res.bind_ok]
  exact ⟨_, rfl, t, _, _, _, ht, padRight_padded _ _, padRight_padded _ _, padRight_padded _ _, rfl⟩

theorem layerLine_heading (l : Layer) : LayerHeading l (layerLine l) := by
  refine ⟨"────────────────────────────────────────────────────────".toList, by decide +kernel, ?_⟩
  cases l <;> decide +kernel

theorem decNumber_decimal (n : Nat) : decNumber (natText n) = n ∧ ∀ c ∈ natText n, '0' ≤ c ∧ c ≤ '9' := by
  unfold natText
  induction n using Nat.strong_induction_on with
  | _ n ih =>
    rw [Nat.toDigits_eq_if (by omega)]
    have hd : ∀ k, k < 10 → (Nat.digitChar k).toNat - 48 = k ∧ '0' ≤ Nat.digitChar k ∧ Nat.digitChar k ≤ '9' := by
      intro k hk; interval_cases k <;> decide
    by_cases h : n < 10
    · rw [if_pos h]
      have := hd n h
      simp [decNumber, this]
    · rw [if_neg h]
      obtain ⟨i1, i2⟩ := ih (n / 10) (by omega)
      have := hd (n % 10) (by omega)
      unfold decNumber at *
      rw [List.foldl_append, i1]
      refine ⟨by simp only [List.foldl_cons, List.foldl_nil, this.1]; omega, ?_⟩
      intro c hc
      rcases List.mem_append.1 hc with hc | hc
      · exact i2 c hc
      · rw [List.mem_singleton] at hc; subst hc; exact this.2

theorem recordLine_heading (g : Nat) : RecordHeading g (recordLine g) :=
  ⟨natText g, (decNumber_decimal g).1, (decNumber_decimal g).2, rfl⟩

theorem segmentLines_ok (cfg : Cfg) (data : List UInt8) (segs : List ByteSegment)
    (h : ∀ s ∈ segs, s.start < s.stop ∧ s.stop ≤ data.length) (layer : Option Layer) (group shown : Option Nat)
    (hg : ∀ g, group = some g → layer = some .recordField ∧ shown = some g) :
    ∃ lines, segmentLines cfg data layer group segs = .ok lines ∧ Listed data layer shown segs lines := by
  induction segs generalizing layer group shown with
  | nil => exact ⟨[], rfl, .nil _ _⟩
  | cons s segs ih =>
    obtain ⟨line, e, hl⟩ := segmentLine_ok cfg data s (h s (by simp)).1 (h s (by simp)).2
    have ih := ih (fun x hx => h x (by simp [hx]))
    unfold segmentLines
    rw [e, Res.bind_ok]
    by_cases hr : s.layer = .recordField ∧ s.group ≠ group
    · have hga : groupAfter layer group s = s.group := if_pos hr
      rw [hga]
      cases hsg : s.group with
      | none =>
        have hlay : ∀ sh, ∃ lines, segmentLines cfg data (some s.layer) none segs = .ok lines ∧
            Listed data (some s.layer) sh segs lines := fun sh =>
          ih (some s.layer) none sh (by intro g hg; cases hg)
        by_cases hc : layer = some s.layer
        · obtain ⟨lines, e2, hls⟩ := hlay shown
          rw [e2, Res.bind_ok]
          refine ⟨_, rfl, ?_⟩
          simp only [headingLines, hc, ne_eq, not_true, if_false, hsg, List.append_nil, List.nil_append, ite_self]
          exact .segment shown s segs line lines hl (fun _ => .inl hsg) hls
        · obtain ⟨lines, e2, hls⟩ := hlay none
          rw [e2, Res.bind_ok]
          refine ⟨_, rfl, ?_⟩
          simp only [headingLines, ne_eq, hc, not_false_eq_true, if_true, hsg, ite_self, List.append_nil,
            List.cons_append, List.nil_append]
          exact .layer layer shown _ _ _ _ hc (layerLine_heading _)
            (.segment none s segs line lines hl (fun _ => .inl hsg) hls)
      | some g =>
        obtain ⟨lines, e2, hls⟩ := ih (some s.layer) (some g) (some g)
          (by intro g' hg'; exact ⟨by rw [hr.1], hg'⟩)
        rw [e2, Res.bind_ok]
        refine ⟨_, rfl, ?_⟩
        have hh : headingLines layer group s =
            (if layer ≠ some s.layer then [layerLine s.layer] else []) ++ [recordLine g] := by
          unfold headingLines; rw [if_pos hr, hsg]
        have hlast : ∀ sh, Listed data (some s.layer) sh (s :: segs) (recordLine g :: line :: lines) := by
          intro sh
          rw [hr.1]
          refine .record g sh _ _ _ _ hr.1 hsg (recordLine_heading g) ?_
          have := Listed.segment (some g) s segs line lines hl (fun _ => .inr hsg) hls
          rwa [hr.1] at this
        rw [hh]
        by_cases hc : layer = some s.layer
        · simp only [hc, ne_eq, not_true, if_false, List.nil_append, List.cons_append]
          exact hlast shown
        · simp only [ne_eq, hc, not_false_eq_true, if_true, List.cons_append, List.nil_append]
          exact .layer layer shown _ _ _ _ hc (layerLine_heading _) (hlast none)
    · have hh : headingLines layer group s = if layer ≠ some s.layer then [layerLine s.layer] else [] := by
        unfold headingLines; rw [if_neg hr, List.append_nil]
      have hga : groupAfter layer group s = if layer ≠ some s.layer then none else group := if_neg hr
      rw [hh, hga]
      have hrec : s.layer = .recordField → s.group = group := by
        intro h0; by_contra h1; exact hr ⟨h0, h1⟩
      by_cases hc : layer = some s.layer
      · rw [if_neg (by simp [hc])]
        obtain ⟨lines, e2, hls⟩ := ih (some s.layer) group shown (by
          intro g hg'; rw [← hc]; exact hg g hg')
        rw [e2, Res.bind_ok]
        refine ⟨_, rfl, ?_⟩
        simp only [hc, ne_eq, not_true, if_false, List.nil_append, List.cons_append]
        refine .segment shown s segs line lines hl ?_ hls
        intro h0
        rw [hrec h0]
        cases group with
        | none => exact .inl rfl
        | some g => exact .inr (hg g rfl).2.symm
      · rw [if_pos hc]
        obtain ⟨lines, e2, hls⟩ := ih (some s.layer) none none (by intro g hg'; cases hg')
        rw [e2, Res.bind_ok]
        refine ⟨_, rfl, ?_⟩
        simp only [ne_eq, hc, not_false_eq_true, if_true, List.cons_append, List.nil_append]
        refine .layer layer shown _ _ _ _ hc (layerLine_heading _)
          (.segment none s segs line lines hl ?_ hls)
        intro h0
        rw [hrec h0]
        cases group with
        | none => exact .inl rfl
        | some g => exact absurd ((hg g rfl).1.trans (by rw [h0])) hc

theorem annotate_ranges (cfg : Cfg) (dt : Data → List Char) (data : List UInt8) (segs : List ByteSegment)
    (h : annotateFrame cfg dt data = .ok segs) : ∀ s ∈ segs, s.start < s.stop ∧ s.stop ≤ data.length := by
  by_cases he : ∃ x rest, data = 0xE5 :: x :: rest
  · obtain ⟨x, rest, rfl⟩ := he
    have : annotateFrame cfg dt (0xE5 :: x :: rest) =
        .ok [⟨0, 1, .startByte, "Single Character: 0xE5".toList, none, .frame⟩] := by
      obtain ⟨oc, tf⟩ := cfg
      cases oc <;> cases tf <;> rfl
    rw [this] at h
    cases h
    intro s hs
    rw [List.mem_singleton] at hs
    subst hs
    simp
  · intro s hs
    exact (covers_starts (frame_covers cfg dt data segs h (fun x rest e => he ⟨x, rest, e⟩)) s hs).2

end MBus
