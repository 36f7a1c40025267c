import Verif.Spec.Annotate
import Verif.Props.Record
import Verif.Props.Wireless
import Verif.Props.Wired
import Verif.Props.UserData
/-! # Lemmas about annotations -/
namespace MBus
open Spec

theorem covers_append {a b c : Nat} {xs ys : List ByteSegment} (h1 : Covers a b xs)
    (h2 : Covers b c ys) : Covers a c (xs ++ ys) := by
  induction xs generalizing a with
  | nil => cases h1; exact h2
  | cons x xs ih => exact ⟨h1.1, h1.2.1, ih h1.2.2⟩

theorem covers_append_inv {a c : Nat} {xs ys : List ByteSegment} (h : Covers a c (xs ++ ys)) :
    ∃ b, Covers a b xs ∧ Covers b c ys := by
  induction xs generalizing a with
  | nil => exact ⟨a, rfl, h⟩
  | cons x xs ih =>
    obtain ⟨b, h1, h2⟩ := ih h.2.2
    exact ⟨b, ⟨h.1, h.2.1, h1⟩, h2⟩

theorem covers_le {a b : Nat} {xs : List ByteSegment} (h : Covers a b xs) : a ≤ b := by
  induction xs generalizing a with
  | nil => exact le_of_eq h
  | cons x xs ih => have := ih h.2.2; have := h.1; have := h.2.1; omega

theorem covers_one (a b : Nat) (s : ByteSegment) (h1 : s.start = a) (h2 : s.stop = b) (h : a < b) :
    Covers a b [s] := ⟨h1, by omega, h2⟩

/-! ## Records -/

theorem dib_size_pos (b : DIB) : 1 ≤ b.size := by
  unfold DIB.size; split <;> omega

theorem recordHeader_covers (pos index : Nat) (rest : List UInt8) (r : DataRecord) :
    Covers pos (pos + r.header.size) (recordHeaderSegs pos index rest r).1 ∧
      (recordHeaderSegs pos index rest r).2 = r.header.size := by
  have hd := dib_size_pos r.header.raw.dib
  have h1 : Covers pos (pos + (1 + (r.header.raw.dib.size - 1)))
      ([recordSeg pos (pos + 1) .dif ("DIF: 0x".toList ++ hexString [byteOr0 rest 0]) (some index)] ++
      (if r.header.raw.dib.size - 1 > 0 then
        [recordSeg (pos + 1) (pos + 1 + (r.header.raw.dib.size - 1)) .dife
          ("DIFE: ".toList ++ natDisplay (r.header.raw.dib.size - 1) ++ " byte(s)".toList) (some index)]
      else [])) := by
    refine covers_append (b := pos + 1) (covers_one _ _ _ rfl rfl (by omega)) ?_
    split
    · exact covers_one _ _ _ rfl (by show _ = _; simp only [recordSeg]; omega) (by omega)
    · show _ = _; omega
  have hs : r.header.size = r.header.raw.dib.size +
      (match r.header.raw.vib with | some v => v.size | none => 0) := by
    unfold RecordHeader.size; split <;> simp_all
  unfold recordHeaderSegs
  cases hv : r.header.raw.vib with
  | none =>
    rw [hv] at hs
    simp only at hs ⊢
    refine ⟨?_, by omega⟩
    rw [show pos + r.header.size = pos + (1 + (r.header.raw.dib.size - 1)) by omega]
    exact h1
  | some vib =>
    rw [hv] at hs
    simp only at hs ⊢
    set o := 1 + (r.header.raw.dib.size - 1) with ho
    set k := vib.vifeCount with hk
    have h2 : Covers (pos + o) (pos + (o + 1 + k))
      ([recordSeg (pos + o) (pos + o + 1) .vif
        ("VIF: 0x".toList ++ hexString [byteOr0 rest o]) (some index)] ++
       (if k > 0 then
        [recordSeg (pos + o + 1) (pos + o + 1 + k) .vife
          ("VIFE: ".toList ++ natDisplay k ++ " byte(s)".toList) (some index)]
        else [])) := by
      refine covers_append (b := pos + o + 1) (covers_one _ _ _ rfl rfl (by omega)) ?_
      split
      · exact covers_one _ _ _ rfl (by show _ = _; simp only [recordSeg]; omega) (by omega)
      · show _ = _; omega
    have h3 := covers_append h1 h2
    have hvs : vib.size = 1 + k + (match vib.plaintext with | some p => p.length + 1 | none => 0) := by
      rw [hk]; rfl
    cases hp : vib.plaintext with
    | none =>
      rw [hp] at hvs
      simp only at hvs ⊢
      refine ⟨?_, by omega⟩
      rw [show pos + r.header.size = pos + (o + 1 + k) by omega]
      simpa only [List.append_assoc] using h3
    | some text =>
      rw [hp] at hvs
      simp only at hvs ⊢
      refine ⟨?_, by omega⟩
      have h4 := covers_append h3 (covers_one (pos + (o + 1 + k)) (pos + r.header.size)
        (recordSeg (pos + (o + 1 + k)) (pos + (o + 1 + k) + (text.length + 1)) .plaintextVif
          ("Plaintext VIF: \"".toList ++ text.map (fun b => Char.ofNat b.toNat) ++ ['"']) (some index))
        rfl (by show _ = _; simp only [recordSeg]; omega) (by omega))
      simpa only [List.append_assoc] using h4

theorem record_sizes (cfg : Cfg) (lsb : Bool) (data : List UInt8) (r : DataRecord)
    (h : DataRecord.parse cfg lsb data = .ok r) :
    1 ≤ r.header.size ∧ r.header.size ≤ r.size ∧ r.size ≤ data.length := by
  obtain ⟨_, rest, _, hr, _, _, hraw⟩ := (record_ok _ _ _ _).mp h
  have := headerSize_eq cfg.plaintextFirst r.header
  refine ⟨?_, ?_, ?_⟩
  · rw [this]; simp [headerBytes]
  · rw [this, DataRecord.size, hraw]; simp
  · rw [DataRecord.size, hraw]
    conv_rhs => rw [hr]
    simp

/-- One step of the record loop. -/
theorem annotate_step (cfg : Cfg) (dt : Data → List Char) (pos index : Nat) (dif : UInt8)
    (tail : List UInt8) (r : DataRecord) (hs : ¬ dif &&& 0x0F = 0x0F)
    (hr : DataRecord.parse cfg false (dif :: tail) = .ok r) :
    annotateRecordsFrom cfg dt pos index (dif :: tail) = (do
      let more ← annotateRecordsFrom cfg dt (pos + r.size) (index + 1) ((dif :: tail).drop r.size)
      .ok ((recordHeaderSegs pos index (dif :: tail) r).1 ++
        (if r.size - r.header.size > 0 then
          [recordSeg (pos + r.header.size) (pos + r.size) .dataPayload (dt r.data) (some index)]
        else []) ++ more)) := by
  obtain ⟨h1, h2, h3⟩ := record_sizes _ _ _ _ hr
  have hc := (recordHeader_covers pos index (dif :: tail) r).2
  rw [annotateRecordsFrom]
  rw [if_neg hs, hr]
  simp only [hc]
  have e : min (r.size - r.header.size) ((dif :: tail).length - r.header.size) =
      r.size - r.header.size := by omega
  rw [e, if_neg (by omega)]
  rw [show pos + r.header.size + (r.size - r.header.size) = pos + r.size by omega]
  have e2 : tail.drop (r.header.size - 1 + (r.size - r.header.size)) = (dif :: tail).drop r.size := by
    obtain ⟨k, hk⟩ : ∃ k, r.size = k + 1 := ⟨r.size - 1, by omega⟩
    rw [hk, List.drop_succ_cons]
    congr 1
    omega
  rw [e2]

theorem annotateRecords_covers (cfg : Cfg) (dt : Data → List Char) (pos index : Nat)
    (rest : List UInt8) (segs : List ByteSegment)
    (h : annotateRecordsFrom cfg dt pos index rest = .ok segs) :
    Covers pos (pos + rest.length) segs := by
  induction hn : rest.length using Nat.strong_induction_on generalizing pos index rest segs with
  | _ n ih =>
    rcases rest with _ | ⟨dif, tail⟩
    · rw [annotateRecordsFrom] at h; cases h
      simp only [List.length_nil] at hn
      show _ = _
      omega
    · simp only [List.length_cons] at hn
      by_cases hs : dif &&& 0x0F = 0x0F
      · rw [annotateRecordsFrom, if_pos hs] at h
        split at h
        · rw [Res.bind_eq_ok] at h
          obtain ⟨more, hm, he⟩ := h
          cases he
          have := ih tail.length (by omega) _ _ _ _ hm rfl
          refine ⟨rfl, by simp [recordSeg], ?_⟩
          rw [show pos + n = pos + 1 + tail.length by omega]
          exact this
        · split at h
          · cases h
            exact covers_one _ _ _ rfl (by simp only [recordSeg]; omega) (by omega)
          · rw [Res.bind_eq_ok] at h
            obtain ⟨more, hm, he⟩ := h
            cases he
            have := ih tail.length (by omega) _ _ _ _ hm rfl
            refine ⟨rfl, by simp [recordSeg], ?_⟩
            rw [show pos + n = pos + 1 + tail.length by omega]
            exact this
      · cases hr : DataRecord.parse cfg false (dif :: tail) with
        | panic => rw [annotateRecordsFrom, if_neg hs, hr] at h; cases h
        | err e =>
          rw [annotateRecordsFrom, if_neg hs, hr] at h
          cases h
          exact covers_one _ _ _ rfl (by simp only [recordSeg]; omega) (by omega)
        | ok r =>
          rw [annotate_step _ _ _ _ _ _ _ hs hr, Res.bind_eq_ok] at h
          obtain ⟨more, hm, he⟩ := h
          cases he
          obtain ⟨h1, h2, h3⟩ := record_sizes _ _ _ _ hr
          simp only [List.length_cons] at h3
          have hl : ((dif :: tail).drop r.size).length = n - r.size := by simp; omega
          have := ih _ (by omega) _ _ _ _ hm rfl
          refine covers_append (covers_append (recordHeader_covers pos index _ r).1
            (b := pos + r.header.size) (c := pos + r.size) ?_) ?_
          · split
            · exact covers_one _ _ _ rfl rfl (by omega)
            · show _ = _; omega
          · rw [hl] at this
            rw [show pos + n = pos + r.size + (n - r.size) by omega]
            exact this

/-! ## Application layer -/

theorem variableData_covers (cfg : Cfg) (dt : Data → List Char) (enc : Bool) (base : Nat)
    (data : List UInt8) (segs : List ByteSegment)
    (h : variableDataSegs cfg dt enc base data = .ok segs) :
    Covers base (base + data.length) segs := by
  unfold variableDataSegs at h
  split at h
  · cases h
    rcases data with _ | ⟨x, t⟩
    · rfl
    · exact covers_one _ _ _ rfl rfl (by simp)
  · exact annotateRecords_covers _ _ _ _ _ _ h

theorem longTpl_covers (base : Nat) (app : List UInt8) : Covers base (base + 13) (longTplSegs base app) := by
  simp [longTplSegs, headerSeg, Covers]

theorem shortTpl_covers (base : Nat) (app : List UInt8) (ci : UInt8) :
    Covers base (base + shortTplOffset ci) (shortTplSegs base app ci) := by
  unfold shortTplSegs shortTplOffset shortTplSkip
  cases ci == 0xA0 <;> simp [headerSeg, Covers]

theorem recordsOrNone_covers (cfg : Cfg) (dt : Data → List Char) (base : Nat)
    (data : List UInt8) (segs : List ByteSegment)
    (h : recordsIfAny cfg dt base data = .ok segs) : Covers base (base + data.length) segs := by
  rcases data with _ | ⟨x, t⟩
  · cases h; rfl
  · exact annotateRecords_covers _ _ _ _ _ _ h

theorem ell_covers (cfg : Cfg) (dt : Data → List Char) (base : Nat) (app : List UInt8)
    (n : Nat) (name fields ciText : List Char) (segs : List ByteSegment) (hn : 0 < n) (ha : app ≠ [])
    (h : ellSegs cfg dt base app n name fields ciText = .ok segs) :
    Covers base (base + app.length) segs := by
  have hl : 0 < app.length := List.length_pos_iff.mpr ha
  unfold ellSegs at h
  simp only at h
  split at h
  · cases h
    exact covers_one _ _ _ rfl rfl (by omega)
  · rw [Res.bind_eq_ok] at h
    obtain ⟨records, h1, h2⟩ := h
    cases h2
    have := recordsOrNone_covers _ _ _ _ _ h1
    refine ⟨rfl, by simp [headerSeg], rfl, by simp [headerSeg]; omega, ?_⟩
    simp only [headerSeg, List.nil_append, List.length_drop] at this ⊢
    rw [show base + app.length = base + (1 + n) + (app.length - (1 + n)) by omega]
    exact this

theorem annotateApp_covers (cfg : Cfg) (dt : Data → List Char) (base : Nat) (app : List UInt8)
    (segs : List ByteSegment) (h : annotateApp cfg dt base app = .ok segs) :
    Covers base (base + app.length) segs := by
  induction hn : app.length using Nat.strong_induction_on generalizing base app segs with
  | _ n ih =>
    subst hn
    rcases app with _ | ⟨ci, tail⟩
    · rw [annotateApp] at h; cases h; rfl
    rw [annotateApp] at h
    have one : ∀ k d, Covers base (base + (ci :: tail).length)
        [headerSeg base (base + (ci :: tail).length) k d] :=
      fun k d => covers_one _ _ _ rfl rfl (by simp)
    split at h
    · split at h
      · cases h; exact one _ _
      · rw [Res.bind_eq_ok] at h
        obtain ⟨records, h1, h2⟩ := h
        cases h2
        have := variableData_covers _ _ _ _ _ _ h1
        refine covers_append (longTpl_covers _ _) ?_
        rw [List.length_drop] at this
        rw [show base + (ci :: tail).length = base + 13 + ((ci :: tail).length - 13) by omega]
        exact this
    · split at h
      · split at h
        · cases h; exact one _ _
        · rw [Res.bind_eq_ok] at h
          obtain ⟨records, h1, h2⟩ := h
          cases h2
          have := variableData_covers _ _ _ _ _ _ h1
          refine covers_append (shortTpl_covers _ _ _) ?_
          rw [List.length_drop] at this
          generalize hk : shortTplOffset ci = k at *
          rw [show base + (ci :: tail).length = base + k + ((ci :: tail).length - k) by omega]
          exact this
      · split at h
        · rw [Res.bind_eq_ok] at h
          obtain ⟨records, h1, h2⟩ := h
          cases h2
          have := recordsOrNone_covers _ _ _ _ _ h1
          refine ⟨rfl, by simp [headerSeg], ?_⟩
          rw [show base + (ci :: tail).length = base + 1 + tail.length by simp; omega]
          exact this
        · split at h
          · split at h
            · cases h; exact one _ _
            · rename_i hlen
              simp only [List.length_cons] at hlen
              rw [Res.bind_eq_ok] at h
              obtain ⟨inner, h1, h2⟩ := h
              cases h2
              have := ih (tail.drop 2).length (by simp) _ _ _ h1 rfl
              refine ⟨rfl, by simp [headerSeg], rfl, by simp [headerSeg], ?_⟩
              rw [List.length_drop] at this
              rw [show base + (ci :: tail).length = base + 3 + (tail.length - 2) by simp; omega]
              exact this
          · split at h
            · exact ell_covers _ _ _ _ _ _ _ _ _ (by omega) (by simp) h
            · split at h
              · exact ell_covers _ _ _ _ _ _ _ _ _ (by omega) (by simp) h
              · cases h; exact one _ _

/-! ## Wired telegrams -/

theorem mapErr_eq_ok {ε ε' α : Type} (f : ε → ε') (r : Res ε α) (a : α) :
    r.mapErr f = .ok a ↔ r = .ok a := by
  cases r <;> simp

theorem annotateLong_covers (cfg : Cfg) (dt : Data → List Char) (data : List UInt8) (fn : Function)
    (addr : Address) (payload : List UInt8) (c : Bool) (segs : List ByteSegment)
    (hl : data.length = payload.length + 8)
    (h : annotateLong cfg dt data fn addr payload c = .ok segs) : Covers 0 data.length segs := by
  unfold annotateLong at h
  simp only at h
  rw [Res.bind_eq_ok] at h
  obtain ⟨user, h1, h2⟩ := h
  rw [if_pos (show 6 + payload.length < data.length by omega),
    if_pos (show 6 + payload.length + 1 < data.length by omega)] at h2
  cases h2
  have hu : Covers 6 (6 + payload.length) user := by
    unfold annotateUserData at h1
    rcases payload with _ | ⟨x, t⟩
    · simp at h1; subst h1; rfl
    · cases c
      · simp only [Bool.not_false, List.isEmpty_cons, Bool.true_and, if_true] at h1
        exact annotateApp_covers _ _ _ _ _ h1
      · simp only [Bool.not_true, List.isEmpty_cons, Bool.not_false, Bool.false_and,
          Bool.false_eq_true, if_false, if_true] at h1
        cases h1
        exact covers_one _ _ _ rfl rfl (by simp)
  refine covers_append (b := 6 + payload.length + 1)
    (covers_append (b := 6 + payload.length) (covers_append (b := 6) ?_ hu) ?_) ?_
  · simp [frameSeg, Covers]
  · exact covers_one _ _ _ rfl rfl (by omega)
  · exact covers_one _ _ _ rfl (by simp only [frameSeg]; omega) (by omega)

theorem annotateWired_covers (cfg : Cfg) (dt : Data → List Char) (data : List UInt8)
    (segs : List ByteSegment) (h : annotateWired cfg dt data = .ok segs)
    (he : ∀ x rest, data ≠ 0xE5 :: x :: rest) : Covers 0 data.length segs := by
  unfold annotateWired at h
  rw [Res.bind_eq_ok] at h
  obtain ⟨f, hf, h⟩ := h
  rw [mapErr_eq_ok, C01_wired_accepts_exactly_telegrams] at hf
  cases hf with
  | single rest =>
    cases h
    rcases rest with _ | ⟨x, t⟩
    · exact covers_one _ _ _ rfl rfl (by simp)
    · exact absurd rfl (he x t)
  | short c a fn hf =>
    cases h
    simp [frameSeg, Covers, shortFrameBytes]
  | long x c a payload fn hf hc hl =>
    exact annotateLong_covers _ _ _ _ _ _ _ _ (by simp [longFrameBytes]) h
  | control x a payload hl =>
    exact annotateLong_covers _ _ _ _ _ _ _ _ (by simp [longFrameBytes]) h

/-! ## Wireless telegrams -/

theorem inner_covers (cfg : Cfg) (dt : Data → List Char) (data : List UInt8)
    (segs : List ByteSegment) (h : annotateWirelessInner cfg dt data = .ok segs) :
    Covers 0 data.length segs := by
  unfold annotateWirelessInner at h
  rw [Res.bind_eq_ok] at h
  obtain ⟨f, hf, h⟩ := h
  rw [mapErr_eq_ok] at hf
  have hlen : 11 ≤ data.length := by
    have := (C12_wireless_accepts_exactly_telegrams _ _).1 hf
    cases this
    simp_all
  rw [Res.bind_eq_ok] at h
  obtain ⟨app, ha, h⟩ := h
  cases h
  have hcrc : ∀ n, trailingFrameCrcStart data = some n → 10 ≤ n ∧ n + 2 = data.length := by
    intro n hn
    obtain ⟨body, hi, lo, hd, hb, h10, _⟩ := (C11_trailing_frame_crc_start _ _).1 hn
    rw [hd]; simp; omega
  have happ : Covers 10 ((trailingFrameCrcStart data).getD data.length) app := by
    have h10 : 10 ≤ (trailingFrameCrcStart data).getD data.length ∧
        (trailingFrameCrcStart data).getD data.length ≤ data.length := by
      cases hc : trailingFrameCrcStart data with
      | none => simp; omega
      | some n => have := hcrc n hc; simp; omega
    generalize (trailingFrameCrcStart data).getD data.length = e at *
    unfold annotateWirelessApp at ha
    split at ha
    · rename_i hgt
      split at ha
      · rename_i a hs
        have := annotateApp_covers _ _ _ _ _ ha
        have hl : a.length = e - 10 := by
          rw [slice?, if_pos h10] at hs
          cases hs
          simp; omega
        rw [hl] at this
        rw [show e = 10 + (e - 10) by omega]
        exact this
      · cases ha
    · cases ha
      show _ = _
      omega
  refine covers_append (covers_append (b := 10) ?_ happ) ?_
  · simp [frameSeg, Covers]
  · cases hc : trailingFrameCrcStart data with
    | none => rfl
    | some n =>
      have := hcrc n hc
      exact covers_one _ _ _ rfl rfl (by simp; omega)

/-! ## Format A -/

/-- What the CRC search finds, and the offsets it maps to. -/
structure MapOk (pos n : Nat) (m : List Nat) (c : List (Nat × Nat)) (stop : Nat) : Prop where
  ge : ∀ x ∈ m, pos ≤ x
  mono : m.Pairwise (· < ·)
  length : m.length = n
  width : ∀ p ∈ c, p.2 = p.1 + 2 ∧ pos < p.1 ∧ p.2 ≤ stop
  apart : c.Pairwise (fun p q => p.2 < q.1)
  disjoint : ∀ p ∈ c, ∀ x ∈ m, x ≠ p.1 ∧ x ≠ p.1 + 1
  lt : ∀ x ∈ m, x < stop
  all : ∀ x, pos ≤ x → x < stop → x ∈ m ∨ ∃ p ∈ c, x = p.1 ∨ x = p.1 + 1

theorem mapOk_raw (pos n : Nat) : MapOk pos n ((List.range n).map (pos + ·)) [] (pos + n) := by
  refine ⟨?_, ?_, by simp, by simp, by simp, by simp, ?_, ?_⟩
  · intro x hx; simp at hx; omega
  · rw [List.pairwise_map]
    exact List.pairwise_lt_range.imp (by intro a b; omega)
  · intro x hx; simp at hx; omega
  · intro x h1 h2; left; simp; exact ⟨x - pos, by omega, by omega⟩

theorem mapOk_block (pos n k stop : Nat) (m : List Nat) (c : List (Nat × Nat)) (hn : 0 < n)
    (h : MapOk (pos + n + 2) k m c stop) (hs : pos + n + 2 ≤ stop) :
    MapOk pos (n + k) ((List.range n).map (pos + ·) ++ m) ((pos + n, pos + n + 2) :: c) stop := by
  have h0 := mapOk_raw pos n
  refine ⟨?_, ?_, ?_, ?_, ?_, ?_, ?_, ?_⟩
  · intro x hx
    rcases List.mem_append.mp hx with hx | hx
    · exact h0.ge x hx
    · have := h.ge x hx; omega
  · rw [List.pairwise_append]
    refine ⟨h0.mono, h.mono, ?_⟩
    intro a ha b hb
    have := h0.lt a ha
    have := h.ge b hb
    omega
  · simp [h.length]
  · intro p hp
    rcases List.mem_cons.mp hp with rfl | hp
    · simp; omega
    · have := h.width p hp; omega
  · rw [List.pairwise_cons]
    refine ⟨?_, h.apart⟩
    intro p hp
    have := h.width p hp
    simp only; omega
  · intro p hp x hx
    rcases List.mem_cons.mp hp with rfl | hp
    · rcases List.mem_append.mp hx with hx | hx
      · have := h0.lt x hx; simp only; omega
      · have := h.ge x hx; simp only; omega
    · rcases List.mem_append.mp hx with hx | hx
      · have := h0.lt x hx
        have := h.width p hp
        omega
      · exact h.disjoint p hp x hx
  · intro x hx
    rcases List.mem_append.mp hx with hx | hx
    · have := h0.lt x hx; omega
    · exact h.lt x hx
  · intro x h1 h2
    by_cases hx : x < pos + n
    · rcases h0.all x h1 hx with h | ⟨p, hp, _⟩
      · exact .inl (List.mem_append_left _ h)
      · simp at hp
    · by_cases hx2 : x < pos + n + 2
      · exact .inr ⟨_, List.mem_cons_self, by simp only; omega⟩
      · rcases h.all x (by omega) h2 with h | ⟨p, hp, hh⟩
        · exact .inl (List.mem_append_right _ h)
        · exact .inr ⟨p, List.mem_cons_of_mem _ hp, hh⟩

theorem loops_ok (pos : Nat) (rest out : List UInt8) (h : Stripped rest out) :
    MapOk pos out.length (offsetMapLoop pos rest) (crcPositionsLoop pos rest) (pos + rest.length) := by
  induction h generalizing pos with
  | raw rest hB =>
    rw [offsetMapLoop, crcPositionsLoop]
    by_cases h0 : 0 < rest.length
    · rw [dif_pos h0, dif_pos h0]
      by_cases h3 : rest.length < 3
      · rw [if_pos h3, if_pos h3]; exact mapOk_raw _ _
      · rw [if_neg h3, if_neg h3]
        rcases findBlock_spec rest (min 16 (rest.length - 2)) with
          ⟨m, h1, h2, h4, hb, hmax⟩ | ⟨h1, h2⟩
        · exact absurd hb (hB m h2 (by omega))
        · rw [h1]; exact mapOk_raw _ _
    · rw [dif_neg h0, dif_neg h0]
      have : rest = [] := List.eq_nil_of_length_eq_zero (by omega)
      subst this
      exact mapOk_raw _ 0
  | block b tail out hi lo h1 h16 hc hmax ht ih =>
    have hlen : (b ++ [hi, lo] ++ tail).length = b.length + 2 + tail.length := by simp; omega
    have hf : findBlock (b ++ [hi, lo] ++ tail) (min 16 ((b ++ [hi, lo] ++ tail).length - 2)) =
        some b.length := by
      have hB : BlockAt (b ++ [hi, lo] ++ tail) b.length := ⟨b, hi, lo, tail, rfl, rfl, hc⟩
      rcases findBlock_spec (b ++ [hi, lo] ++ tail) (min 16 ((b ++ [hi, lo] ++ tail).length - 2)) with
        ⟨m, h1', h2, h4, hb, hm⟩ | ⟨_, h2⟩
      · rcases Nat.lt_trichotomy m b.length with hl | hl | hl
        · exact absurd hB (hm _ hl (by omega))
        · rw [h1', hl]
        · exact absurd hb (hmax m hl (by omega))
      · exact absurd hB (h2 _ h1 (by omega))
    have hd : (b ++ [hi, lo] ++ tail).drop (b.length + 2) = tail := by
      have : b.length + 2 = (b ++ [hi, lo]).length := by simp
      rw [this, List.drop_left]
    rw [offsetMapLoop, crcPositionsLoop, dif_pos (by omega), dif_pos (by omega),
      if_neg (by omega), if_neg (by omega), hf]
    simp only [hd]
    have := ih (pos + b.length + 2)
    rw [List.length_append, hlen]
    rw [show pos + (b.length + 2 + tail.length) = pos + b.length + 2 + tail.length by omega]
    exact mapOk_block _ _ _ _ _ _ (by omega) this (by omega)

theorem maps_ok (head : List UInt8) (hi lo : UInt8) (rest out : List UInt8) (hh : head.length = 10)
    (h : Stripped rest out) :
    MapOk 0 (head ++ out).length (offsetMap (head ++ [hi, lo] ++ rest))
      (crcPositions (head ++ [hi, lo] ++ rest)) (head ++ [hi, lo] ++ rest).length := by
  have hlen : (head ++ [hi, lo] ++ rest).length = 12 + rest.length := by simp; omega
  have hd : (head ++ [hi, lo] ++ rest).drop 12 = rest := by
    have : 12 = (head ++ [hi, lo]).length := by simp; omega
    rw [this, List.drop_left]
  unfold offsetMap crcPositions
  rw [if_neg (by omega), if_pos (by omega), hd, hlen, List.length_append, hh]
  have := mapOk_block 0 10 _ _ _ _ (by omega) (loops_ok (0 + 10 + 2) rest out h) (by omega)
  rw [show min 10 (12 + rest.length) = 10 by omega]
  simpa using this

/-- The map extended to the end of the last segment. -/
def mapEnd (m : List Nat) (i : Nat) : Nat :=
  match m[i]? with
  | some x => x
  | none => match m.getLast? with
    | some x => x + 1
    | none => i

theorem mapSegment_eq (m : List Nat) (seg : ByteSegment) (h1 : seg.start < seg.stop)
    (h2 : seg.stop ≤ m.length) :
    mapSegment m seg = { seg with start := mapEnd m seg.start, stop := mapEnd m seg.stop } := by
  unfold mapSegment mapEnd
  rw [List.getElem?_eq_getElem (show seg.start < m.length by omega)]
  simp only [if_pos h2, Option.getD_some]
  rfl

theorem mapEnd_lt (m : List Nat) (hm : m.Pairwise (· < ·)) {i j : Nat} (h : i < j) (hj : j ≤ m.length) :
    mapEnd m i < mapEnd m j := by
  unfold mapEnd
  rw [List.getElem?_eq_getElem (show i < m.length by omega)]
  rcases Nat.lt_or_ge j m.length with h1 | h1
  · rw [List.getElem?_eq_getElem h1]
    exact List.pairwise_iff_getElem.mp hm i j _ _ h
  · rw [List.getElem?_eq_none h1]
    have hne : m ≠ [] := by rintro rfl; simp at hj; omega
    rw [List.getLast?_eq_some_getLast hne, List.getLast_eq_getElem hne]
    simp only
    rcases Nat.lt_or_ge i (m.length - 1) with h2 | h2
    · have := List.pairwise_iff_getElem.mp hm i (m.length - 1) (by omega) (by omega) h2
      omega
    · have : i = m.length - 1 := by omega
      subst this
      omega

theorem mapped_covers (m : List Nat) (hm : m.Pairwise (· < ·)) {a b : Nat} {segs : List ByteSegment}
    (hb : b ≤ m.length) (h : Covers a b segs) :
    Covers (mapEnd m a) (mapEnd m b) (segs.map (mapSegment m)) ∧
      (∀ s ∈ segs.map (mapSegment m), s.start ∈ m) := by
  induction segs generalizing a with
  | nil => exact ⟨by cases h; rfl, by simp⟩
  | cons s rest ih =>
    obtain ⟨h1, h2, h3⟩ := h
    have hle := covers_le h3
    obtain ⟨i1, i2⟩ := ih h3
    rw [List.map_cons, mapSegment_eq m s h2 (by omega)]
    refine ⟨⟨by rw [← h1], mapEnd_lt m hm h2 (by omega), i1⟩, ?_⟩
    intro x hx
    rcases List.mem_cons.mp hx with rfl | hx
    · simp only [mapEnd]
      rw [List.getElem?_eq_getElem (show s.start < m.length by omega)]
      exact List.getElem_mem _
    · exact i2 x hx

/-- The segment in which an offset lies. -/
theorem covers_split {a b s : Nat} {segs : List ByteSegment} (h : Covers a b segs) (ha : a < s)
    (hb : s ≤ b) : ∃ pre prev post, segs = pre ++ prev :: post ∧ Covers a prev.start pre ∧
      prev.start < s ∧ s ≤ prev.stop ∧ Covers prev.stop b post ∧ (∀ x ∈ pre, x.start < s) := by
  induction segs generalizing a with
  | nil => cases h; omega
  | cons x rest ih =>
    obtain ⟨h1, h2, h3⟩ := h
    by_cases hx : s ≤ x.stop
    · exact ⟨[], x, rest, rfl, h1.symm, by omega, hx, h3, by simp⟩
    · obtain ⟨pre, prev, post, e1, e2, e3, e4, e5, e6⟩ := ih h3 (by omega)
      refine ⟨x :: pre, prev, post, by rw [e1]; rfl, ⟨h1, h2, e2⟩, e3, e4, e5, ?_⟩
      intro y hy
      rcases List.mem_cons.mp hy with rfl | hy
      · omega
      · exact e6 y hy

theorem findIdx_split (s : Nat) (pre post : List ByteSegment) (prev : ByteSegment)
    (h1 : ∀ x ∈ pre, x.start < s) (h2 : prev.start < s) (h3 : ∀ x ∈ post, s ≤ x.start) :
    (pre ++ prev :: post).findIdx (fun x => s ≤ x.start) = pre.length + 1 := by
  induction pre with
  | nil =>
    rw [List.nil_append, List.findIdx_cons]
    have : decide (s ≤ prev.start) = false := by simp; omega
    rw [this]
    rcases post with _ | ⟨y, t⟩
    · rfl
    · rw [List.findIdx_cons]
      have : decide (s ≤ y.start) = true := by simpa using h3 y (by simp)
      rw [this]; rfl
  | cons x pre ih =>
    rw [List.cons_append, List.findIdx_cons]
    have : decide (s ≤ x.start) = false := by have := h1 x (by simp); simp; omega
    rw [this, ih (fun y hy => h1 y (by simp [hy]))]
    rfl

theorem covers_starts {a b : Nat} {segs : List ByteSegment} (h : Covers a b segs) :
    ∀ x ∈ segs, a ≤ x.start ∧ x.start < x.stop ∧ x.stop ≤ b := by
  induction segs generalizing a with
  | nil => simp
  | cons s rest ih =>
    obtain ⟨h1, h2, h3⟩ := h
    have := covers_le h3
    intro x hx
    rcases List.mem_cons.mp hx with rfl | hx
    · omega
    · have := ih h3 x hx; omega

theorem insertCrc_split (original : List UInt8) (s e : Nat) (pre post : List ByteSegment)
    (prev : ByteSegment) (h1 : ∀ x ∈ pre, x.start < s) (h2 : prev.start < s)
    (h3 : ∀ x ∈ post, s ≤ x.start) :
    insertCrc original (pre ++ prev :: post) (s, e) =
      if prev.stop > s then
        pre ++ [{ prev with stop := s }, frameSeg s e .crc (crcText original s)] ++
          (if e < prev.stop then [{ prev with start := e }] else []) ++ post
      else pre ++ [prev, frameSeg s e .crc (crcText original s)] ++ post := by
  unfold insertCrc
  simp only [findIdx_split s pre post prev h1 h2 h3, Nat.add_sub_cancel]
  have hg : (pre ++ prev :: post)[pre.length]? = some prev := by simp
  have hd : (pre ++ prev :: post).drop (pre.length + 1) = post := by
    rw [show pre ++ prev :: post = (pre ++ [prev]) ++ post by simp,
      show pre.length + 1 = (pre ++ [prev]).length by simp, List.drop_left]
  have ht : (pre ++ prev :: post).take (pre.length + 1) = pre ++ [prev] := by
    rw [show pre ++ prev :: post = (pre ++ [prev]) ++ post by simp,
      show pre.length + 1 = (pre ++ [prev]).length by simp, List.take_left]
  rw [hg]
  simp only [hd, ht, List.take_left]
  split <;> simp

theorem covers_labelled {a b p : Nat} {segs : List ByteSegment} (h : Covers a b segs) (h1 : a ≤ p)
    (h2 : p < b) : ∃ l, Labelled segs p l := by
  induction segs generalizing a with
  | nil => cases h; omega
  | cons s rest ih =>
    by_cases hp : p < s.stop
    · exact ⟨_, s, by simp, by have := h.1; omega, hp, rfl⟩
    · obtain ⟨l, x, hx, hh⟩ := ih h.2.2 (by omega)
      exact ⟨l, x, by simp [hx], hh⟩

theorem labelled_unique {a b p : Nat} {segs : List ByteSegment} (h : Covers a b segs) {l l'}
    (h1 : Labelled segs p l) (h2 : Labelled segs p l') : l = l' := by
  induction segs generalizing a with
  | nil => obtain ⟨x, hx, _⟩ := h1; simp at hx
  | cons s rest ih =>
    obtain ⟨x, hx, a1, a2, a3⟩ := h1
    obtain ⟨y, hy, b1, b2, b3⟩ := h2
    have hst := covers_starts h.2.2
    rcases List.mem_cons.mp hx with hx | hx <;> rcases List.mem_cons.mp hy with hy | hy
    · rw [← a3, ← b3, hx, hy]
    · have := hst y hy; rw [hx] at a2; omega
    · have := hst x hx; rw [hy] at b2; omega
    · exact ih h.2.2 ⟨x, hx, a1, a2, a3⟩ ⟨y, hy, b1, b2, b3⟩

theorem mapped_labelled (m : List Nat) (hm : m.Pairwise (· < ·)) {a b p : Nat}
    {segs : List ByteSegment} (hb : b ≤ m.length) (h : Covers a b segs) {l}
    (hl : Labelled segs p l) : Labelled (segs.map (mapSegment m)) (mapEnd m p) l := by
  obtain ⟨x, hx, h1, h2, h3⟩ := hl
  have hst := covers_starts h x hx
  refine ⟨mapSegment m x, List.mem_map_of_mem hx, ?_⟩
  rw [mapSegment_eq m x hst.2.1 (by omega)]
  refine ⟨?_, mapEnd_lt m hm h2 (by omega), h3⟩
  rcases Nat.lt_or_ge x.start p with h | h
  · exact Nat.le_of_lt (mapEnd_lt m hm h (by omega))
  · have : x.start = p := by omega
    simp [this]

/-- Inserting one CRC. -/
theorem insertCrc_ok (original : List UInt8) (s b : Nat) (segs : List ByteSegment)
    (h : Covers 0 b segs) (hs : 0 < s) (hb : s ≤ b) (hb1 : s + 1 ≠ b)
    (hst : ∀ x ∈ segs, x.start ≠ s ∧ x.start ≠ s + 1) :
    Covers 0 (max b (s + 2)) (insertCrc original segs (s, s + 2)) ∧
    (∀ x ∈ insertCrc original segs (s, s + 2),
      (∃ y ∈ segs, y.start = x.start) ∨ x.start = s ∨ x.start = s + 2) ∧
    (∀ p l, p ≠ s → p ≠ s + 1 → Labelled segs p l →
      Labelled (insertCrc original segs (s, s + 2)) p l) ∧
    ∀ p, p = s ∨ p = s + 1 → Labelled (insertCrc original segs (s, s + 2)) p
      (.crc, crcText original s, none, .frame) := by
  obtain ⟨pre, prev, post, e1, e2, e3, e4, e5, e6⟩ := covers_split h hs hb
  have hpost : ∀ x ∈ post, s ≤ x.start := fun x hx => by
    have := covers_starts e5 x hx; omega
  have hpv : prev.start < prev.stop := by
    have := covers_starts h prev (by rw [e1]; simp); omega
  subst e1
  rw [insertCrc_split original s (s + 2) pre post prev e6 e3 hpost]
  by_cases hgt : prev.stop > s
  · rw [if_pos hgt]
    -- the split segment reaches beyond the CRC
    have hstop : s + 2 ≤ prev.stop ∧ s + 2 ≤ b := by
      rcases post with _ | ⟨y, t⟩
      · cases e5; omega
      · have hy := hst y (by simp)
        have h1 := e5.1
        have := covers_le e5
        omega
    have hmax : max b (s + 2) = b := by omega
    rw [hmax]
    refine ⟨?_, ?_, ?_, ?_⟩
    · refine covers_append (b := prev.stop) (covers_append (b := s + 2) (covers_append e2 ?_) ?_) e5
      · exact ⟨rfl, e3, rfl, by simp [frameSeg], rfl⟩
      · split
        · exact covers_one _ _ _ rfl rfl (by omega)
        · show _ = _; omega
    · intro x hx
      simp only [List.append_assoc, List.mem_append, List.mem_cons, List.not_mem_nil, or_false] at hx
      rcases hx with hx | (rfl | rfl) | hx | hx
      · exact .inl ⟨x, by simp [hx], rfl⟩
      · exact .inl ⟨prev, by simp, rfl⟩
      · exact .inr (.inl rfl)
      · split at hx
        · simp only [List.mem_singleton] at hx; subst hx; exact .inr (.inr rfl)
        · simp at hx
      · exact .inl ⟨x, by simp [hx], rfl⟩
    · rintro p l hp1 hp2 ⟨x, hx, h1, h2, h3⟩
      simp only [List.mem_append, List.mem_cons] at hx
      rcases hx with hx | rfl | hx
      · exact ⟨x, by simp [hx], h1, h2, h3⟩
      · rcases Nat.lt_or_ge p s with hlt | hge
        · exact ⟨{ x with stop := s }, by simp, h1, hlt, h3⟩
        · refine ⟨{ x with start := s + 2 }, ?_, by simp only; omega, h2, h3⟩
          rw [if_pos (by omega)]; simp
      · exact ⟨x, by simp [hx], h1, h2, h3⟩
    · intro p hp
      exact ⟨frameSeg s (s + 2) .crc (crcText original s), by simp, by simp [frameSeg]; omega,
        by simp [frameSeg]; omega, rfl⟩
  · rw [if_neg hgt]
    have hps : prev.stop = s := by omega
    have hbs : post = [] ∧ b = s := by
      rcases post with _ | ⟨y, t⟩
      · cases e5; exact ⟨rfl, hps⟩
      · have hy := hst y (by simp)
        have h1 := e5.1
        exact absurd (by omega) hy.1
    obtain ⟨rfl, rfl⟩ := hbs
    rw [show max b (b + 2) = b + 2 by omega]
    refine ⟨?_, ?_, ?_, ?_⟩
    · refine covers_append (b := b + 2) (covers_append e2 ?_) rfl
      exact ⟨rfl, hpv, by rw [hps]; rfl, by simp [frameSeg], rfl⟩
    · intro x hx
      simp only [List.append_nil, List.mem_append, List.mem_cons, List.not_mem_nil, or_false] at hx
      rcases hx with hx | rfl | rfl
      · exact .inl ⟨x, by simp [hx], rfl⟩
      · exact .inl ⟨_, by simp, rfl⟩
      · exact .inr (.inl rfl)
    · rintro p l hp1 hp2 ⟨x, hx, h1, h2, h3⟩
      simp only [List.mem_append, List.mem_cons, List.not_mem_nil, or_false] at hx
      exact ⟨x, by simp; tauto, h1, h2, h3⟩
    · intro p hp
      exact ⟨frameSeg b (b + 2) .crc (crcText original b), by simp, by simp [frameSeg]; omega,
        by simp [frameSeg]; omega, rfl⟩

/-- Inserting all CRCs. -/
theorem insertCrcs_ok (original : List UInt8) (c : List (Nat × Nat)) (b : Nat)
    (segs : List ByteSegment) (h : Covers 0 b segs)
    (hc : ∀ p ∈ c, p.2 = p.1 + 2 ∧ 0 < p.1 ∧ p.1 ≤ b ∧ p.1 + 1 ≠ b)
    (ha : c.Pairwise (fun p q => p.2 < q.1))
    (hst : ∀ x ∈ segs, ∀ p ∈ c, x.start ≠ p.1 ∧ x.start ≠ p.1 + 1) :
    ∃ b', Covers 0 b' (c.foldl (insertCrc original) segs) ∧ b ≤ b' ∧ (∀ p ∈ c, p.2 ≤ b') ∧
      (b' = b ∨ ∃ p ∈ c, b' = p.2) ∧
      (∀ x l, (∀ p ∈ c, x ≠ p.1 ∧ x ≠ p.1 + 1) → Labelled segs x l →
        Labelled (c.foldl (insertCrc original) segs) x l) ∧
      ∀ p ∈ c, ∀ x, x = p.1 ∨ x = p.1 + 1 → Labelled (c.foldl (insertCrc original) segs) x
        (.crc, crcText original p.1, none, .frame) := by
  induction c generalizing segs b with
  | nil => exact ⟨b, h, le_refl _, by simp, .inl rfl, fun _ _ _ h => h, by simp⟩
  | cons q c ih =>
    obtain ⟨s, e⟩ := q
    obtain ⟨hq1, hq2, hq3, hq4⟩ := hc (s, e) (by simp)
    simp only at hq1 hq2 hq3 hq4
    subst hq1
    obtain ⟨i1, i2, i3, i4⟩ := insertCrc_ok original s b segs h hq2 hq3 hq4
      (fun x hx => hst x hx (s, s + 2) (by simp))
    rw [List.pairwise_cons] at ha
    obtain ⟨ha1, ha2⟩ := ha
    obtain ⟨b', j1, j2, j3, j4, j5, j6⟩ := ih (max b (s + 2)) (insertCrc original segs (s, s + 2)) i1
      (by
        intro p hp
        have h1 := hc p (by simp [hp])
        have h2 := ha1 p hp
        simp only at h2
        omega) ha2
      (by
        intro x hx p hp
        have h2 := ha1 p hp
        simp only at h2
        rcases i2 x hx with ⟨y, hy, he⟩ | he | he
        · rw [← he]; exact hst y hy p (by simp [hp])
        · omega
        · omega)
    refine ⟨b', j1, by omega, ?_, ?_, ?_, ?_⟩
    · intro p hp
      rcases List.mem_cons.mp hp with rfl | hp
      · simp only; omega
      · exact j3 p hp
    · rcases j4 with j4 | ⟨p, hp, j4⟩
      · rcases Nat.le_total (s + 2) b with hle | hle
        · exact .inl (by omega)
        · exact .inr ⟨(s, s + 2), by simp, by simp only; omega⟩
      · exact .inr ⟨p, by simp [hp], j4⟩
    · intro x l hx hl
      refine j5 x l (fun p hp => hx p (by simp [hp])) (i3 x l ?_ ?_ hl)
      · exact (hx (s, s + 2) (by simp)).1
      · exact (hx (s, s + 2) (by simp)).2
    · intro p hp x hx
      rcases List.mem_cons.mp hp with rfl | hp
      · refine j5 x _ ?_ (i4 x hx)
        intro p hp
        have h2 := ha1 p hp
        simp only at h2 hx
        omega
      · exact j6 p hp x hx

/-- Everything about the annotation of a Format A frame. -/
theorem formatA_ok (cfg : Cfg) (dt : Data → List Char) (original stripped : List UInt8)
    (segs inner : List ByteSegment) (hm : MapOk 0 stripped.length (offsetMap original)
      (crcPositions original) original.length)
    (hi : annotateWirelessInner cfg dt stripped = .ok inner)
    (h : annotateFormatA cfg dt original stripped = .ok segs) :
    Covers 0 original.length segs ∧
    (∀ i (hi : i < (offsetMap original).length) l, Labelled inner i l →
      Labelled segs ((offsetMap original)[i]) l) ∧
    ∀ p ∈ crcPositions original, ∀ x, x = p.1 ∨ x = p.1 + 1 → Labelled segs x
      (.crc, crcText original p.1, none, .frame) := by
  unfold annotateFormatA at h
  rw [hi, Res.bind_ok] at h
  simp only [Res.ok.injEq] at h
  have hcov := inner_covers _ _ _ _ hi
  generalize hM : offsetMap original = m at *
  generalize hC : crcPositions original = c at *
  have hlen := hm.length
  have hpos : 0 < stripped.length := by
    rcases inner with _ | ⟨x, t⟩
    · exfalso
      have hl : ([] : List ByteSegment).length ≠ 0 := by
        unfold annotateWirelessInner at hi
        rw [Res.bind_eq_ok] at hi
        obtain ⟨_, _, hi⟩ := hi
        rw [Res.bind_eq_ok] at hi
        obtain ⟨_, _, hi⟩ := hi
        cases hi
      exact hl rfl
    · have := covers_starts hcov x (by simp); omega
  obtain ⟨g1, g2⟩ := mapped_covers m hm.mono (by omega) hcov
  -- the first offset is 0, the last one precedes the end of the mapped segments
  have hne : m ≠ [] := by rintro rfl; simp at hlen; omega
  have hE : mapEnd m stripped.length = m.getLast hne + 1 := by
    unfold mapEnd
    rw [List.getElem?_eq_none (by omega), List.getLast?_eq_some_getLast hne]
  have hlast : m.getLast hne ∈ m := List.getLast_mem hne
  have hmax : ∀ x ∈ m, x ≤ m.getLast hne := by
    intro x hx
    obtain ⟨i, hi, rfl⟩ := List.getElem_of_mem hx
    rw [List.getLast_eq_getElem hne]
    rcases Nat.lt_or_ge i (m.length - 1) with h2 | h2
    · exact Nat.le_of_lt (List.pairwise_iff_getElem.mp hm.mono i (m.length - 1) _ (by omega) h2)
    · have : i = m.length - 1 := by omega
      subst this; exact le_refl _
  have h0 : mapEnd m 0 = 0 := by
    have hin : (0 : Nat) ∈ m := by
      rcases hm.all 0 (by omega) (by have := hm.lt _ hlast; omega) with h | ⟨p, hp, h⟩
      · exact h
      · have := hm.width p hp; omega
    obtain ⟨i, hi, he⟩ := List.getElem_of_mem hin
    unfold mapEnd
    rw [List.getElem?_eq_getElem (by omega)]
    rcases Nat.eq_zero_or_pos i with rfl | hp
    · exact he
    · have := List.pairwise_iff_getElem.mp hm.mono 0 i (by omega) hi hp
      omega
  rw [h0, hE] at g1
  have hcc : ∀ p ∈ c, p.2 = p.1 + 2 ∧ 0 < p.1 ∧ p.1 ≤ m.getLast hne + 1 ∧
      p.1 + 1 ≠ m.getLast hne + 1 := by
    intro p hp
    obtain ⟨w1, w2, w3⟩ := hm.width p hp
    refine ⟨w1, w2, ?_, fun hh => (hm.disjoint p hp _ hlast).1 (by omega)⟩
    by_contra hgt
    -- then the byte before this CRC, and the one after the last data byte, are CRCs too
    rcases hm.all (p.1 - 1) (by omega) (by omega) with h | ⟨q, hq, h⟩
    · have := hmax _ h; omega
    · obtain ⟨v1, v2, v3⟩ := hm.width q hq
      by_cases hpq : p = q
      · subst hpq; omega
      · have hap : p.2 < q.1 ∨ q.2 < p.1 := by
          obtain ⟨i, hi, rfl⟩ := List.getElem_of_mem hp
          obtain ⟨j, hj, rfl⟩ := List.getElem_of_mem hq
          rcases Nat.lt_trichotomy i j with h | rfl | h
          · exact .inl (List.pairwise_iff_getElem.mp hm.apart i j _ _ h)
          · exact absurd rfl hpq
          · exact .inr (List.pairwise_iff_getElem.mp hm.apart j i _ _ h)
        omega
  obtain ⟨b', k1, k2, k3, k4, k5, k6⟩ := insertCrcs_ok original c _ _ g1 hcc hm.apart
    (fun x hx p hp => hm.disjoint p hp _ (g2 x hx))
  have hb' : b' = original.length := by
    have hlt := hm.lt _ hlast
    have hle : b' ≤ original.length := by
      rcases k4 with k4 | ⟨p, hp, k4⟩
      · omega
      · have := (hm.width p hp).2.2; omega
    rcases hm.all (original.length - 1) (by omega) (by omega) with h | ⟨p, hp, h⟩
    · have := hmax _ h; omega
    · have h1 := k3 p hp
      have h2 := hm.width p hp
      omega
  have hfil : (c.foldl (insertCrc original) (inner.map (mapSegment m))).filter
      (fun s => s.start < s.stop) = c.foldl (insertCrc original) (inner.map (mapSegment m)) := by
    rw [List.filter_eq_self]
    intro x hx
    simpa using (covers_starts k1 x hx).2.1
  rw [hfil] at h
  subst h
  subst hb'
  refine ⟨k1, ?_, k6⟩
  intro i hi' l hl
  have := mapped_labelled m hm.mono (by omega) hcov hl
  have he : mapEnd m i = m[i] := by
    unfold mapEnd; rw [List.getElem?_eq_getElem hi']
  rw [he] at this
  exact k5 _ _ (fun p hp => hm.disjoint p hp _ (List.getElem_mem _)) this

end MBus
