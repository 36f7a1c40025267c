import Verif.Lemmas.AnnotateAgree
import Verif.Lemmas.AnnotateText
import Verif.Spec.Tooltip
/-!
# Lemmas: the texts of annotations
-/
namespace MBus
open Spec

/-- The segment's text is right, or it is one of those that C125 excepts: a plain text unit, and the
second start byte. -/
def ToldMostly (cfg : Cfg) (data : List UInt8) (s : ByteSegment) : Prop :=
  (Told data s ∧ s.kind ≠ .plaintextVif) ∨ (s.kind = .plaintextVif ∧ (cfg.plaintextFirst = false → TextAsSent data s)) ∨
    (s.kind = .startByte ∧ s.layer = .frame ∧ s.start = 3 ∧ s.stop = 4 ∧ s.detail = "Start: 0x68 (repeated)".toList)

theorem told {cfg : Cfg} {data : List UInt8} {s : ByteSegment} (h : Told data s)
    (hk : s.kind ≠ .plaintextVif := by simp [headerSeg, frameSeg, recordSeg]) : ToldMostly cfg data s :=
  .inl ⟨h, hk⟩

theorem hexString_bytes (bytes : List UInt8) : hexString bytes = hexBytes bytes := by
  unfold hexString hexBytes
  congr 1
  funext b
  exact hexString_pair b ▸ (by simp [hexString])

theorem marked_at {data rest post : List UInt8} {pos : Nat} (h : data.drop pos = rest ++ post) (k n : Nat)
    (hk : k + n ≤ rest.length) : (data.drop (pos + k)).take n = (rest.drop k).take n := by
  rw [← List.drop_drop, h, List.drop_append_of_le_length (by omega),
    List.take_append_of_le_length (by simp; omega)]

theorem take_one (l : List UInt8) (k : Nat) (h : k < l.length) : (l.drop k).take 1 = [byteOr0 l k] := by
  rw [List.drop_eq_getElem_cons h, List.take_succ_cons, List.take_zero]
  simp [byteOr0, h]

theorem take_two (l : List UInt8) (k : Nat) (h : k + 1 < l.length) :
    (l.drop k).take 2 = [byteOr0 l k, byteOr0 l (k + 1)] := by
  rw [List.drop_eq_getElem_cons (by omega), List.drop_eq_getElem_cons h, List.take_succ_cons,
    List.take_succ_cons, List.take_zero]
  simp [byteOr0, h, show k < l.length by omega]

theorem take_four (l : List UInt8) (k : Nat) (h : k + 3 < l.length) :
    (l.drop k).take 4 = [byteOr0 l k, byteOr0 l (k + 1), byteOr0 l (k + 2), byteOr0 l (k + 3)] := by
  rw [List.drop_eq_getElem_cons (by omega), List.drop_eq_getElem_cons (by omega : k + 1 < l.length),
    List.drop_eq_getElem_cons (by omega : k + 1 + 1 < l.length), List.drop_eq_getElem_cons (by omega : k + 1 + 1 + 1 < l.length),
    List.take_succ_cons, List.take_succ_cons, List.take_succ_cons, List.take_succ_cons, List.take_zero]
  simp [byteOr0, h, show k < l.length by omega, show k + 1 < l.length by omega, show k + 2 < l.length by omega]

/-- The bytes marked by a segment that starts `k` bytes into a part of the data. -/
theorem marked_seg {data rest post : List UInt8} {pos : Nat} (h : data.drop pos = rest ++ post) (k n : Nat)
    (hk : k + n ≤ rest.length) (s : ByteSegment) (h1 : s.start = pos + k) (h2 : s.stop = pos + k + n) :
    markedBytes data s = (rest.drop k).take n := by
  unfold markedBytes
  rw [h1, h2, show pos + k + n - (pos + k) = n by omega]
  exact marked_at h k n hk

theorem told_header {data rest post : List UInt8} {pos index : Nat} {cfg : Cfg} {r : DataRecord}
    (h : data.drop pos = rest ++ post) (hr : DataRecord.parse cfg false rest = .ok r) :
    ∀ s ∈ (recordHeaderSegs pos index rest r).1, ToldMostly cfg data s := by
  obtain ⟨h1, h2, h3⟩ := record_sizes _ _ _ _ hr
  have hc := (recordHeader_covers pos index rest r).2
  have hl : (recordHeaderSegs pos index rest r).2 ≤ rest.length := by omega
  obtain ⟨_, rest', _, hrest, _, _, _⟩ := (record_ok _ _ _ _).mp hr
  have hdib : r.header.raw.dib.size - 1 = (r.header.raw.dib.difes.getD []).length := by
    rw [dib_size]; simp [dibBytes]
  clear hc h1 h2 h3 hr
  have hone : ∀ k, k < rest.length → ∀ s : ByteSegment, s.start = pos + k → s.stop = pos + k + 1 →
      markedBytes data s = [byteOr0 rest k] := by
    intro k hk s e1 e2
    rw [marked_seg h k 1 (by omega) s e1 e2, take_one _ _ hk]
  have hdif : 0 < rest.length → ToldMostly cfg data
      (recordSeg pos (pos + 1) .dif ("DIF: 0x".toList ++ hexString [byteOr0 rest 0]) (some index)) := by
    intro h0
    refine told ⟨byteOr0 rest 0, hone 0 h0 _ (by rfl) (by rfl), ?_⟩
    rw [← hexString_bytes]; rfl
  have hvif : ∀ o, o < rest.length → ToldMostly cfg data
      (recordSeg (pos + o) (pos + o + 1) .vif ("VIF: 0x".toList ++ hexString [byteOr0 rest o]) (some index)) := by
    intro o h0
    refine told ⟨byteOr0 rest o, hone o h0 _ (by rfl) (by rfl), ?_⟩
    rw [← hexString_bytes]; rfl
  have hdife : ∀ n, 1 + n ≤ rest.length → ToldMostly cfg data (recordSeg (pos + 1) (pos + 1 + n) .dife
        ("DIFE: ".toList ++ natDisplay n ++ " byte(s)".toList) (some index)) := by
    intro n hn
    refine told ?_
    show _ = _
    rw [marked_seg h 1 n hn _ rfl rfl]
    simp only [List.length_take, List.length_drop, recordSeg]
    rw [Nat.min_eq_left (by omega)]; rfl
  have hvife : ∀ o n, o + 1 + n ≤ rest.length → ToldMostly cfg data
      (recordSeg (pos + o + 1) (pos + o + 1 + n) .vife
        ("VIFE: ".toList ++ natDisplay n ++ " byte(s)".toList) (some index)) := by
    intro o n hn
    refine told ?_
    show _ = _
    rw [marked_seg h (o + 1) n hn _ rfl rfl]
    simp only [List.length_take, List.length_drop, recordSeg]
    rw [Nat.min_eq_left (by omega)]; rfl
  unfold recordHeaderSegs at hl ⊢
  simp only at hl ⊢
  generalize r.header.raw.dib.size - 1 = d at hl hdib ⊢
  cases hv : r.header.raw.vib with
  | none =>
    rw [hv] at hl
    simp only at hl ⊢
    intro s hs
    rcases List.mem_append.mp hs with hs | hs
    · rw [List.mem_singleton] at hs; subst hs; exact hdif (by omega)
    · split at hs
      · rw [List.mem_singleton] at hs; subst hs; exact hdife _ (by omega)
      · simp at hs
  | some vib =>
    rw [hv] at hl
    simp only at hl ⊢
    have hcount : vib.vifeCount = (vib.vifes.getD []).length := by
      unfold VIB.vifeCount; cases vib.vifes <;> rfl
    generalize vib.vifeCount = v at hl hcount ⊢
    have main : ∀ s ∈ [recordSeg pos (pos + 1) .dif ("DIF: 0x".toList ++ hexString [byteOr0 rest 0]) (some index)] ++
        (if d > 0 then [recordSeg (pos + 1) (pos + 1 + d) .dife
          ("DIFE: ".toList ++ natDisplay d ++ " byte(s)".toList) (some index)] else []) ++
        [recordSeg (pos + (1 + d)) (pos + (1 + d) + 1) .vif
          ("VIF: 0x".toList ++ hexString [byteOr0 rest (1 + d)]) (some index)] ++
        (if v > 0 then [recordSeg (pos + (1 + d) + 1) (pos + (1 + d) + 1 + v) .vife
          ("VIFE: ".toList ++ natDisplay v ++ " byte(s)".toList) (some index)] else []),
        1 + d + 1 + v ≤ rest.length → ToldMostly cfg data s := by
      intro s hs hlen
      rcases List.mem_append.mp hs with hs | hs
      · rcases List.mem_append.mp hs with hs | hs
        · rcases List.mem_append.mp hs with hs | hs
          · rw [List.mem_singleton] at hs; subst hs; exact hdif (by omega)
          · split at hs
            · rw [List.mem_singleton] at hs; subst hs; exact hdife _ (by omega)
            · simp at hs
        · rw [List.mem_singleton] at hs; subst hs; exact hvif _ (by omega)
      · split at hs
        · rw [List.mem_singleton] at hs; subst hs; exact hvife _ _ (by omega)
        · simp at hs
    cases hp : vib.plaintext with
    | none =>
      rw [hp] at hl
      exact fun s hs => main s hs hl
    | some text =>
      rw [hp] at hl
      simp only at hl
      intro s hs
      rcases List.mem_append.mp hs with hs | hs
      · exact main s hs (by omega)
      · rw [List.mem_singleton] at hs; subst hs
        refine .inr (.inl ⟨rfl, fun htf => ⟨rfl, UInt8.ofNat text.length, text, ?_, rfl⟩⟩)
        rw [marked_seg h (1 + d + 1 + v) (text.length + 1) (by omega) _ rfl rfl]
        rw [hrest, htf, headerBytes, hv]
        simp only [hp, textBytes, hdib, hcount]
        generalize r.header.raw.dib.difes.getD [] = D
        generalize vib.vifes.getD [] = V
        rw [show (r.header.raw.dib.dif :: D ++ vib.vif :: (if false = true then
            UInt8.ofNat text.length :: text ++ V else V ++ UInt8.ofNat text.length :: text) ++ rest') =
            (r.header.raw.dib.dif :: D ++ vib.vif :: V) ++ ((UInt8.ofNat text.length :: text) ++ rest') by simp]
        rw [List.drop_left' (by simp; omega), List.take_left' (by simp)]

theorem told_records (cfg : Cfg) (dt : Data → List Char) (data : List UInt8) (pos index : Nat)
    (rest post : List UInt8) (hd : data.drop pos = rest ++ post) (segs : List ByteSegment)
    (h : annotateRecordsFrom cfg dt pos index rest = .ok segs) : ∀ s ∈ segs, ToldMostly cfg data s := by
  induction hn : rest.length using Nat.strong_induction_on generalizing pos index rest segs with
  | _ n ih =>
    subst hn
    rcases rest with _ | ⟨dif, tail⟩
    · rw [annotateRecordsFrom] at h; cases h; simp
    · have hd1 : data.drop (pos + 1) = tail ++ post := by
        rw [← List.drop_drop, hd]; rfl
      have ht : ∀ i segs, annotateRecordsFrom cfg dt (pos + 1) i tail = .ok segs →
          ∀ s ∈ segs, ToldMostly cfg data s := fun i segs h =>
        ih _ (by simp) _ _ _ hd1 _ h rfl
      have one : ∀ s : ByteSegment, s.start = pos → s.stop = pos + 1 → markedBytes data s = [dif] := by
        intro s e1 e2
        exact marked_seg hd 0 1 (by simp) s (by simpa using e1) (by simpa using e2)
      have all : ∀ s : ByteSegment, s.start = pos → s.stop = pos + (tail.length + 1) →
          markedBytes data s = dif :: tail := by
        intro s e1 e2
        rw [marked_seg hd 0 (tail.length + 1) (by simp) s (by simpa using e1) (by simpa using e2)]
        simp
      by_cases hs : dif &&& 0x0F = 0x0F
      · rw [annotateRecordsFrom, if_pos hs] at h
        split at h
        · rename_i h2f
          rw [Res.bind_eq_ok] at h
          obtain ⟨more, h1, h2⟩ := h
          cases h2
          intro s hs
          rcases List.mem_cons.mp hs with rfl | hs
          · exact told ⟨by rw [one _ rfl rfl, h2f], rfl⟩
          · exact ht _ _ h1 s hs
        · split at h
          · rename_i hm
            cases h
            intro s hs
            rw [List.mem_singleton] at hs
            subst hs
            refine told ⟨if dif = 0x0F then "Manufacturer Specific" else "More Records Follow", dif, tail,
              all _ rfl rfl, ?_, ?_⟩
            · rcases hm with rfl | rfl <;> decide
            · rw [all _ rfl rfl, ← hexString_bytes]
              show _ = _ ++ natDisplay (dif :: tail).length ++ _
              rfl
          · rw [Res.bind_eq_ok] at h
            obtain ⟨more, h1, h2⟩ := h
            cases h2
            intro s hs
            rcases List.mem_cons.mp hs with rfl | hs
            · exact told trivial
            · exact ht _ _ h1 s hs
      · cases hr : DataRecord.parse cfg false (dif :: tail) with
        | err e =>
          rw [annotateRecordsFrom, if_neg hs, hr] at h
          cases h
          intro s hs
          rw [List.mem_singleton] at hs
          subst hs
          exact told trivial
        | panic => rw [annotateRecordsFrom, if_neg hs, hr] at h; cases h
        | ok r =>
          rw [annotate_step _ _ _ _ _ _ _ hs hr, Res.bind_eq_ok] at h
          obtain ⟨more, h1, h2⟩ := h
          cases h2
          have hsz := (record_sizes _ _ _ _ hr)
          have h2 := ih ((dif :: tail).drop r.size).length (by simp; omega) _ _ _ (by
            rw [← List.drop_drop, hd, List.drop_append_of_le_length hsz.2.2]) _ h1 rfl
          intro s hs
          rcases List.mem_append.mp hs with hs | hs
          · rcases List.mem_append.mp hs with hs | hs
            · exact told_header hd hr s hs
            · split at hs
              · rw [List.mem_singleton] at hs; subst hs; exact told trivial
              · simp at hs
          · exact h2 s hs

theorem told_variable (cfg : Cfg) (dt : Data → List Char) (enc : Bool) (data : List UInt8) (base : Nat)
    (rest post : List UInt8) (hd : data.drop base = rest ++ post) (segs : List ByteSegment)
    (h : variableDataSegs cfg dt enc base rest = .ok segs) : ∀ s ∈ segs, ToldMostly cfg data s := by
  unfold variableDataSegs at h
  split at h
  · cases h
    intro s hs
    split at hs
    · simp at hs
    · rw [List.mem_singleton] at hs; subst hs; exact told trivial
  · exact told_records _ _ _ _ _ _ _ hd _ h

section fields
variable {cfg : Cfg} {data app post : List UInt8} {base : Nat} (h : data.drop base = app ++ post)
include h

theorem seg_oneHex (k : Nat) (hk : k < app.length) (words : String) (s : ByteSegment) (e1 : s.start = base + k)
    (e2 : s.stop = base + k + 1) (e3 : s.detail = words.toList ++ hexString [byteOr0 app k]) :
    OneHex words (markedBytes data s) s.detail :=
  ⟨byteOr0 app k, by rw [marked_seg h k 1 (by omega) s e1 e2, take_one _ _ hk], by
    rw [e3, hexString_bytes]⟩

theorem seg_oneDecimal (k : Nat) (hk : k < app.length) (words : String) (s : ByteSegment)
    (e1 : s.start = base + k) (e2 : s.stop = base + k + 1)
    (e3 : s.detail = words.toList ++ natDisplay (byteOr0 app k).toNat) :
    OneDecimal words (markedBytes data s) s.detail :=
  ⟨byteOr0 app k, by rw [marked_seg h k 1 (by omega) s e1 e2, take_one _ _ hk], e3⟩

theorem seg_twoHex (k : Nat) (hk : k + 1 < app.length) (words : String) (s : ByteSegment)
    (e1 : s.start = base + k) (e2 : s.stop = base + k + 2)
    (e3 : s.detail = words.toList ++ hexString [byteOr0 app k] ++ hexString [byteOr0 app (k + 1)]) :
    TwoHex words (markedBytes data s) s.detail :=
  ⟨byteOr0 app k, byteOr0 app (k + 1), by
    rw [marked_seg h k 2 (by omega) s e1 e2, take_two _ _ hk], by
    rw [e3, hexString_bytes, hexString_bytes]; simp [hexBytes]⟩

theorem seg_id (k : Nat) (hk : k + 3 < app.length) (s : ByteSegment)
    (e1 : s.start = base + k) (e2 : s.stop = base + k + 4)
    (e3 : s.detail = "ID: ".toList ++ hexString [byteOr0 app k] ++ hexString [byteOr0 app (k + 1)] ++
      hexString [byteOr0 app (k + 2)] ++ hexString [byteOr0 app (k + 3)]) :
    Describes (markedBytes data s) s.detail .identificationNumber := by
  show _ ∧ _
  rw [marked_seg h k 4 (by omega) s e1 e2, take_four _ _ hk]
  refine ⟨rfl, ?_⟩
  rw [e3]
  simp only [hexString_bytes]
  simp [hexBytes]

theorem seg_ci (hk : 0 < app.length) (more : List Char) (s : ByteSegment) (e1 : s.start = base)
    (e2 : s.stop = base + 1) (e3 : s.detail = "CI: 0x".toList ++ hexString [byteOr0 app 0] ++ more) :
    Describes (markedBytes data s) s.detail .ciField :=
  ⟨byteOr0 app 0, more, by rw [marked_seg h 0 1 (by omega) s (by simpa using e1) (by simpa using e2),
    take_one _ _ hk], by rw [e3, hexString_bytes]⟩

theorem told_long (hl : 13 ≤ app.length) : ∀ s ∈ longTplSegs base app, ToldMostly cfg data s := by
  unfold longTplSegs
  simp only [List.mem_cons, List.not_mem_nil, or_false]
  rintro s (rfl | rfl | rfl | rfl | rfl | rfl | rfl | rfl) <;> refine told ?_
  · exact seg_ci h (by omega) _ _ rfl rfl (by
      simp only [headerSeg]; rw [List.append_assoc, List.append_assoc])
  · exact seg_id h 1 (by omega) _ rfl rfl rfl
  · exact seg_twoHex h 5 (by omega) _ _ rfl rfl rfl
  · exact seg_oneDecimal h 7 (by omega) _ _ rfl rfl rfl
  · exact seg_oneHex h 8 (by omega) _ _ rfl rfl rfl
  · exact seg_oneDecimal h 9 (by omega) _ _ rfl rfl rfl
  · exact seg_oneHex h 10 (by omega) _ _ rfl rfl rfl
  · exact seg_twoHex h 11 (by omega) _ _ rfl rfl rfl

theorem told_short (ci : UInt8) (hci : byteOr0 app 0 = ci) (hl : shortTplOffset ci ≤ app.length) :
    ∀ s ∈ shortTplSegs base app ci, ToldMostly cfg data s := by
  have hsk : shortTplSkip ci + 4 = shortTplOffset ci := by
    unfold shortTplSkip shortTplOffset; split <;> rfl
  have hsk1 : 1 ≤ shortTplSkip ci := by unfold shortTplSkip; split <;> omega
  unfold shortTplSegs
  simp only
  generalize shortTplSkip ci = k at *
  intro s hs
  rcases List.mem_append.mp hs with hs | hs
  · rcases List.mem_append.mp hs with hs | hs
    · rw [List.mem_singleton] at hs; subst hs
      exact told (seg_ci h (by omega) _ _ rfl rfl (by rw [hci]; rfl))
    · split at hs
      · rw [List.mem_singleton] at hs; subst hs
        exact told (seg_oneHex h 1 (by omega) _ _ rfl rfl rfl)
      · simp at hs
  · simp only [List.mem_cons, List.not_mem_nil, or_false] at hs
    rcases hs with rfl | rfl | rfl <;> refine told ?_
    · exact seg_oneDecimal h k (by omega) _ _ rfl rfl rfl
    · exact seg_oneHex h (k + 1) (by omega) _ _ rfl rfl rfl
    · exact seg_twoHex h (k + 2) (by omega) _ _ rfl rfl rfl

end fields

theorem told_app (cfg : Cfg) (dt : Data → List Char) (data : List UInt8) (base : Nat) (app post : List UInt8)
    (hd : data.drop base = app ++ post) (segs : List ByteSegment)
    (h : annotateApp cfg dt base app = .ok segs) : ∀ s ∈ segs, ToldMostly cfg data s := by
  have hskip : ∀ k, k ≤ app.length → data.drop (base + k) = app.drop k ++ post := by
    intro k hk
    rw [← List.drop_drop, hd, List.drop_append_of_le_length hk]
  have hunk : ∀ a b d, ∀ s ∈ [headerSeg a b .unknown d], ToldMostly cfg data s := by
    intro a b d s hs; rw [List.mem_singleton] at hs; subst hs; exact told trivial
  have hellk : ∀ a b d, ∀ s ∈ [headerSeg a b .extendedLinkLayer d], ToldMostly cfg data s := by
    intro a b d s hs; rw [List.mem_singleton] at hs; subst hs; exact told trivial
  have happ : ∀ {xs ys : List ByteSegment}, (∀ s ∈ xs, ToldMostly cfg data s) →
      (∀ s ∈ ys, ToldMostly cfg data s) → ∀ s ∈ xs ++ ys, ToldMostly cfg data s := by
    intro xs ys h1 h2 s hs
    rcases List.mem_append.mp hs with hs | hs
    · exact h1 s hs
    · exact h2 s hs
  induction hn : app.length using Nat.strong_induction_on generalizing base app segs with
  | _ n ih =>
    subst hn
    rcases app with _ | ⟨ci, tail⟩
    · rw [annotateApp] at h; cases h; simp
    · rw [annotateApp] at h
      have hci : ∀ text more, text = "CI: 0x".toList ++ hexString [ci] ++ more →
          ∀ s ∈ [headerSeg base (base + 1) .ciField text], ToldMostly cfg data s := by
        intro text more ht s hs
        rw [List.mem_singleton] at hs; subst hs
        exact told (seg_ci hd (by simp) more _ rfl rfl ht)
      have hell : ∀ b c d f more, f = "CI: 0x".toList ++ hexString [ci] ++ more →
          ellSegs cfg dt base (ci :: tail) b c d f = .ok segs → ∀ s ∈ segs, ToldMostly cfg data s := by
        intro b c d f more hf h
        unfold ellSegs at h
        simp only at h
        split at h
        · cases h; exact hunk _ _ _
        · rw [Res.bind_eq_ok, recordsIfAny_eq] at h
          obtain ⟨vs, h1, h2⟩ := h
          cases h2
          exact happ (happ (hci _ more hf) (hellk _ _ _))
            (told_variable _ _ _ _ _ _ _ (hskip _ (by omega)) _ h1)
      split at h
      · split at h
        · cases h; exact hunk _ _ _
        · rw [Res.bind_eq_ok] at h
          obtain ⟨vs, h1, h2⟩ := h
          cases h2
          exact happ (told_long hd (by omega)) (told_variable _ _ _ _ _ _ _ (hskip _ (by omega)) _ h1)
      split at h
      · split at h
        · cases h; exact hunk _ _ _
        · rw [Res.bind_eq_ok] at h
          obtain ⟨vs, h1, h2⟩ := h
          cases h2
          exact happ (told_short hd ci rfl (by omega)) (told_variable _ _ _ _ _ _ _ (hskip _ (by omega)) _ h1)
      split at h
      · rename_i hci8
        rw [Res.bind_eq_ok, recordsIfAny_eq] at h
        obtain ⟨vs, h1, h2⟩ := h
        cases h2
        exact happ (hci _ " (Application Layer, no TPL header)".toList (by rw [hci8]; decide +kernel))
          (told_variable _ _ _ _ _ _ _ (hskip 1 (by simp)) _ h1)
      split at h
      · split at h
        · cases h; exact hunk _ _ _
        · rename_i hci8 hlen
          rw [Res.bind_eq_ok] at h
          obtain ⟨vs, h1, h2⟩ := h
          cases h2
          have h3 := hskip 3 (by omega)
          refine happ (happ (hci _ " (ELL I)".toList (by rw [hci8]; decide +kernel)) (hellk _ _ _))
            (ih _ (by simp) (base + 3) _ h3 _ h1 ?_ rfl)
          intro k hk
          rw [← List.drop_drop, h3]
          rw [List.drop_append_of_le_length (by simpa using hk)]
      split at h
      · rename_i hci8
        exact hell _ _ _ _ " (ELL II)".toList (by rw [hci8]; decide +kernel) h
      split at h
      · rename_i hci8
        exact hell _ _ _ _ " (ELL III)".toList (by rw [hci8]; decide +kernel) h
      · cases h; exact hunk _ _ _

/-! ## Frames -/

theorem message_text {c : UInt8} {fn : Function} (h : FunctionCode c fn) :
    ∃ name : String, (c, name) ∈ messageTexts ∧ frameFunctionName fn = name.toList := by
  cases h
  · exact ⟨"SND_NKE (PRM: false)", by decide, by decide +kernel⟩
  · exact ⟨"SND_NR", by decide, by decide +kernel⟩
  · exact ⟨"SND_UD (FCB: false)", by decide, by decide +kernel⟩
  · exact ⟨"SND_UD (FCB: true)", by decide, by decide +kernel⟩
  · exact ⟨"REQ_UD1 (FCB: false)", by decide, by decide +kernel⟩
  · exact ⟨"REQ_UD1 (FCB: true)", by decide, by decide +kernel⟩
  · exact ⟨"REQ_UD2 (FCB: false)", by decide, by decide +kernel⟩
  · exact ⟨"REQ_UD2 (FCB: true)", by decide, by decide +kernel⟩
  · exact ⟨"RSP_UD (ACD: false, DFC: false)", by decide, by decide +kernel⟩
  · exact ⟨"RSP_UD (ACD: false, DFC: true)", by decide, by decide +kernel⟩
  · exact ⟨"RSP_UD (ACD: true, DFC: false)", by decide, by decide +kernel⟩
  · exact ⟨"RSP_UD (ACD: true, DFC: true)", by decide, by decide +kernel⟩

theorem broadcastField_text : ∀ r, (Address.broadcast r).display =
    (if r then "Broadcast (Reply Required: true)" else "Broadcast (Reply Required: false)").toList := by
  decide +kernel

theorem addressField_text (a : UInt8) : (addressOf a).display = addressText a := by
  unfold addressOf addressText
  split
  · rfl
  split
  · rfl
  split
  · rfl
  rw [broadcastField_text]
  by_cases h : a.toNat = 254
  · rw [if_pos h, if_pos (by simpa using h)]
  · rw [if_neg h, if_neg (by simpa using h)]

theorem told_longFrame (cfg : Cfg) (dt : Data → List Char) (x c a : UInt8) (payload : List UInt8) (fn : Function)
    (ctl : Bool) (segs : List ByteSegment) (hf : FunctionCode c fn) (hl : payload.length ≤ 253)
    (h : annotateLong cfg dt (longFrameBytes x c a payload) fn (addressOf a) payload ctl = .ok segs) :
    ∀ s ∈ segs, ToldMostly cfg (longFrameBytes x c a payload) s := by
  unfold annotateLong at h
  simp only at h
  rw [Res.bind_eq_ok] at h
  obtain ⟨user, h1, h2⟩ := h
  have hlen : (longFrameBytes x c a payload).length = payload.length + 8 := by simp [longFrameBytes]
  rw [if_pos (show 6 + payload.length < (longFrameBytes x c a payload).length by omega),
    if_pos (show 6 + payload.length + 1 < (longFrameBytes x c a payload).length by omega)] at h2
  cases h2
  obtain ⟨name, hn, hname⟩ := message_text hf
  have hu : ∀ s ∈ user, ToldMostly cfg (longFrameBytes x c a payload) s := by
    unfold annotateUserData at h1
    split at h1
    · exact told_app _ _ _ 6 payload _ rfl _ h1
    · split at h1
      · cases h1; intro s hs; rw [List.mem_singleton] at hs; subst hs; exact told trivial
      · cases h1; simp
  have hd : (longFrameBytes x c a payload).drop (6 + payload.length) =
      [checksum (c :: a :: payload), 0x16] := by
    have : longFrameBytes x c a payload = ([0x68, UInt8.ofNat (payload.length + 2), UInt8.ofNat (payload.length + 2), x, c, a] ++
      payload) ++ [checksum (c :: a :: payload), 0x16] := rfl
    rw [this, List.drop_left' (by simp; omega)]
  intro s hs
  rcases List.mem_append.mp hs with hs | hs
  · rcases List.mem_append.mp hs with hs | hs
    · rcases List.mem_append.mp hs with hs | hs
      · simp only [List.mem_cons, List.not_mem_nil, or_false] at hs
        rcases hs with rfl | rfl | rfl | rfl | rfl
        · exact told (.inl ⟨0x68, rfl, by decide +kernel⟩)
        · exact told ⟨UInt8.ofNat (payload.length + 2), rfl, rfl⟩
        · exact .inr (.inr ⟨rfl, rfl, rfl, rfl, rfl⟩)
        · refine told (.inr ⟨c, name, if ctl then " (Control)" else "", rfl, hn, by cases ctl <;> simp, ?_⟩)
          simp only [frameSeg, hname]
        · refine told ⟨a, rfl, ?_⟩
          simp only [frameSeg, addressField_text]
      · exact hu s hs
    · rw [List.mem_singleton] at hs; subst hs
      exact told (seg_oneHex (data := longFrameBytes x c a payload) (base := 0) (app := longFrameBytes x c a payload)
        (post := []) (by simp) (6 + payload.length) (by omega) _ _ (by simp [frameSeg]) (by simp [frameSeg]) rfl)
  · rw [List.mem_singleton] at hs; subst hs
    refine told ⟨0x16, ?_, show "Stop: 0x16".toList = _ by decide +kernel⟩
    unfold markedBytes
    simp only [frameSeg]
    rw [← List.drop_drop, hd, show 6 + payload.length + 1 + 1 - (6 + payload.length + 1) = 1 by omega]
    rfl

theorem told_wired (cfg : Cfg) (dt : Data → List Char) (data : List UInt8) (segs : List ByteSegment)
    (h : annotateWired cfg dt data = .ok segs) : ∀ s ∈ segs, ToldMostly cfg data s := by
  unfold annotateWired at h
  rw [Res.bind_eq_ok] at h
  obtain ⟨f, hf, h⟩ := h
  rw [mapErr_eq_ok, C01_wired_accepts_exactly_telegrams] at hf
  cases hf with
  | single rest =>
    cases h
    intro s hs
    rw [List.mem_singleton] at hs; subst hs
    exact told (.inr (.inl ⟨0xE5, rfl, by decide +kernel⟩))
  | short c a fn hf =>
    cases h
    obtain ⟨name, hn, hname⟩ := message_text hf
    simp only [List.mem_cons, List.not_mem_nil, or_false]
    rintro s (rfl | rfl | rfl | rfl | rfl)
    · exact told (.inl ⟨0x10, rfl, by decide +kernel⟩)
    · refine told (.inr ⟨c, name, "", rfl, hn, .inl rfl, ?_⟩)
      simp only [frameSeg, hname]; simp
    · refine told ⟨a, rfl, ?_⟩
      simp only [frameSeg, addressField_text]
    · exact told (seg_oneHex (data := shortFrameBytes c a) (base := 0) (app := shortFrameBytes c a) (post := [])
        (by simp) 3 (by simp [shortFrameBytes]) _ _ rfl rfl rfl)
    · exact told ⟨0x16, rfl, by decide +kernel⟩
  | long x c a payload fn hf hc hl => exact told_longFrame _ _ _ _ _ _ _ _ _ hf hl h
  | control x a payload hl => exact told_longFrame _ _ _ _ _ _ _ _ _ .sndUd0 hl h

theorem told_inner (cfg : Cfg) (dt : Data → List Char) (data : List UInt8) (segs : List ByteSegment)
    (h : annotateWirelessInner cfg dt data = .ok segs) : ∀ s ∈ segs, ToldMostly cfg data s := by
  unfold annotateWirelessInner at h
  rw [Res.bind_eq_ok] at h
  obtain ⟨f, hf, h⟩ := h
  rw [mapErr_eq_ok] at hf
  have hlen : 11 ≤ data.length := by
    have := (C12_wireless_accepts_exactly_telegrams _ _).1 hf
    cases this
    simp_all
  rw [Res.bind_eq_ok] at h
  obtain ⟨app, ha, h⟩ := h
  cases h
  have hd : data.drop 0 = data ++ [] := by simp
  intro s hs
  rcases List.mem_append.mp hs with hs | hs
  · rcases List.mem_append.mp hs with hs | hs
    · simp only [List.mem_cons, List.not_mem_nil, or_false] at hs
      rcases hs with rfl | rfl | rfl | rfl | rfl | rfl <;> refine told ?_
      · exact seg_oneDecimal hd 0 (by omega) _ _ rfl rfl rfl
      · exact .inl (seg_oneHex hd 1 (by omega) _ _ rfl rfl rfl)
      · exact seg_twoHex hd 2 (by omega) _ _ rfl rfl rfl
      · exact seg_id hd 4 (by omega) _ rfl rfl rfl
      · exact seg_oneDecimal hd 8 (by omega) _ _ rfl rfl rfl
      · exact seg_oneHex hd 9 (by omega) _ _ rfl rfl rfl
    · unfold annotateWirelessApp at ha
      split at ha
      · split at ha
        · rename_i a hsl
          refine told_app cfg dt data 10 a (data.drop ((trailingFrameCrcStart data).getD data.length)) ?_ _ ha s hs
          rw [slice?] at hsl
          split at hsl
          · rename_i h10 hle
            cases hsl
            generalize (trailingFrameCrcStart data).getD data.length = e at *
            have := List.take_append_drop (e - 10) (data.drop 10)
            rw [List.drop_drop, show 10 + (e - 10) = e by omega] at this
            rw [List.drop_take]
            exact this.symm
          · cases hsl
        · cases ha
      · cases ha; simp at hs
  · cases hc : trailingFrameCrcStart data with
    | none => rw [hc] at hs; simp at hs
    | some n =>
      rw [hc] at hs
      simp only [List.mem_singleton] at hs
      subst hs
      obtain ⟨body, hi, lo, hd', hb, h10, _⟩ := (C11_trailing_frame_crc_start _ _).1 hc
      have hn : n + 2 = data.length := by rw [hd']; simp; omega
      exact told (seg_twoHex hd n (by omega) _ _ (by simp [frameSeg]) (by simp [frameSeg]; omega) rfl)

theorem covers_within {a b : Nat} {segs : List ByteSegment} (h : Covers a b segs) :
    ∀ s ∈ segs, s.stop ≤ b := by
  induction segs generalizing a with
  | nil => simp
  | cons x xs ih =>
    intro s hs
    rcases List.mem_cons.mp hs with rfl | hs
    · exact covers_le h.2.2
    · exact ih h.2.2 s hs

/-- Wireless telegrams have no start bytes. -/
theorem inner_no_start {cfg : Cfg} {dt : Data → List Char} {data : List UInt8} {segs : List ByteSegment}
    (h : annotateWirelessInner cfg dt data = .ok segs) :
    ∀ s ∈ segs, s.kind = .startByte → s.layer ≠ .frame := by
  unfold annotateWirelessInner at h
  rw [Res.bind_eq_ok] at h
  obtain ⟨f, hf, h⟩ := h
  rw [Res.bind_eq_ok] at h
  obtain ⟨app, ha, h⟩ := h
  cases h
  intro s hs
  rcases List.mem_append.mp hs with hs | hs
  · rcases List.mem_append.mp hs with hs | hs
    · simp only [List.mem_cons, List.not_mem_nil, or_false] at hs
      rcases hs with rfl | rfl | rfl | rfl | rfl | rfl <;> simp [frameSeg]
    · exact fun _ => wirelessApp_layer _ _ _ _ _ ha s hs
  · cases hc : trailingFrameCrcStart data with
    | none => rw [hc] at hs; simp at hs
    | some n =>
      rw [hc] at hs
      simp only [List.mem_singleton] at hs
      subst hs
      simp [frameSeg]

end MBus
