import Verif.Lemmas.Annotate
/-! # Lemmas about the annotation of records -/
namespace MBus
open Spec

/-! ## Bytes of segments -/

theorem bytesWhere_append (data : List UInt8) (xs ys : List ByteSegment) (p : ByteSegment → Bool) :
    bytesWhere data (xs ++ ys) p = bytesWhere data xs p ++ bytesWhere data ys p := by
  simp [bytesWhere]

theorem bytesWhere_cons (data : List UInt8) (x : ByteSegment) (xs : List ByteSegment)
    (p : ByteSegment → Bool) : bytesWhere data (x :: xs) p =
      (if p x then (data.drop x.start).take (x.stop - x.start) else []) ++ bytesWhere data xs p := by
  unfold bytesWhere
  rw [List.filter_cons]
  split <;> simp

theorem bytesWhere_nil (data : List UInt8) (p : ByteSegment → Bool) : bytesWhere data [] p = [] := rfl

theorem bytesWhere_none (data : List UInt8) (xs : List ByteSegment) (p : ByteSegment → Bool)
    (h : ∀ x ∈ xs, p x = false) : bytesWhere data xs p = [] := by
  unfold bytesWhere
  rw [List.filter_eq_nil_iff.mpr (fun x hx => by simp [h x hx])]
  rfl

theorem bytesWhere_congr (data : List UInt8) (xs : List ByteSegment) (p q : ByteSegment → Bool)
    (h : ∀ x ∈ xs, p x = q x) : bytesWhere data xs p = bytesWhere data xs q := by
  unfold bytesWhere
  rw [List.filter_congr h]

theorem bytes_covers (data : List UInt8) {a b : Nat} {xs : List ByteSegment} (h : Covers a b xs)
    (p : ByteSegment → Bool) (hp : ∀ x ∈ xs, p x = true) :
    bytesWhere data xs p = (data.drop a).take (b - a) := by
  induction xs generalizing a with
  | nil => cases h; simp [bytesWhere]
  | cons x xs ih =>
    obtain ⟨h1, h2, h3⟩ := h
    have hle := covers_le h3
    rw [bytesWhere_cons, hp x (by simp), if_pos rfl, ih h3 (fun y hy => hp y (by simp [hy])), h1]
    rw [show b - a = (x.stop - a) + (b - x.stop) by omega, List.take_add, List.drop_drop]
    rw [show a + (x.stop - a) = x.stop by omega]

theorem slice_mid {data P x S : List UInt8} (h : data = P ++ (x ++ S)) (a b : Nat) (ha : a = P.length)
    (hb : b = a + x.length) : (data.drop a).take (b - a) = x := by
  subst ha hb h
  rw [List.drop_left, show P.length + x.length - P.length = x.length by omega, List.take_left]

/-! ## The segments of one record -/

/-- What the segments of record `i`, which starts at `pos`, are. -/
def RecordSegs (dt : Data → List Char) (pos i : Nat) (r : DataRecord) (mid : List ByteSegment) : Prop :=
  ((r.header.raw.dib.dif = 0x0F ∨ r.header.raw.dib.dif = 0x1F) ∧
    ∃ d, mid = [recordSeg pos (pos + r.size) .manufacturerSpecific d (some i)]) ∨
  (r.header.raw.dib.dif.toNat % 16 ≠ 15 ∧
    ∃ rest, mid = (recordHeaderSegs pos i rest r).1 ++
      (if r.size - r.header.size > 0 then
        [recordSeg (pos + r.header.size) (pos + r.size) .dataPayload (dt r.data) (some i)] else []))

theorem recordHeaderSegs_all (pos i : Nat) (rest : List UInt8) (r : DataRecord)
    (Q : ByteSegment → Prop)
    (hQ : ∀ a b k d, k ∈ [SegmentKind.dif, .dife, .vif, .vife, .plaintextVif] →
      Q (recordSeg a b k d (some i))) :
    ∀ s ∈ (recordHeaderSegs pos i rest r).1, Q s := by
  unfold recordHeaderSegs
  simp only
  intro s hs
  split at hs
  · simp only [List.mem_append, List.mem_singleton] at hs
    rcases hs with rfl | hs
    · exact hQ _ _ _ _ (by simp)
    · split at hs
      · simp only [List.mem_singleton] at hs; subst hs; exact hQ _ _ _ _ (by simp)
      · simp at hs
  · rename_i vib hv
    split at hs
    · simp only [List.mem_append, List.mem_singleton, or_assoc] at hs
      rcases hs with rfl | hs | rfl | hs
      · exact hQ _ _ _ _ (by simp)
      · split at hs
        · simp only [List.mem_singleton] at hs; subst hs; exact hQ _ _ _ _ (by simp)
        · simp at hs
      · exact hQ _ _ _ _ (by simp)
      · split at hs
        · simp only [List.mem_singleton] at hs; subst hs; exact hQ _ _ _ _ (by simp)
        · simp at hs
    · simp only [List.mem_append, List.mem_singleton, or_assoc] at hs
      rcases hs with rfl | hs | rfl | hs | rfl
      · exact hQ _ _ _ _ (by simp)
      · split at hs
        · simp only [List.mem_singleton] at hs; subst hs; exact hQ _ _ _ _ (by simp)
        · simp at hs
      · exact hQ _ _ _ _ (by simp)
      · split at hs
        · simp only [List.mem_singleton] at hs; subst hs; exact hQ _ _ _ _ (by simp)
        · simp at hs
      · exact hQ _ _ _ _ (by simp)

theorem recordSegs_all {dt : Data → List Char} {pos i : Nat} {r : DataRecord} {mid : List ByteSegment}
    (h : RecordSegs dt pos i r mid) (Q : ByteSegment → Prop)
    (hQ : ∀ a b k d, k ∈ [SegmentKind.dif, .dife, .vif, .vife, .plaintextVif, .dataPayload,
      .manufacturerSpecific] → Q (recordSeg a b k d (some i))) : ∀ s ∈ mid, Q s := by
  rcases h with ⟨_, d, rfl⟩ | ⟨_, rest, rfl⟩
  · intro s hs; simp only [List.mem_singleton] at hs; subst hs; exact hQ _ _ _ _ (by simp)
  · intro s hs
    rw [List.mem_append] at hs
    rcases hs with hs | hs
    · exact recordHeaderSegs_all _ _ _ _ Q (fun a b k d hk => hQ a b k d (by
        simp only [List.mem_cons] at hk ⊢; tauto)) s hs
    · split at hs
      · simp only [List.mem_singleton] at hs; subst hs; exact hQ _ _ _ _ (by simp)
      · simp at hs

theorem recordSegs_group {dt : Data → List Char} {pos i : Nat} {r : DataRecord} {mid : List ByteSegment}
    (h : RecordSegs dt pos i r mid) :
    ∀ s ∈ mid, s.layer = .recordField ∧ s.kind ≠ .encryptedPayload ∧ s.group = some i :=
  recordSegs_all h _ (fun a b k d hk => ⟨rfl, by
    simp only [recordSeg]; rintro rfl; simp at hk, rfl⟩)

theorem recordSegs_covers {cfg : Cfg} {dt : Data → List Char} {lsb : Bool} {data : List UInt8} {pos i : Nat} {r : DataRecord}
    {mid : List ByteSegment} (hr : DataRecord.parse cfg lsb data = .ok r)
    (h : RecordSegs dt pos i r mid) : Covers pos (pos + r.size) mid := by
  obtain ⟨h1, h2, h3⟩ := record_sizes _ _ _ _ hr
  rcases h with ⟨_, d, rfl⟩ | ⟨_, rest, rfl⟩
  · exact covers_one _ _ _ rfl rfl (by omega)
  · refine covers_append (recordHeader_covers pos i rest r).1 ?_
    split
    · exact covers_one _ _ _ rfl rfl (by omega)
    · show _ = _; omega

/-! ## The loop -/

theorem lowNibble_iff (b : UInt8) : b &&& 0x0F = 0x0F ↔ b.toNat % 16 = 15 := by
  revert b; decide +kernel

theorem record_dif {cfg : Cfg} {lsb : Bool} {b : UInt8} {data : List UInt8} {r : DataRecord}
    (h : DataRecord.parse cfg lsb (b :: data) = .ok r) : r.header.raw.dib.dif = b := by
  obtain ⟨_, rest, _, hr, _, _, hraw⟩ := (record_ok _ _ _ _).mp h
  simp only [headerBytes, List.cons_append, List.cons.injEq] at hr
  exact hr.1.symm

theorem records_loop (cfg : Cfg) (dt : Data → List Char) (rest : List UInt8)
    (items : List (Res RecordError DataRecord)) (hi : Items (DataRecord.parse cfg false) rest items)
    (pos index : Nat) (segs : List ByteSegment)
    (h : annotateRecordsFrom cfg dt pos index rest = .ok segs)
    (h7 : ∀ r, .ok r ∈ items → r.header.raw.dib.dif ≠ 0x7F) :
    (∀ s ∈ segs, s.layer = .recordField ∧ s.kind ≠ .encryptedPayload ∧
      ∀ g, s.group = some g → ∃ j r, g = index + j ∧ items[j]? = some (.ok r)) ∧
    ∀ j r, items[j]? = some (.ok r) → ∃ pre mid post P Q, segs = pre ++ (mid ++ post) ∧
      (∀ s ∈ pre, s.group ≠ some (index + j)) ∧ (∀ s ∈ post, s.group ≠ some (index + j)) ∧
      rest = P ++ (r.rawBytes ++ Q) ∧ RecordSegs dt (pos + P.length) (index + j) r mid ∧
      ∃ x, DataRecord.parse cfg false x = .ok r := by
  induction hi generalizing pos index segs with
  | nil =>
    rw [annotateRecordsFrom] at h; cases h
    exact ⟨by simp, by simp⟩
  | skip b data items hs _ ih =>
    have hn : b &&& 0x0F = 0x0F := (lowNibble_iff b).mpr hs.1
    have key : ∃ k d more, annotateRecordsFrom cfg dt (pos + 1) index data = .ok more ∧
        (k = .idleFiller ∨ k = .unknown) ∧
        segs = recordSeg pos (pos + 1) k d none :: more := by
      rw [annotateRecordsFrom, if_pos hn] at h
      split at h
      · rw [Res.bind_eq_ok] at h
        obtain ⟨more, h1, h2⟩ := h
        cases h2
        exact ⟨_, _, more, h1, .inl rfl, rfl⟩
      · rw [if_neg (by rintro (h | h); exact hs.2.1 h; exact hs.2.2.1 h), Res.bind_eq_ok] at h
        obtain ⟨more, h1, h2⟩ := h
        cases h2
        exact ⟨_, _, more, h1, .inr rfl, rfl⟩
    obtain ⟨k, d, more, h1, hk, rfl⟩ := key
    obtain ⟨i1, i2⟩ := ih _ _ _ h1 h7
    refine ⟨?_, ?_⟩
    · intro s hs
      rcases List.mem_cons.mp hs with rfl | hs
      · refine ⟨rfl, by rcases hk with rfl | rfl <;> simp [recordSeg], by simp [recordSeg]⟩
      · exact i1 s hs
    · intro j r hj
      obtain ⟨pre, mid, post, P, Q, e1, e2, e3, e4, e5, e6⟩ := i2 j r hj
      refine ⟨recordSeg pos (pos + 1) k d none :: pre, mid, post, b :: P, Q, by rw [e1]; rfl, ?_, e3,
        by rw [e4]; rfl, ?_, e6⟩
      · intro s hs
        rcases List.mem_cons.mp hs with rfl | hs
        · simp [recordSeg]
        · exact e2 s hs
      · rw [List.length_cons, show pos + (P.length + 1) = pos + 1 + P.length by omega]; exact e5
  | record b data rest r items hs hr he hne _ ih =>
    have hdif := record_dif hr
    by_cases hn : b &&& 0x0F = 0x0F
    · have h15 := (lowNibble_iff b).mp hn
      have hb : b = 0x0F ∨ b = 0x1F := by
        by_contra hc
        simp only [not_or] at hc
        refine hs ⟨h15, hc.1, hc.2, ?_⟩
        rintro rfl
        exact h7 r (by simp) hdif
      have hb2 : b ≠ 0x2F := by rcases hb with rfl | rfl <;> decide
      rw [annotateRecordsFrom, if_pos hn, if_neg hb2, if_pos hb] at h
      cases h
      obtain ⟨r', hr', hraw, _⟩ := parse_rest cfg false b hb data
      rw [hr] at hr'
      cases hr'
      have hrest : rest = [] := by
        rw [hraw] at he
        have := congrArg List.length he
        simp at this
        exact this
      subst hrest
      rename_i hit
      have hit' : items = [] := by cases hit; rfl
      subst hit'
      have hsz : r.size = data.length + 1 := by rw [DataRecord.size, hraw]; rfl
      refine ⟨?_, ?_⟩
      · intro s hs
        simp only [List.mem_singleton] at hs
        subst hs
        refine ⟨rfl, by simp [recordSeg], ?_⟩
        intro g hg
        simp only [recordSeg, Option.some.injEq] at hg
        exact ⟨0, r, by omega, rfl⟩
      · intro j r' hj
        rcases j with _ | j
        · simp only [List.getElem?_cons_zero, Option.some.injEq, Res.ok.injEq] at hj
          subst hj
          refine ⟨[], [_], [], [], [], rfl, by simp, by simp, by simpa using he, ?_, _, hr⟩
          left
          refine ⟨by rw [hdif]; exact hb, ?_⟩
          rw [hsz]
          exact ⟨_, rfl⟩
        · simp at hj
    · rw [annotate_step _ _ _ _ _ _ _ hn hr, Res.bind_eq_ok] at h
      obtain ⟨more, h1, h2⟩ := h
      have hd : (b :: data).drop r.size = rest := by
        rw [he, DataRecord.size, List.drop_left]
      rw [hd] at h1
      cases h2
      obtain ⟨i1, i2⟩ := ih _ _ _ h1 (fun r' hr' => h7 r' (by simp [hr']))
      have hrs : RecordSegs dt pos index r ((recordHeaderSegs pos index (b :: data) r).1 ++
        (if r.size - r.header.size > 0 then
          [recordSeg (pos + r.header.size) (pos + r.size) .dataPayload (dt r.data) (some index)]
        else [])) := .inr ⟨by rw [hdif]; exact fun hh => hn ((lowNibble_iff b).mpr hh), _, rfl⟩
      generalize (recordHeaderSegs pos index (b :: data) r).1 ++
        (if r.size - r.header.size > 0 then
          [recordSeg (pos + r.header.size) (pos + r.size) .dataPayload (dt r.data) (some index)]
        else []) = mid at hrs ⊢
      have hg := recordSegs_group hrs
      refine ⟨?_, ?_⟩
      · intro s hs
        rcases List.mem_append.mp hs with hs | hs
        · obtain ⟨g1, g2, g3⟩ := hg s hs
          refine ⟨g1, g2, ?_⟩
          intro g hgs
          rw [g3] at hgs
          exact ⟨0, r, by cases hgs; rfl, rfl⟩
        · obtain ⟨g1, g2, g3⟩ := i1 s hs
          refine ⟨g1, g2, ?_⟩
          intro g hgs
          obtain ⟨j, r', hj, hr'⟩ := g3 g hgs
          exact ⟨j + 1, r', by omega, by simpa using hr'⟩
      · intro j r' hj
        rcases j with _ | j
        · simp only [List.getElem?_cons_zero, Option.some.injEq, Res.ok.injEq] at hj
          subst hj
          refine ⟨[], mid, more, [], rest, by simp, by simp, ?_, by simpa using he, by simpa using hrs,
            _, hr⟩
          intro s hs heq
          obtain ⟨j, _, hj, _⟩ := (i1 s hs).2.2 _ heq
          omega
        · simp only [List.getElem?_cons_succ] at hj
          obtain ⟨pre, mid', post, P, Q, e1, e2, e3, e4, e5, e6⟩ := i2 j r' hj
          have hidx : index + (j + 1) = index + 1 + j := by omega
          rw [hidx]
          refine ⟨mid ++ pre, mid', post, r.rawBytes ++ P, Q, by rw [e1]; simp, ?_, e3,
            by rw [he, e4]; simp, ?_, e6⟩
          · intro s hs
            rcases List.mem_append.mp hs with hs | hs
            · rw [(hg s hs).2.2]
              simp only [ne_eq, Option.some.injEq]
              omega
            · exact e2 s hs
          · rw [List.length_append, ← DataRecord.size,
              show pos + (r.size + P.length) = pos + r.size + P.length by omega]
            exact e5
  | fail b data hs hr =>
    refine ⟨?_, ?_⟩
    · by_cases hn : b &&& 0x0F = 0x0F
      · exfalso
        have h15 := (lowNibble_iff b).mp hn
        have hb : b = 0x0F ∨ b = 0x1F ∨ b = 0x7F := by
          by_contra hc
          simp only [not_or] at hc
          exact hs ⟨h15, hc⟩
        rcases hb with rfl | rfl | rfl
        · obtain ⟨r, h1, _⟩ := parse_rest cfg false 0x0F (.inl rfl) data; exact hr r h1
        · obtain ⟨r, h1, _⟩ := parse_rest cfg false 0x1F (.inr rfl) data; exact hr r h1
        · obtain ⟨r, h1, _⟩ := parse_7F cfg false data; exact hr r h1
      · rw [annotateRecordsFrom, if_neg hn] at h
        split at h
        · cases h
        · cases h
          intro s hs
          simp only [List.mem_singleton] at hs
          subst hs
          exact ⟨rfl, by simp [recordSeg], by simp [recordSeg]⟩
        · rename_i r hr'; exact absurd hr' (hr r)
    · intro j r hj
      rcases j with _ | j
      · simp only [List.getElem?_cons_zero, Option.some.injEq] at hj
        exact absurd hj (hr r)
      · simp at hj

/-! ## The parts of a record -/

theorem recordPart_of (data : List UInt8) (i : Nat) (k : SegmentKind) (a b : Nat) (k' : SegmentKind)
    (d : List Char) : bytesWhere data [recordSeg a b k' d (some i)]
      (fun s => s.group == some i && s.kind == k) =
      if k' = k then (data.drop a).take (b - a) else [] := by
  rw [bytesWhere_cons, bytesWhere_nil]
  by_cases h : k' = k <;> simp [recordSeg, h]

theorem recordPart_opt (data : List UInt8) (i : Nat) (k : SegmentKind) (a b n : Nat) (k' : SegmentKind)
    (d : List Char) (hb : b = a + n) :
    bytesWhere data (if n > 0 then [recordSeg a b k' d (some i)] else [])
      (fun s => s.group == some i && s.kind == k) =
      if k' = k then (data.drop a).take n else [] := by
  subst hb
  split
  · rw [recordPart_of, show a + n - a = n by omega]
  · rw [bytesWhere_nil, show n = 0 by omega]; simp

/-- The bytes of each kind of segment of a record that is not a special function. -/
theorem record_parts (cfg : Cfg) {dt : Data → List Char} (lsb : Bool) (data x P S : List UInt8) (r : DataRecord) (i : Nat)
    (mid : List ByteSegment) (hr : DataRecord.parse cfg lsb x = .ok r)
    (hd : data = P ++ (r.rawBytes ++ S)) (h : RecordSegs dt P.length i r mid)
    (hs : r.header.raw.dib.dif.toNat % 16 ≠ 15)
    (htext : cfg.plaintextFirst = false ∨
      ∀ v, r.header.raw.vib = some v → v.plaintext = none ∨ v.vifes.getD [] = []) (k : SegmentKind) :
    recordPart data mid i k = (if .dif = k then [r.header.raw.dib.dif] else []) ++
      (if .dife = k then r.header.raw.dib.difes.getD [] else []) ++
      (if .vif = k then (match r.header.raw.vib with | some v => [v.vif] | none => []) else []) ++
      (if .vife = k then (match r.header.raw.vib with | some v => v.vifes.getD [] | none => []) else []) ++
      (if .plaintextVif = k then
        (match r.header.raw.vib with | some v => textBytes v.plaintext | none => []) else []) ++
      (if .dataPayload = k then r.dataBytes else []) := by
  obtain ⟨_, c1, c2, _, _⟩ := C29_raw_bytes _ _ _ _ hr
  rcases h with ⟨hsp, _⟩ | ⟨_, rest, rfl⟩
  · exfalso; rcases hsp with hsp | hsp <;> rw [hsp] at hs <;> exact hs (by decide)
  have hsize := headerSize_eq cfg.plaintextFirst r.header
  have hlen : r.size = r.header.size + r.dataBytes.length := by
    rw [DataRecord.size, ← c1, List.length_append, c2, hsize]
  have hdib : r.header.raw.dib.size - 1 = (r.header.raw.dib.difes.getD []).length := by
    rw [dib_size]; simp [dibBytes]
  rw [← c1, c2, headerBytes_eq, dibBytes] at hd
  unfold recordPart
  rw [bytesWhere_append, recordPart_opt _ _ _ _ _ _ _ _ (by omega)]
  unfold recordHeaderSegs
  simp only [hdib]
  generalize hD : r.header.raw.dib.difes.getD [] = D at *
  generalize hf : r.header.raw.dib.dif = f at *
  have hB : ((data.drop (P.length + r.header.size)).take (r.size - r.header.size)) = r.dataBytes := by
    rw [show r.size - r.header.size = P.length + r.header.size + r.dataBytes.length -
      (P.length + r.header.size) by omega]
    refine slice_mid (P := P ++ headerBytes cfg.plaintextFirst r.header.raw) (S := S) ?_ _ _ ?_ rfl
    · rw [headerBytes_eq, dibBytes, hd, hD, hf]; simp
    · rw [List.length_append, hsize]
  rw [hB]
  cases hv : r.header.raw.vib with
  | none =>
    rw [hv] at hd
    simp only [List.append_nil] at hd ⊢
    rw [bytesWhere_append, recordPart_of, recordPart_opt _ _ _ _ _ _ _ _ rfl]
    rw [slice_mid (data := data) (P := P) (x := [f]) (S := D ++ (r.dataBytes ++ S)) (by rw [hd]; simp)
      P.length (P.length + 1) rfl rfl]
    have := slice_mid (data := data) (P := P ++ [f]) (x := D) (S := r.dataBytes ++ S) (by rw [hd]; simp)
      (P.length + 1) (P.length + 1 + D.length) (by simp) rfl
    rw [show P.length + 1 + D.length - (P.length + 1) = D.length by omega] at this
    rw [this]
    simp
  | some v =>
    have hvb : vibBytes cfg.plaintextFirst v = v.vif :: (v.vifes.getD [] ++ textBytes v.plaintext) := by
      unfold vibBytes
      rcases htext with ht | ht
      · rw [ht]; rfl
      · rcases ht v hv with ht | ht <;> rw [ht] <;> split <;> simp [textBytes]
    have hcount : v.vifeCount = (v.vifes.getD []).length := by
      unfold VIB.vifeCount; cases v.vifes <;> rfl
    rw [hv] at hd
    simp only [hvb] at hd
    simp only [hcount]
    generalize v.vifes.getD [] = V at *
    generalize v.vif = w at *
    have s1 := slice_mid (data := data) (P := P) (x := [f]) (S := D ++ ([w] ++ (V ++ (textBytes v.plaintext ++ (r.dataBytes ++ S)))))
      (by rw [hd]; simp) P.length (P.length + 1) rfl rfl
    have s2 := slice_mid (data := data) (P := P ++ [f]) (x := D) (S := [w] ++ (V ++ (textBytes v.plaintext ++ (r.dataBytes ++ S))))
      (by rw [hd]; simp) (P.length + 1) (P.length + 1 + D.length) (by simp) rfl
    have s3 := slice_mid (data := data) (P := P ++ [f] ++ D) (x := [w]) (S := V ++ (textBytes v.plaintext ++ (r.dataBytes ++ S)))
      (by rw [hd]; simp) (P.length + (1 + D.length)) (P.length + (1 + D.length) + 1)
      (by simp; omega) rfl
    have s4 := slice_mid (data := data) (P := P ++ [f] ++ D ++ [w]) (x := V) (S := textBytes v.plaintext ++ (r.dataBytes ++ S))
      (by rw [hd]; simp) (P.length + (1 + D.length) + 1) (P.length + (1 + D.length) + 1 + V.length)
      (by simp; omega) rfl
    have s5 := slice_mid (data := data) (P := P ++ [f] ++ D ++ [w] ++ V) (x := textBytes v.plaintext)
      (S := r.dataBytes ++ S)
      (by rw [hd]; simp) (P.length + (1 + D.length + 1 + V.length)) _ (by simp; omega) rfl
    rw [show P.length + 1 + D.length - (P.length + 1) = D.length by omega] at s2
    rw [show P.length + (1 + D.length) + 1 + V.length - (P.length + (1 + D.length) + 1) = V.length
      by omega] at s4
    cases hp : v.plaintext with
    | none =>
      simp only
      rw [bytesWhere_append, bytesWhere_append, bytesWhere_append, recordPart_of,
        recordPart_opt _ _ _ _ _ _ _ _ rfl, recordPart_of, recordPart_opt _ _ _ _ _ _ _ _ rfl,
        s1, s2, s3, s4]
      simp [textBytes]
    | some text =>
      rw [hp] at s5
      simp only
      rw [bytesWhere_append, bytesWhere_append, bytesWhere_append, bytesWhere_append, recordPart_of,
        recordPart_opt _ _ _ _ _ _ _ _ rfl, recordPart_of, recordPart_opt _ _ _ _ _ _ _ _ rfl,
        recordPart_of, s1, s2, s3, s4]
      rw [show text.length + 1 = (textBytes (some text)).length by simp [textBytes], s5]

end MBus
