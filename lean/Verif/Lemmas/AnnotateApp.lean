import Verif.Lemmas.AnnotateFrame
/-! # Lemmas about the annotation of the application layer -/
namespace MBus
open Spec

theorem configEncrypted_iff (c0 c1 : UInt8) :
    configEncrypted c0 c1 = decide (modeNumber ⟨le16 c0 c1⟩ ≠ 0) := by
  have := mode_zero_iff ⟨le16 c0 c1⟩
  unfold configEncrypted
  have e : ConfigurationField.fromBytes c0 c1 = ⟨le16 c0 c1⟩ := by rw [le16_eq]; rfl
  rw [e, Bool.eq_iff_iff, this, decide_eq_true_iff]

theorem recordsIfAny_eq (cfg : Cfg) (dt : Data → List Char) (base : Nat) (data : List UInt8) :
    recordsIfAny cfg dt base data = variableDataSegs cfg dt false base data := by
  unfold recordsIfAny variableDataSegs
  rcases data with _ | ⟨x, t⟩
  · simp [annotateRecords, annotateRecordsFrom]
  · simp

theorem shortCi_ite (ci : UInt8) (h : isShortCi ci) : ci ≠ 0x72 ∧ ci ≠ 0x76 ∧
    (ci = 0x7A ∨ (0xA0 ≤ ci ∧ ci ≤ 0xAF)) ∧ ci ≠ 0xA0 := by
  revert ci; unfold isShortCi; decide +kernel

/-- The annotation of a decoded application layer: header segments, then those of the variable
data. -/
theorem app_of_block (cfg : Cfg) (dt : Data → List Char) {payload : List UInt8} {blk : UserDataBlock}
    (hb : Block payload blk) {enc : Bool} {block : List UInt8}
    (hv : securedData blk = some (enc, block)) (base : Nat) (segs : List ByteSegment)
    (h : annotateApp cfg dt base payload = .ok segs) :
    ∃ head vs k, segs = head ++ vs ∧ payload.length = k + block.length ∧ payload.drop k = block ∧
      (∀ s ∈ head, s.layer = .appHeader ∧ s.group = none ∧ s.kind ≠ .encryptedPayload) ∧
      variableDataSegs cfg dt enc (base + k) block = .ok vs := by
  induction hb generalizing base segs enc block with
  | reset => cases hv
  | fixed => cases hv
  | long reversed i0 i1 i2 i3 m0 m1 ver dev acc st c0 c1 b hbcd =>
    simp only [securedData, Option.some.injEq, Prod.mk.injEq] at hv
    obtain ⟨rfl, rfl⟩ := hv
    simp only [List.cons_append, List.nil_append] at h ⊢
    rw [annotateApp, if_pos (by cases reversed <;> decide), if_neg (by simp), Res.bind_eq_ok] at h
    obtain ⟨vs, h1, h2⟩ := h
    cases h2
    refine ⟨_, vs, 13, rfl, by simp; omega, rfl, ?_, ?_⟩
    · simp [longTplSegs, headerSeg]
    · rw [configEncrypted_iff] at h1; exact h1
  | short ci acc st c0 c1 b hci =>
    simp only [securedData, Option.some.injEq, Prod.mk.injEq] at hv
    obtain ⟨rfl, rfl⟩ := hv
    obtain ⟨n1, n2, n3, n4⟩ := shortCi_ite ci hci
    have e1 : shortTplSkip ci = 1 := by simp [shortTplSkip, n4]
    have e2 : shortTplOffset ci = 5 := by simp [shortTplOffset, n4]
    simp only [List.cons_append, List.nil_append] at h ⊢
    rw [annotateApp, if_neg (by simp [n1, n2]), if_pos n3, e1, e2, if_neg (by simp), Res.bind_eq_ok] at h
    obtain ⟨vs, h1, h2⟩ := h
    cases h2
    refine ⟨_, vs, 5, rfl, by simp; omega, rfl, ?_, ?_⟩
    · simp [shortTplSegs, headerSeg, n4]
    · rw [configEncrypted_iff] at h1; exact h1
  | shortA0 x acc st c0 c1 b =>
    simp only [securedData, Option.some.injEq, Prod.mk.injEq] at hv
    obtain ⟨rfl, rfl⟩ := hv
    simp only [List.cons_append, List.nil_append] at h ⊢
    rw [annotateApp, if_neg (by decide), if_pos (by decide),
      show shortTplSkip 0xA0 = 2 from rfl, show shortTplOffset 0xA0 = 6 from rfl, if_neg (by simp),
      Res.bind_eq_ok] at h
    obtain ⟨vs, h1, h2⟩ := h
    cases h2
    refine ⟨_, vs, 6, rfl, by simp; omega, rfl, ?_, ?_⟩
    · simp [shortTplSegs, headerSeg]
    · rw [configEncrypted_iff] at h1; exact h1
  | noTpl b =>
    simp only [securedData, Option.some.injEq, Prod.mk.injEq] at hv
    obtain ⟨rfl, rfl⟩ := hv
    simp only [List.cons_append, List.nil_append] at h ⊢
    rw [annotateApp, if_neg (by decide), if_neg (by decide), if_pos (by decide), Res.bind_eq_ok,
      recordsIfAny_eq] at h
    obtain ⟨vs, h1, h2⟩ := h
    cases h2
    exact ⟨[_], vs, 1, rfl, by simp; omega, rfl, by simp [headerSeg], h1⟩
  | ellI cc acc inner blk blk' hin hw ih =>
    have hv' : securedData blk = some (enc, block) := by
      cases blk <;> simp only [withEll, Option.some.injEq, reduceCtorEq] at hw <;> subst hw <;> exact hv
    simp only [List.cons_append, List.nil_append] at h ⊢
    rw [annotateApp, if_neg (by decide), if_neg (by decide), if_neg (by decide), if_pos (by decide),
      if_neg (by simp), Res.bind_eq_ok] at h
    obtain ⟨vs, h1, h2⟩ := h
    cases h2
    simp only [List.drop_succ_cons, List.drop_zero] at h1
    obtain ⟨head, w, k, rfl, g2, g3, g4, g5⟩ := ih hv' _ _ h1
    refine ⟨[_, _] ++ head, w, k + 3, (List.append_assoc _ _ _).symm, by simp; omega, ?_, ?_, ?_⟩
    · simpa using g3
    · intro s hs
      rcases List.mem_append.mp hs with hs | hs
      · simp only [List.mem_cons, List.not_mem_nil, or_false] at hs
        rcases hs with rfl | rfl <;> simp [headerSeg]
      · exact g4 s hs
    · rw [show base + (k + 3) = base + 3 + k by omega]; exact g5
  | ellII cc acc s0 s1 s2 s3 r0 r1 b =>
    simp only [securedData, Option.some.injEq, Prod.mk.injEq] at hv
    obtain ⟨rfl, rfl⟩ := hv
    simp only [List.cons_append, List.nil_append] at h ⊢
    rw [annotateApp, if_neg (by decide), if_neg (by decide), if_neg (by decide), if_neg (by decide),
      if_pos (by decide)] at h
    unfold ellSegs at h
    simp only at h
    rw [if_neg (by simp), Res.bind_eq_ok, recordsIfAny_eq] at h
    obtain ⟨vs, h1, h2⟩ := h
    cases h2
    have hm : decide (modeNumber ⟨0⟩ ≠ 0) = false := by decide
    exact ⟨[_, _], vs, 9, rfl, by simp; omega, rfl, by simp [headerSeg], by rw [hm]; exact h1⟩
  | ellIII cc acc m0 m1 a0 a1 a2 a3 a4 a5 s0 s1 s2 s3 r0 r1 b =>
    simp only [securedData, Option.some.injEq, Prod.mk.injEq] at hv
    obtain ⟨rfl, rfl⟩ := hv
    simp only [List.cons_append, List.nil_append] at h ⊢
    rw [annotateApp, if_neg (by decide), if_neg (by decide), if_neg (by decide), if_neg (by decide),
      if_neg (by decide), if_pos (by decide)] at h
    unfold ellSegs at h
    simp only at h
    rw [if_neg (by simp), Res.bind_eq_ok, recordsIfAny_eq] at h
    obtain ⟨vs, h1, h2⟩ := h
    cases h2
    have hm : decide (modeNumber ⟨0⟩ ≠ 0) = false := by decide
    exact ⟨[_, _], vs, 17, rfl, by simp; omega, rfl, by simp [headerSeg], by rw [hm]; exact h1⟩

/-- The segments of the application layer `payload` inside the annotation of a telegram. -/
structure AppAt (cfg : Cfg) (dt : Data → List Char) (data : List UInt8) (segs : List ByteSegment)
    (payload : List UInt8) where
  before : List UInt8
  behind : List UInt8
  pre : List ByteSegment
  app : List ByteSegment
  post : List ByteSegment
  split : data = before ++ (payload ++ behind)
  segs_eq : segs = pre ++ (app ++ post)
  frame : ∀ s, s ∈ pre ∨ s ∈ post → s.layer = .frame ∧ s.group = none ∧ s.kind ≠ .encryptedPayload
  app_eq : annotateApp cfg dt before.length payload = .ok app

/-! ## No errors below the frame -/

theorem records_ne_err (cfg : Cfg) (dt : Data → List Char) (pos index : Nat) (rest : List UInt8)
    (e : Unit) : annotateRecordsFrom cfg dt pos index rest ≠ .err e := by
  induction hn : rest.length using Nat.strong_induction_on generalizing pos index rest with
  | _ n ih =>
    subst hn
    rcases rest with _ | ⟨dif, tail⟩
    · rw [annotateRecordsFrom]; simp
    · have ht : ∀ p i, annotateRecordsFrom cfg dt p i tail ≠ .err e := fun p i =>
        ih _ (by simp) _ _ _ rfl
      by_cases hs : dif &&& 0x0F = 0x0F
      · rw [annotateRecordsFrom, if_pos hs]
        split
        · intro h; rw [Res.bind_eq_err] at h; simpa [ht] using h
        · split
          · simp
          · intro h; rw [Res.bind_eq_err] at h; simpa [ht] using h
      · cases hr : DataRecord.parse cfg false (dif :: tail) with
        | err e => rw [annotateRecordsFrom, if_neg hs, hr]; simp
        | panic => rw [annotateRecordsFrom, if_neg hs, hr]; simp
        | ok r =>
          rw [annotate_step _ _ _ _ _ _ _ hs hr]
          intro h
          rw [Res.bind_eq_err] at h
          have := (record_sizes _ _ _ _ hr)
          have h2 := ih ((dif :: tail).drop r.size).length (by simp; omega) (pos + r.size) (index + 1)
            ((dif :: tail).drop r.size) rfl
          simpa [h2] using h

theorem variableData_ne_err (cfg : Cfg) (dt : Data → List Char) (enc : Bool) (base : Nat)
    (data : List UInt8) (e : Unit) : variableDataSegs cfg dt enc base data ≠ .err e := by
  unfold variableDataSegs
  split
  · intro h; cases h
  · exact records_ne_err _ _ _ _ _ _

theorem app_ne_err (cfg : Cfg) (dt : Data → List Char) (base : Nat) (app : List UInt8) (e : Unit) :
    annotateApp cfg dt base app ≠ .err e := by
  have hv := variableData_ne_err cfg dt
  induction hn : app.length using Nat.strong_induction_on generalizing base app with
  | _ n ih =>
    subst hn
    rcases app with _ | ⟨ci, tail⟩
    · rw [annotateApp]; simp
    · rw [annotateApp]
      have hell : ∀ a b c d f, ellSegs cfg dt base a b c d f ≠ .err e := by
        intro a b c d f h
        unfold ellSegs at h
        simp only at h
        split at h
        · cases h
        · rw [Res.bind_eq_err, recordsIfAny_eq] at h; simpa [hv] using h
      split
      · split
        · simp
        · intro h; rw [Res.bind_eq_err] at h; simpa [hv] using h
      split
      · split
        · simp
        · intro h; rw [Res.bind_eq_err] at h; simpa [hv] using h
      split
      · intro h; rw [Res.bind_eq_err, recordsIfAny_eq] at h; simpa [hv] using h
      split
      · split
        · simp
        · intro h
          rw [Res.bind_eq_err] at h
          have := ih _ (by simp) (base + 3) (tail.drop 2) rfl
          simpa [this] using h
      split
      · exact hell _ _ _ _ _
      split
      · exact hell _ _ _ _ _
      · simp

theorem wirelessApp_ne_err (cfg : Cfg) (dt : Data → List Char) (data : List UInt8) (n : Nat) (e : Unit) :
    annotateWirelessApp cfg dt data n ≠ .err e := by
  unfold annotateWirelessApp
  split
  · split
    · exact app_ne_err _ _ _ _ _
    · simp
  · simp

theorem inner_err_iff (cfg : Cfg) (dt : Data → List Char) (data : List UInt8) (e : Unit) :
    annotateWirelessInner cfg dt data = .err e ↔ ∃ e', WirelessFrame.tryFrom data = .err e' := by
  unfold annotateWirelessInner
  simp only
  cases WirelessFrame.tryFrom data with
  | ok f =>
    simp only [Res.mapErr, Res.bind_ok, reduceCtorEq, exists_false, iff_false]
    intro h
    rw [Res.bind_eq_err] at h
    simpa [wirelessApp_ne_err] using h
  | err e' => simp [Res.mapErr]
  | panic => simp [Res.mapErr]

theorem wired_err_iff (cfg : Cfg) (dt : Data → List Char) (data : List UInt8) (e : Unit) :
    annotateWired cfg dt data = .err e ↔ ∃ e', WiredFrame.tryFrom cfg data = .err e' := by
  have hl : ∀ fn ad payload c, annotateLong cfg dt data fn ad payload c ≠ .err e := by
    intro fn ad payload c h
    unfold annotateLong at h
    simp only at h
    rw [Res.bind_eq_err] at h
    rcases h with h | ⟨_, _, h⟩
    · unfold annotateUserData at h
      split at h
      · exact app_ne_err _ _ _ _ _ h
      · split at h <;> cases h
    · cases h
  unfold annotateWired
  cases WiredFrame.tryFrom cfg data with
  | ok f =>
    simp only [Res.mapErr, Res.bind_ok, reduceCtorEq, exists_false, iff_false]
    cases f <;> simp [hl]
  | err e' => simp [Res.mapErr]
  | panic => simp [Res.mapErr]

/-! ## Where the application layer of a telegram is -/

theorem append_two {α : Type} (p u : List α) (x y : α) :
    p ++ u ++ [x] ++ [y] = p ++ (u ++ [x, y]) := by simp

theorem wired_appAt {cfg : Cfg} {dt : Data → List Char} {data : List UInt8} {segs : List ByteSegment}
    {m : MbusData WiredFrame} {blk : UserDataBlock} (hm : MbusData.tryFromWired cfg data = .ok m)
    (hu : m.userData = some blk) (h : annotateFrame cfg dt data = .ok segs) :
    ∃ payload, Block payload blk ∧ Nonempty (AppAt cfg dt data segs payload) := by
  unfold MbusData.tryFromWired at hm
  rw [Res.bind_eq_ok] at hm
  obtain ⟨f, hf, hm⟩ := hm
  have hw : annotateWired cfg dt data = .ok segs := by
    rcases frame_cases h with h | ⟨⟨e, h⟩, _⟩
    · exact h
    · obtain ⟨e', he'⟩ := (wired_err_iff _ _ _ _).1 h
      rw [hf] at he'; cases he'
  unfold annotateWired at hw
  rw [hf] at hw
  simp only [Res.mapErr, Res.bind_ok] at hw
  have ht := (C01_wired_accepts_exactly_telegrams _ _ _).1 hf
  cases ht with
  | single rest => cases hm; cases hu
  | short c a fn hfn => cases hm; cases hu
  | control x a payload hl => cases hm; cases hu
  | long x c a payload fn hfn hc hl =>
    simp only [MbusData.ofPayload] at hm
    cases ho : UserDataBlock.tryFrom payload with
    | err e => rw [ho] at hm; cases hm; cases hu
    | panic => rw [ho] at hm; cases hm
    | ok blk' =>
      rw [ho] at hm
      cases hm
      cases hu
      have hb := (C32_accepts_iff _ _).1 ho
      refine ⟨payload, hb, ?_⟩
      unfold annotateLong at hw
      simp only at hw
      rw [Res.bind_eq_ok] at hw
      obtain ⟨user, h1, h2⟩ := hw
      have hne : payload.isEmpty = false := by
        rcases payload with _ | ⟨y, t⟩
        · rw [C32_empty] at ho; cases ho
        · rfl
      unfold annotateUserData at h1
      rw [hne] at h1
      simp only [Bool.not_false, Bool.and_self, if_true] at h1
      have hl : (longFrameBytes x c a payload).length = payload.length + 8 := by simp [longFrameBytes]
      rw [if_pos (show 6 + payload.length < (longFrameBytes x c a payload).length by omega),
        if_pos (show 6 + payload.length + 1 < (longFrameBytes x c a payload).length by omega)] at h2
      cases h2
      refine ⟨⟨[0x68, UInt8.ofNat (payload.length + 2), UInt8.ofNat (payload.length + 2), x, c, a],
        [checksum (c :: a :: payload), 0x16], _, user, [_, _], ?_, append_two _ _ _ _, ?_, h1⟩⟩
      · simp [longFrameBytes]
      · intro s hs
        rcases hs with hs | hs
        · simp only [List.mem_cons, List.not_mem_nil, or_false] at hs
          rcases hs with rfl | rfl | rfl | rfl | rfl <;> simp [frameSeg]
        · simp only [List.mem_cons, List.not_mem_nil, or_false] at hs
          rcases hs with rfl | rfl <;> simp [frameSeg]

theorem inner_appAt {cfg : Cfg} {dt : Data → List Char} {data : List UInt8} {segs : List ByteSegment}
    {m : MbusData WirelessFrame} {blk : UserDataBlock} (hm : MbusData.tryFromWireless data = .ok m)
    (hu : m.userData = some blk) (h : annotateWirelessInner cfg dt data = .ok segs) :
    ∃ payload, Block payload blk ∧ Nonempty (AppAt cfg dt data segs payload) := by
  unfold MbusData.tryFromWireless at hm
  rw [Res.bind_eq_ok] at hm
  obtain ⟨f, hf, hm⟩ := hm
  have hp := C13_wireless_payload _ _ hf
  unfold annotateWirelessInner at h
  rw [hf] at h
  simp only [Res.mapErr, Res.bind_ok] at h
  rw [Res.bind_eq_ok] at h
  obtain ⟨app, ha, h⟩ := h
  have hlen : 11 ≤ data.length := by
    have := (C12_wireless_accepts_exactly_telegrams _ _).1 hf
    cases this
    simp_all
  have hcrc : ∀ n, trailingFrameCrcStart data = some n → 10 ≤ n ∧ n + 2 = data.length := by
    intro n hn
    obtain ⟨body, hi, lo, hd, hb, h10, _⟩ := (C11_trailing_frame_crc_start _ _).1 hn
    rw [hd]; simp; omega
  simp only [MbusData.ofPayload] at hm
  cases ho : UserDataBlock.tryFrom f.data with
  | err e => rw [ho] at hm; cases hm; cases hu
  | panic => rw [ho] at hm; cases hm
  | ok blk' =>
    rw [ho] at hm
    cases hm
    cases hu
    have hne : f.data ≠ [] := by intro hh; rw [hh, C32_empty] at ho; cases ho
    refine ⟨f.data, (C32_accepts_iff _ _).1 ho, ?_⟩
    cases h
    have hframe : ∀ s, s ∈ [ frameSeg 0 1 .lField ("L Field: ".toList ++ natDisplay (byteOr0 data 0).toNat),
      frameSeg 1 2 .cField ("C Field: 0x".toList ++ hexString [byteOr0 data 1]),
      frameSeg 2 4 .manufacturerCode ("Manufacturer: 0x".toList ++ hexString [byteOr0 data 2] ++ hexString [byteOr0 data 3]),
      frameSeg 4 8 .identificationNumber ("ID: ".toList ++ hexString [byteOr0 data 4] ++ hexString [byteOr0 data 5] ++ hexString [byteOr0 data 6] ++ hexString [byteOr0 data 7]),
      frameSeg 8 9 .version ("Version: ".toList ++ natDisplay (byteOr0 data 8).toNat),
      frameSeg 9 10 .deviceType ("Device Type: 0x".toList ++ hexString [byteOr0 data 9]) ] ∨
        s ∈ (match trailingFrameCrcStart data with
          | some start => [frameSeg start data.length .crc (crcText data start)]
          | none => []) → s.layer = .frame ∧ s.group = none ∧ s.kind ≠ .encryptedPayload := by
      intro s hs
      rcases hs with hs | hs
      · simp only [List.mem_cons, List.not_mem_nil, or_false] at hs
        rcases hs with rfl | rfl | rfl | rfl | rfl | rfl <;> simp [frameSeg]
      · split at hs
        · simp only [List.mem_cons, List.not_mem_nil, or_false] at hs
          rcases hs with rfl; simp [frameSeg]
        · simp at hs
    have hpl : f.data = (data.take ((trailingFrameCrcStart data).getD data.length)).drop 10 := by
      rcases hp with ⟨body, hi, lo, hd, h12, hc, hfd⟩ | ⟨hfd, hno⟩
      · have hbl : body.length + 2 = data.length := by rw [hd]; simp
        have := (C11_trailing_frame_crc_start data body.length).2 ⟨body, hi, lo, hd, rfl, by omega, hc⟩
        rw [hfd, this, hd]
        simp
      · have hn : trailingFrameCrcStart data = none := by
          cases ht : trailingFrameCrcStart data with
          | none => rfl
          | some n =>
            obtain ⟨body, hi, lo, hd, hb, h10, hc⟩ := (C11_trailing_frame_crc_start _ _).1 ht
            exact absurd ⟨body, hi, lo, hd, by rw [hd]; simp; omega, hc⟩ hno
        rw [hfd, hn]
        simp
    have h10 : 10 ≤ (trailingFrameCrcStart data).getD data.length ∧
        (trailingFrameCrcStart data).getD data.length ≤ data.length := by
      cases hc : trailingFrameCrcStart data with
      | none => simp; omega
      | some n => have := hcrc n hc; simp; omega
    refine ⟨⟨data.take 10, data.drop ((trailingFrameCrcStart data).getD data.length), _, app, _, ?_,
      List.append_assoc _ _ _, hframe, ?_⟩⟩
    · rw [hpl]
      generalize (trailingFrameCrcStart data).getD data.length = e at *
      rw [← List.append_assoc]
      have : data.take 10 = (data.take e).take 10 := by rw [List.take_take]; congr 1; omega
      rw [this, List.take_append_drop, List.take_append_drop]
    · unfold annotateWirelessApp at ha
      generalize (trailingFrameCrcStart data).getD data.length = e at *
      rw [slice?, if_pos h10, ← hpl] at ha
      rw [List.length_take, show min 10 data.length = 10 by omega]
      split at ha
      · exact ha
      · have : e = 10 := by omega
        subst this
        exact absurd (by rw [hpl]; simp) hne

end MBus
