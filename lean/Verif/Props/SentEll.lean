import Verif.Spec.SentEll
import Verif.Props.SentSecurity
/-!
# C147: the extended link layer of a telegram is what the user reads
-/
namespace MBus
open MBus.Spec

theorem ell_json (cfg : Cfg) (env : TextEnv) (aes : AesBlock) (data : List UInt8) (options : DecodeOptions)
    (henv : ∀ bits, FiniteReal bits → NumberText (env.realText bits)) (o : DecodedOutput)
    (h : decodeBytes cfg aes data options = .ok o) :
    ∃ d, (∀ d', JsonText (renderJson env o) d' ↔ d' = d) ∧ (∀ d', JsonText (compactJson (o.doc env)) d' ↔ d' = d) ∧
      let found := fun name => follow [.key "transport", .key "ell", .key name] d
      follow [.key "decode_state"] d = some (.str o.decodeState) ∧
      found "communication_control" = o.transport.ell.map (Doc.str ·.communicationControl) ∧
      found "access_number" = o.transport.ell.map (number ·.accessNumber.toNat) ∧
      found "receiver_manufacturer" = (o.transport.ell.bind (·.receiverManufacturer)).map Doc.str ∧
      found "receiver_address" = (o.transport.ell.bind (·.receiverAddress)).map Doc.str ∧
      found "session_number" = (o.transport.ell.bind (·.sessionNumber)).map Doc.str ∧
      found "payload_crc" = (o.transport.ell.bind (·.payloadCrc)).map Doc.str := by
  obtain ⟨d, h1, h2, -, h4⟩ := C112_json cfg env aes data options o henv h
  have k := h4.fields
  refine ⟨d, fun d' => ⟨fun h => json_eq h h1, fun h => h ▸ h1⟩, fun d' => ⟨fun h => json_eq h h2, fun h => h ▸ h2⟩,
    k ([.key "decode_state"], some (.str o.decodeState)) ?_,
    k ([.key "transport", .key "ell", .key "communication_control"],
      o.transport.ell.map (Doc.str ·.communicationControl)) ?_,
    k ([.key "transport", .key "ell", .key "access_number"], o.transport.ell.map (number ·.accessNumber.toNat)) ?_,
    k ([.key "transport", .key "ell", .key "receiver_manufacturer"],
      (o.transport.ell.bind (·.receiverManufacturer)).map Doc.str) ?_,
    k ([.key "transport", .key "ell", .key "receiver_address"],
      (o.transport.ell.bind (·.receiverAddress)).map Doc.str) ?_,
    k ([.key "transport", .key "ell", .key "session_number"], (o.transport.ell.bind (·.sessionNumber)).map Doc.str) ?_,
    k ([.key "transport", .key "ell", .key "payload_crc"], (o.transport.ell.bind (·.payloadCrc)).map Doc.str) ?_⟩ <;>
    simp [telegramFields]

theorem bytes_four (l : List UInt8) (h : l.length = 4) : ∃ a b c d, l = [a, b, c, d] := by
  match l, h with
  | [a, b, c, d], _ => exact ⟨a, b, c, d, rfl⟩

theorem bytes_six (l : List UInt8) (h : l.length = 6) : ∃ a b c d e f, l = [a, b, c, d, e, f] := by
  match l, h with
  | [a, b, c, d, e, f], _ => exact ⟨a, b, c, d, e, f, rfl⟩

/-- C147 in the structured output: the extended link layers of types I and II. -/
theorem C147_decoded_partial (cfg : Cfg) (aes : AesBlock) (data : List UInt8) (options : DecodeOptions) (o : DecodedOutput)
    (h : decodeBytes cfg aes data options = .ok o) (e : SentEll) (inner : List UInt8) (hs : HasEll e inner data)
    (hr : e.receiver = none) (hi : e.session = none → ReadableAfterEll inner) :
    o.transport.ell = some ⟨hexDigits 2 e.control.toNat, e.access, none, none, e.session.map (fun s => hexString s.number),
      e.session.map (fun s => hexDigits 4 s.crc.val)⟩ := by
  obtain ⟨link, ht⟩ := hs
  obtain ⟨cc, acc, receiver, session⟩ := e
  cases hr
  cases session with
  | none =>
    simp only [SentEll.bytes, List.append_nil, List.cons_append, List.nil_append] at ht
    obtain ⟨h1, h2⟩ := C87_ell_one cfg aes data options o h link cc acc inner ht
    cases hi rfl with
    | noTpl block => rw [← hexDigits_byte, h1 block rfl]; rfl
    | short ci a st c0 c1 block hci => rw [← hexDigits_byte, h2 ci a st c0 c1 block hci rfl]; rfl
  | some s =>
    obtain ⟨n, crc, hn⟩ := s
    obtain ⟨s0, s1, s2, s3, rfl⟩ := bytes_four n hn
    simp only [SentEll.bytes, lowFirst, List.append_nil, List.cons_append, List.nil_append] at ht
    rw [C87_ell cfg aes data options o h link cc acc s0 s1 s2 s3 _ _ inner ht, hexDigits_byte, hexDigits_word]
    rfl

/-- C147: the extended link layer is in the JSON texts of the command line program, JavaScript and Python with all its
parts, and the text shows none it does not have.  Missing: types III and IV, see `C147_receiver_fails` and
`C147_both_fails`, and type I before a long transport header or something else than data, see `C147_long_fails`. -/
theorem C147_json_partial (cfg : Cfg) (env : CliEnv) (aes : AesBlock) (text : List Char) (data : List UInt8)
    (keyText : Option (List Char)) (key : Option (List UInt8)) (enrichment : Bool) (e : SentEll) (inner : List UInt8)
    (henv : ∀ bits, FiniteReal bits → NumberText (env.front.text.realText bits))
    (hx : Spelled text data) (hk : KeyGiven keyText key) (hs : HasEll e inner data)
    (hr : e.receiver = none) (hi : e.session = none → ReadableAfterEll inner)
    (h : ∃ o, decodeBytes cfg aes data ⟨key, enrichment⟩ = .ok o) :
    AnsweredWell cfg env aes text keyText enrichment "json" (JsonEll e) ∧
      ∃ out, pyParse cfg env.front aes (.text text) (keyText.map .text) enrichment = .ok out ∧ JsonEll e out := by
  obtain ⟨o, ho⟩ := h
  have he := C147_decoded_partial cfg aes data _ o ho e inner hs hr hi
  obtain ⟨d, u1, u2, -, f1, f2, f3, f4, f5, f6⟩ := ell_json cfg env.front.text aes data _ henv o ho
  rw [he] at f1 f2 f3 f4 f5 f6
  have good : ∀ t, (∀ d', JsonText t d' ↔ d' = d) → JsonEll e t := by
    intro t ht
    refine ⟨d, ht, f1, f2, ?_, ?_, ?_, ?_⟩
    · rw [hr]; exact f3
    · rw [hr]; exact f4
    · cases hse : e.session with
      | none => rw [hse] at f5; exact f5
      | some s => rw [hse] at f5; exact ⟨_, f5, pairs_hexString _⟩
    · rw [f6]
      cases e.session <;> rfl
  refine ⟨answered_well cfg env aes text data keyText key enrichment "json" .json (by decide +kernel) _ hx hk
    (fun width => ⟨_, by simp [renderBytes, ho, renderDecoded, Res.mapErr], good _ u1⟩), _, ?_, good _ u2⟩
  have hp : pyKey (keyText.map .text) = .ok key := by
    cases hk with
    | none => rfl
    | key t k hkt => exact (C115_same_key t k (((C115_cli_key t).1 k).2 hkt)).2.1
  simp [pyParse, pyBytes_text, (decode_iff text data).2 hx, hp, ho, Res.mapErr]

theorem hexDigits_four (a b : Fin 65536) (h : hexDigits 4 a.val = hexDigits 4 b.val) : a = b := by
  rw [← hexDigits_word, ← hexDigits_word] at h
  have p1 := pairs_hexString [UInt8.ofNat (a.val / 256), UInt8.ofNat (a.val % 256)]
  rw [h] at p1
  have := pairs_unique _ _ _ p1 (pairs_hexString _)
  simp only [List.cons.injEq, and_true] at this
  obtain ⟨h1, h2⟩ := this
  have h1 := congrArg UInt8.toNat h1
  have h2 := congrArg UInt8.toNat h2
  simp only [UInt8.toNat_ofNat'] at h1 h2
  have := a.isLt
  have := b.isLt
  ext
  omega

/-- C147: the reader of a JSON text knows the whole extended link layer, receiver and session included. -/
theorem C147_one_ell (e e' : SentEll) (text : List Char) (h : JsonEll e text) (h' : JsonEll e' text) : e = e' := by
  obtain ⟨d, h0, h1, h2, h3, h4, h5, h6⟩ := h
  obtain ⟨d', g0, g1, g2, g3, g4, g5, g6⟩ := h'
  cases (h0 d').1 ((g0 d').2 rfl)
  obtain ⟨cc, acc, r, s⟩ := e
  obtain ⟨cc', acc', r', s'⟩ := e'
  simp only at h1 h2 h3 h4 h5 h6 g1 g2 g3 g4 g5 g6
  rw [h1] at g1
  rw [h2] at g2
  rw [h3] at g3
  rw [h6] at g6
  simp only [Option.some.injEq, Doc.str.injEq] at g1
  simp only [number, Option.some.injEq, Doc.num.injEq] at g2
  have := congrArg natOf g2
  rw [natOf_decimal, natOf_decimal] at this
  cases hexDigits_two _ _ g1
  cases UInt8.toNat_inj.1 this
  have er : r = r' := by
    cases r <;> cases r' <;> simp only [Option.map_some, Option.map_none, Option.some.injEq, Doc.str.injEq, reduceCtorEq] at g3
    · rfl
    · rename_i a b
      obtain ⟨t, e1, p1⟩ := h4
      obtain ⟨t', e2, p2⟩ := g4
      rw [e1] at e2
      cases e2
      obtain ⟨m, x, hx⟩ := a
      obtain ⟨m', x', hx'⟩ := b
      cases hexDigits_four _ _ g3
      cases pairs_unique _ _ _ p1 p2
      rfl
  have es : s = s' := by
    cases s <;> cases s' <;> simp only [Option.map_some, Option.map_none, Option.some.injEq, Doc.str.injEq, reduceCtorEq] at g6
    · rfl
    · rename_i a b
      obtain ⟨t, e1, p1⟩ := h5
      obtain ⟨t', e2, p2⟩ := g5
      rw [e1] at e2
      cases e2
      obtain ⟨x, m, hx⟩ := a
      obtain ⟨x', m', hx'⟩ := b
      cases hexDigits_four _ _ g6
      cases pairs_unique _ _ _ p1 p2
      rfl
  rw [er, es]

/-! ## What is false -/

/-- C147 is false of type III (a receiver and no session): the next six bytes, which belong to the data, are shown as a
session and a CRC. -/
theorem C147_receiver_fails (cfg : Cfg) (aes : AesBlock) (data : List UInt8) (options : DecodeOptions) (o : DecodedOutput)
    (h : decodeBytes cfg aes data options = .ok o) (e : SentEll) (b0 b1 b2 b3 b4 b5 : UInt8) (inner : List UInt8)
    (hs : HasEll e ([b0, b1, b2, b3, b4, b5] ++ inner) data) (hr : e.receiver.isSome) (hn : e.session = none) :
    ∃ shown, o.transport.ell = some shown ∧ shown.sessionNumber = some (hexString [b0, b1, b2, b3]) ∧
      shown.payloadCrc = some (hexString [b5, b4]) := by
  obtain ⟨link, ht⟩ := hs
  obtain ⟨cc, acc, receiver, session⟩ := e
  cases hn
  cases receiver with
  | none => cases hr
  | some r =>
    obtain ⟨m, a, ha⟩ := r
    obtain ⟨a0, a1, a2, a3, a4, a5, rfl⟩ := bytes_six a ha
    simp only [SentEll.bytes, lowFirst, List.append_nil, List.cons_append, List.nil_append] at ht
    rw [C87_ell_receiver cfg aes data options o h link cc acc _ _ a0 a1 a2 a3 a4 a5 b0 b1 b2 b3 b4 b5 inner ht]
    exact ⟨_, rfl, rfl, rfl⟩

theorem ell_missing (cfg : Cfg) (aes : AesBlock) (data : List UInt8) (options : DecodeOptions) (o : DecodedOutput)
    (h : decodeBytes cfg aes data options = .ok o) (link : Option ManufacturerId) (payload : List UInt8)
    (ht : Telegram data link payload) (hn : ∀ blk, ¬ Block payload blk) :
    o.transport.ell = none ∧ o.records = [] ∧ o.decodeState = "partial".toList := by
  obtain ⟨protocol, frame, normalized, stripped, hdec⟩ := decode_telegram cfg aes data link payload ht
  rw [hdec] at h
  cases hu : UserDataBlock.tryFrom payload with
  | ok blk => exact absurd ((C32_accepts_iff _ _).1 hu) (hn blk)
  | panic => exact absurd hu (C32_never_panics _)
  | err e =>
    rw [hu] at h
    obtain ⟨c, outs, err, h1, h2, -, -, h3, h4, -, -, h5, -⟩ := finish_ok _ _ _ _ _ _ _ _ _ _ _ _ h
    cases h1
    cases h2
    exact ⟨congrArg (fun p => p.2.ell) h3, h4, h5⟩

/-- C147 is false of type IV (a receiver and a session): nothing of it is shown. -/
theorem C147_both_fails (cfg : Cfg) (aes : AesBlock) (data : List UInt8) (options : DecodeOptions) (o : DecodedOutput)
    (h : decodeBytes cfg aes data options = .ok o) (e : SentEll) (inner : List UInt8) (hs : HasEll e inner data)
    (hr : e.receiver.isSome) (hn : e.session.isSome) :
    o.transport.ell = none ∧ o.records = [] ∧ o.decodeState = "partial".toList := by
  obtain ⟨link, ht⟩ := hs
  refine ell_missing cfg aes data options o h link _ ht ?_
  obtain ⟨cc, acc, receiver, session⟩ := e
  obtain ⟨r, rfl⟩ := Option.isSome_iff_exists.1 hr
  obtain ⟨s, rfl⟩ := Option.isSome_iff_exists.1 hn
  intro blk hb
  have h1 := (C32_accepts_iff _ _).2 hb
  have h2 := (C32_invalid_ci_iff (SentEll.bytes ⟨cc, acc, some r, some s⟩ ++ inner) 0x8F).2
    ⟨rfl, by decide, fun f hf => absurd (List.mem_map_of_mem (f := Prod.fst) hf) (show (0x8F : UInt8) ∉ _ by decide)⟩
  rw [h1] at h2
  cases h2

theorem long_after_ell (ell : ExtendedLinkLayer) (inner : List UInt8) (blk : UserDataBlock) (h : Block inner blk)
    (hh : inner.head? = some 0x72) : withEll ell blk = none := by
  cases h with
  | long => rfl
  | reset => rfl
  | fixed => rfl
  | short ci _ _ _ _ _ hci =>
    simp only [List.cons_append, List.head?_cons, Option.some.injEq] at hh
    exact absurd (hh ▸ hci) (by decide)
  | _ => cases hh

theorem ell_one_inner (data : List UInt8) (blk : UserDataBlock) (h : Block data blk) (hh : data.head? = some 0x8C) :
    ∃ cc acc inner b, data = [0x8C, cc, acc] ++ inner ∧ Block inner b ∧ withEll ⟨cc, acc, none, none⟩ b = some blk := by
  cases h with
  | ellI cc acc inner b _ hin hw => exact ⟨cc, acc, inner, b, rfl, hin, hw⟩
  | long reversed => cases reversed <;> cases hh
  | fixed ci _ _ _ _ _ _ _ _ _ _ _ _ _ _ _ _ _ hci =>
    simp only [List.cons_append, List.head?_cons, Option.some.injEq] at hh
    exact absurd (hh ▸ hci) (by decide)
  | short ci _ _ _ _ _ hci =>
    simp only [List.cons_append, List.head?_cons, Option.some.injEq] at hh
    exact absurd (hh ▸ hci) (by decide)
  | _ => cases hh

/-- C147 is false of type I before a long transport header: neither of them is shown. -/
theorem C147_long_fails (cfg : Cfg) (aes : AesBlock) (data : List UInt8) (options : DecodeOptions) (o : DecodedOutput)
    (h : decodeBytes cfg aes data options = .ok o) (e : SentEll) (m : SentMeter) (hd : SentHeader) (block : List UInt8)
    (hs : HasEll e (0x72 :: headerAddress m ++ hd.bytes ++ block) data) (hr : e.receiver = none) (hn : e.session = none) :
    o.transport.ell = none ∧ o.transport.accessNumbers = [] ∧ o.records = [] ∧ o.decodeState = "partial".toList := by
  obtain ⟨link, ht⟩ := hs
  obtain ⟨cc, acc, receiver, session⟩ := e
  cases hr
  cases hn
  have hno : ∀ blk, ¬ Block (SentEll.bytes ⟨cc, acc, none, none⟩ ++ (0x72 :: headerAddress m ++ hd.bytes ++ block)) blk := by
    intro blk hbl
    simp only [SentEll.bytes, List.append_nil, List.cons_append, List.nil_append] at hbl
    obtain ⟨cc', acc', inner, b, he, hin, hw⟩ := ell_one_inner _ _ hbl rfl
    simp only [List.cons_append, List.nil_append, List.cons.injEq, true_and] at he
    obtain ⟨-, -, rfl⟩ := he
    exact Option.some_ne_none _ (hw.symm.trans (long_after_ell _ _ _ hin rfl))
  obtain ⟨h1, h2, h3⟩ := ell_missing cfg aes data options o h link _ ht hno
  refine ⟨h1, ?_, h2, h3⟩
  obtain ⟨protocol, frame, normalized, stripped, hdec⟩ := decode_telegram cfg aes data link _ ht
  rw [hdec] at h
  cases hu : UserDataBlock.tryFrom _ with
  | ok blk => exact absurd ((C32_accepts_iff _ _).1 hu) (hno blk)
  | panic => exact absurd hu (C32_never_panics _)
  | err e =>
    rw [hu] at h
    obtain ⟨c, outs, err, -, -, -, -, h3, -⟩ := finish_ok _ _ _ _ _ _ _ _ _ _ _ _ h
    exact congrArg (fun p => p.2.accessNumbers) h3

/-! ## The hypotheses are met -/

theorem ell_sample (e : SentEll) (inner : List UInt8) (a : Address)
    (h : WiredFrame.tryFrom cfgRelease (longFrameBytes 0x68 0x08 0x05 (e.bytes ++ inner)) =
      .ok (.longFrame (.rspUd false false) a (e.bytes ++ inner))) :
    HasEll e inner (longFrameBytes 0x68 0x08 0x05 (e.bytes ++ inner)) := ⟨none, wired_telegram _ _ _ _ h⟩

/-- A telegram with a session, typed as pairs of digits. -/
example (cfg : Cfg) (front : FrontEnv) (hf : front.text = sampleEnv) (aes : AesBlock) (enrichment : Bool) :
    AnsweredWell cfg (oneFile front "t.hex".toList []) aes
      (hexString (longFrameBytes 0x68 0x08 0x05
        ([0x8D, 0x20, 0x2A, 0x01, 0x02, 0x03, 0x04, 0xEF, 0xBE] ++ [0x99, 0x98, 0x97]))) none enrichment "json"
      (JsonEll ⟨0x20, 0x2A, none, some ⟨[0x01, 0x02, 0x03, 0x04], 0xBEEF, rfl⟩⟩) := by
  have hs := ell_sample ⟨0x20, 0x2A, none, some ⟨[0x01, 0x02, 0x03, 0x04], 0xBEEF, rfl⟩⟩ [0x99, 0x98, 0x97] (.primary 5)
    (by decide +kernel)
  have e : SentEll.bytes ⟨0x20, 0x2A, none, some ⟨[0x01, 0x02, 0x03, 0x04], 0xBEEF, rfl⟩⟩ =
      [0x8D, 0x20, 0x2A, 0x01, 0x02, 0x03, 0x04, 0xEF, 0xBE] := by decide +kernel
  rw [e] at hs
  refine (C147_json_partial cfg (oneFile front "t.hex".toList []) aes _ _ none none enrichment _ _
    (by intro bits h; show NumberText (front.text.realText bits); rw [hf]; exact sampleEnv_numbers bits h)
    ((decode_iff _ _).1 (by decide +kernel)) .none hs rfl (by intro h; cases h) ?_).1
  obtain ⟨link, ht⟩ := hs
  rw [e] at ht
  obtain ⟨protocol, frame, normalized, stripped, hdec⟩ := decode_telegram cfg aes _ link _ ht
  rw [hdec, (C32_accepts_iff _ _).2 (Block.ellII 0x20 0x2A 0x01 0x02 0x03 0x04 0xEF 0xBE [0x99, 0x98, 0x97])]
  exact ⟨_, rfl⟩

/-- There are telegrams with all four types: type I before data without header, and the cases that are not shown. -/
example : ∀ p ∈ [((⟨0x20, 0x2A, none, none⟩ : SentEll), [0x78, 0x0B, 0x13, 0x56, 0x34, 0x12]),
      (⟨0x20, 0x2A, some ⟨0x1593, [0x78, 0x56, 0x34, 0x12, 0x33, 0x03], rfl⟩, none⟩, [0x78, 0x0B, 0x13, 0x56, 0x34, 0x12]),
      (⟨0x20, 0x2A, some ⟨0x1593, [0x78, 0x56, 0x34, 0x12, 0x33, 0x03], rfl⟩,
        some ⟨[0x01, 0x02, 0x03, 0x04], 0xBEEF, rfl⟩⟩, [0x99, 0x98]),
      (⟨0x20, 0x2A, none, none⟩, 0x72 :: headerAddress ⟨12345678, 5, 12, 19, 0x33, 0x03⟩ ++
        (SentHeader.mk 0x2A ⟨0, true, true, false, false, false, false⟩ 0).bytes ++ [0x0B, 0x13, 0x56, 0x34, 0x12])],
    HasEll p.1 p.2 (longFrameBytes 0x68 0x08 0x05 (p.1.bytes ++ p.2)) := by
  intro p hp
  refine ell_sample p.1 p.2 (.primary 5) ?_
  simp only [List.mem_cons, List.not_mem_nil, or_false] at hp
  rcases hp with rfl | rfl | rfl | rfl <;> decide +kernel

end MBus
