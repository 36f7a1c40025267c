import Verif.Spec.SentStatus
import Verif.Props.SentIdentity
/-!
# C143: what a meter says about itself is what the user reads
-/
namespace MBus
open MBus.Spec

theorem hexDigits_byte (b : UInt8) : hexString [b] = hexDigits 2 b.toNat := by
  have key : ∀ b : UInt8, hexString [b] = hexDigits 2 b.toNat := by decide +kernel
  exact key b

theorem hexDigits_word (n : Fin 65536) :
    hexString [UInt8.ofNat (n.val / 256), UInt8.ofNat (n.val % 256)] = hexDigits 4 n.val := by
  have h1 := hexDigits_byte (UInt8.ofNat (n.val / 256))
  have h2 := hexDigits_byte (UInt8.ofNat (n.val % 256))
  have hn := n.isLt
  have e1 : (UInt8.ofNat (n.val / 256)).toNat = n.val / 256 := by simp only [UInt8.toNat_ofNat']; omega
  have e2 : (UInt8.ofNat (n.val % 256)).toNat = n.val % 256 := by simp only [UInt8.toNat_ofNat']; omega
  rw [e1] at h1
  rw [e2] at h2
  have e : ∀ a b : UInt8, hexString [a, b] = hexString [a] ++ hexString [b] := fun _ _ => rfl
  rw [e, h1, h2]
  simp only [hexDigits, List.range_eq_range', List.range', List.map_cons, List.map_nil, List.cons_append, List.nil_append]
  norm_num [Nat.div_div_eq_div_mul]
  have a1 : n.val / 256 / 16 % 16 = n.val / 4096 % 16 := by omega
  have a2 : n.val % 256 / 16 % 16 = n.val / 16 % 16 := by omega
  simp only [a2]

theorem header_words (s : SentStatus) : statusDisplay s.byte =
    if s.application.val = 0 ∧ s.raised = [] then "No Error(s)".toList
    else commaSeparated (((["Counter binary signed"] : List String).filter (fun _ => s.application.val % 2 = 1) ++
      (["Counter fixed date"] : List String).filter (fun _ => s.application.val / 2 = 1)) ++ s.raised) := by
  obtain ⟨a, b1, b2, b3, b4, b5, b6⟩ := s
  revert a b1 b2 b3 b4 b5 b6
  decide +kernel

theorem C143_decoded (cfg : Cfg) (aes : AesBlock) (data : List UInt8) (options : DecodeOptions) (o : DecodedOutput)
    (h : decodeBytes cfg aes data options = .ok o) (hd : SentHeader) (source : String) (hs : HasHeader hd source data) :
    o.transport.accessNumbers = [(source.toList, hd.access)] ∧
    o.transport.statuses = [⟨source.toList, hexDigits 2 hd.status.byte.toNat, statusDisplay hd.status.byte⟩] ∧
    o.transport.configuration = some (source.toList, hexDigits 4 hd.configuration.val) := by
  rw [← hexDigits_byte, ← hexDigits_word]
  obtain ⟨link, payload, ht, hs⟩ := hs
  cases hs with
  | long m block =>
    obtain ⟨i0, i1, i2, i3, he, hb, -⟩ := hexString_encodeBcd m.number
    simp only [headerAddress, he, makerBytes, SentHeader.bytes, List.cons_append, List.nil_append] at ht
    rw [C87_long cfg aes data options o h link false i0 i1 i2 i3 _ _ m.version m.device _ _ _ _ block ht hb]
    exact ⟨rfl, rfl, rfl⟩
  | short ci block hci =>
    simp only [SentHeader.bytes, List.cons_append, List.nil_append] at ht
    rw [C87_short cfg aes data options o h link ci _ _ _ _ block hci ht]
    exact ⟨rfl, rfl, rfl⟩
  | shortEll cc acc ci block hci =>
    rw [(C87_ell_one cfg aes data options o h link cc acc _ ht).2 ci hd.access hd.status.byte _ _ block hci rfl]
    exact ⟨rfl, rfl, rfl⟩

theorem header_json (cfg : Cfg) (env : TextEnv) (aes : AesBlock) (data : List UInt8) (options : DecodeOptions)
    (henv : ∀ bits, FiniteReal bits → NumberText (env.realText bits)) (o : DecodedOutput)
    (h : decodeBytes cfg aes data options = .ok o) (hd : SentHeader) (source : String) (hs : HasHeader hd source data)
    (Says : List Char → Prop) (hsays : Says (statusDisplay hd.status.byte)) :
    JsonHeader Says hd source (renderJson env o) ∧ JsonHeader Says hd source (compactJson (o.doc env)) := by
  obtain ⟨e1, e2, e3⟩ := C143_decoded cfg aes data options o h hd source hs
  obtain ⟨d, h1, h2, -, h4⟩ := C112_json cfg env aes data options o henv h
  have a0 := h4.elements ([.key "transport", .key "access_numbers"], _) (by
    unfold telegramLists; exact List.mem_cons_of_mem _ (List.mem_cons_of_mem _ (List.mem_cons_of_mem _ List.mem_cons_self)))
    0 (by simp [e1])
  have a1 := h4.ends ([.key "transport", .key "access_numbers"], _) (by
    unfold telegramLists; exact List.mem_cons_of_mem _ (List.mem_cons_of_mem _ (List.mem_cons_of_mem _ List.mem_cons_self)))
    1 (by simp [e1])
  have s0 := h4.elements ([.key "transport", .key "statuses"], _) (by
    unfold telegramLists; exact List.mem_cons_of_mem _ (List.mem_cons_of_mem _ (List.mem_cons_of_mem _
      (List.mem_cons_of_mem _ List.mem_cons_self)))) 0 (by simp [e2])
  have s1 := h4.ends ([.key "transport", .key "statuses"], _) (by
    unfold telegramLists; exact List.mem_cons_of_mem _ (List.mem_cons_of_mem _ (List.mem_cons_of_mem _
      (List.mem_cons_of_mem _ List.mem_cons_self)))) 1 (by simp [e2])
  have c0 := h4.fields ([.key "transport", .key "configuration", .key "source"],
    o.transport.configuration.map (Doc.str ·.1)) (by simp [telegramFields])
  have c1 := h4.fields ([.key "transport", .key "configuration", .key "raw"],
    o.transport.configuration.map (Doc.str ·.2)) (by simp [telegramFields])
  simp only [e1, e2, e3, List.map_cons, List.map_nil, List.getElem_cons_zero, List.forall_mem_cons, List.cons_append,
    List.nil_append, Option.map_some] at a0 a1 s0 s1 c0 c1
  have hw := s0.2.2.1
  exact ⟨⟨d, fun d' => ⟨fun h => json_eq h h1, fun h => h ▸ h1⟩, ⟨a0.1, a0.2.1, a1⟩, ⟨s0.1, s0.2.1, ⟨_, hw, hsays⟩, s1⟩, c0, c1⟩,
    ⟨d, fun d' => ⟨fun h => json_eq h h2, fun h => h ▸ h2⟩, ⟨a0.1, a0.2.1, a1⟩, ⟨s0.1, s0.2.1, ⟨_, hw, hsays⟩, s1⟩, c0, c1⟩⟩

theorem header_csv (cfg : Cfg) (env : TextEnv) (aes : AesBlock) (data : List UInt8) (options : DecodeOptions)
    (o : DecodedOutput) (h : decodeBytes cfg aes data options = .ok o) (hd : SentHeader) (source : String)
    (hs : HasHeader hd source data) : ∃ text, renderCsv env o = some text ∧ CsvHeader hd source text := by
  obtain ⟨e1, e2, -⟩ := C143_decoded cfg aes data options o h hd source hs
  have hx : (o.records.map (·.index)).Nodup := C89_indices cfg aes data options o h ▸ List.nodup_range
  obtain ⟨text, e, g⟩ := C113_csv env o
  obtain ⟨h1, h2⟩ := C92_rows env o
  have k := fun n v hv => C92_frame env o hx n v hv
  refine ⟨text, e, _, _, g, C92_distinct env o hx, h2.trans h1.symm, k "access_numbers" _ ?_, k "status_codes" _ ?_⟩ <;>
    simp [frameColumns, e1, e2]

theorem header_everywhere (cfg : Cfg) (env : CliEnv) (aes : AesBlock) (text : List Char) (data : List UInt8)
    (keyText : Option (List Char)) (key : Option (List UInt8)) (enrichment : Bool) (hd : SentHeader) (source : String)
    (henv : ∀ bits, FiniteReal bits → NumberText (env.front.text.realText bits))
    (hx : Spelled text data) (hk : KeyGiven keyText key) (hs : HasHeader hd source data)
    (h : ∃ o, decodeBytes cfg aes data ⟨key, enrichment⟩ = .ok o) (Says : List Char → Prop)
    (hsays : Says (statusDisplay hd.status.byte)) :
    AnsweredWell cfg env aes text keyText enrichment "json" (JsonHeader Says hd source) ∧
      ∃ out, pyParse cfg env.front aes (.text text) (keyText.map .text) enrichment = .ok out ∧
        JsonHeader Says hd source out := by
  obtain ⟨o, ho⟩ := h
  obtain ⟨j1, j2⟩ := header_json cfg env.front.text aes data _ henv o ho hd source hs Says hsays
  refine ⟨answered_well cfg env aes text data keyText key enrichment "json" .json (by decide +kernel) _ hx hk
    (fun width => ⟨_, by simp [renderBytes, ho, renderDecoded, Res.mapErr], j1⟩), _, ?_, j2⟩
  have hp : pyKey (keyText.map .text) = .ok key := by
    cases hk with
    | none => rfl
    | key t k hkt => exact (C115_same_key t k (((C115_cli_key t).1 k).2 hkt)).2.1
  simp [pyParse, pyBytes_text, (decode_iff text data).2 hx, hp, ho, Res.mapErr]

/-- C143: the header a meter sends is in the JSON texts of the command line program, JavaScript and Python: its access
number, the code of its status, the words of exactly the alarms and flags raised, and its configuration.  Missing: the
states of the application, see `C143_application_fails`; here the application reports no error. -/
theorem C143_json_partial (cfg : Cfg) (env : CliEnv) (aes : AesBlock) (text : List Char) (data : List UInt8)
    (keyText : Option (List Char)) (key : Option (List UInt8)) (enrichment : Bool) (hd : SentHeader) (source : String)
    (henv : ∀ bits, FiniteReal bits → NumberText (env.front.text.realText bits))
    (hx : Spelled text data) (hk : KeyGiven keyText key) (hs : HasHeader hd source data)
    (h : ∃ o, decodeBytes cfg aes data ⟨key, enrichment⟩ = .ok o) (ha : hd.status.application = 0) :
    AnsweredWell cfg env aes text keyText enrichment "json" (JsonHeader (SaysAlarms hd.status) hd source) ∧
      ∃ out, pyParse cfg env.front aes (.text text) (keyText.map .text) enrichment = .ok out ∧
        JsonHeader (SaysAlarms hd.status) hd source out := by
  refine header_everywhere cfg env aes text data keyText key enrichment hd source henv hx hk hs h _ ?_
  rw [header_words, SaysAlarms, ha]
  simp only [Fin.val_zero, true_and]
  rfl

/-- C143: whatever the application reports, an alarm or flag is among the words separated by commas exactly if it is
raised. -/
theorem C143_alarms (cfg : Cfg) (env : CliEnv) (aes : AesBlock) (text : List Char) (data : List UInt8)
    (keyText : Option (List Char)) (key : Option (List UInt8)) (enrichment : Bool) (hd : SentHeader) (source : String)
    (henv : ∀ bits, FiniteReal bits → NumberText (env.front.text.realText bits))
    (hx : Spelled text data) (hk : KeyGiven keyText key) (hs : HasHeader hd source data)
    (h : ∃ o, decodeBytes cfg aes data ⟨key, enrichment⟩ = .ok o) :
    AnsweredWell cfg env aes text keyText enrichment "json" (JsonHeader (fun t => ∃ words, t = commaSeparated words ∧
      ∀ w ∈ ["Power low", "Permanent error", "Temporary error", "Manufacturer specific 1", "Manufacturer specific 2",
        "Manufacturer specific 3"], w ∈ words ↔ w ∈ hd.status.raised) hd source) := by
  refine (header_everywhere cfg env aes text data keyText key enrichment hd source henv hx hk hs h _ ?_).1
  obtain ⟨acc, s, conf⟩ := hd
  simp only
  by_cases h0 : s.application.val = 0 ∧ s.raised = []
  · refine ⟨["No Error(s)"], by rw [header_words, if_pos h0]; decide +kernel, ?_⟩
    rw [h0.2]
    decide +kernel
  · refine ⟨_, by rw [header_words, if_neg h0], ?_⟩
    intro w hw
    have h1 : w ≠ "Counter binary signed" ∧ w ≠ "Counter fixed date" := by
      revert w
      decide +kernel
    simp only [List.mem_append, List.mem_filter, List.mem_singleton, h1.1, h1.2, false_and, false_or]

/-- C143 is false of the states of the application: the text of a meter that says no more than that it is busy, or than
that its application has failed, names neither; it names properties of the counters of the fixed data structure. -/
theorem C143_application_fails (cfg : Cfg) (aes : AesBlock) (data : List UInt8) (options : DecodeOptions)
    (o : DecodedOutput) (h : decodeBytes cfg aes data options = .ok o) (hd : SentHeader) (source : String)
    (hs : HasHeader hd source data) :
    (hd.status = ⟨1, false, false, false, false, false, false⟩ →
      o.transport.statuses.map (·.display) = ["Counter binary signed".toList]) ∧
    (hd.status = ⟨2, false, false, false, false, false, false⟩ →
      o.transport.statuses.map (·.display) = ["Counter fixed date".toList]) := by
  obtain ⟨-, e, -⟩ := C143_decoded cfg aes data options o h hd source hs
  rw [e]
  simp only [List.map_cons, List.map_nil]
  constructor <;> intro hb <;> rw [hb] <;> decide +kernel

/-- C143 for the CSV texts: the access number and the code of the status. -/
theorem C143_csv (cfg : Cfg) (env : CliEnv) (aes : AesBlock) (text : List Char) (data : List UInt8)
    (keyText : Option (List Char)) (key : Option (List UInt8)) (enrichment : Bool) (hd : SentHeader) (source : String)
    (hx : Spelled text data) (hk : KeyGiven keyText key) (hs : HasHeader hd source data)
    (h : ∃ o, decodeBytes cfg aes data ⟨key, enrichment⟩ = .ok o) :
    AnsweredWell cfg env aes text keyText enrichment "csv" (CsvHeader hd source) := by
  obtain ⟨o, ho⟩ := h
  obtain ⟨out, j1, j2⟩ := header_csv cfg env.front.text aes data _ o ho hd source hs
  exact answered_well cfg env aes text data keyText key enrichment "csv" .csv (by decide +kernel) _ hx hk
    (fun width => ⟨out, by simp [renderBytes, ho, renderDecoded, Res.mapErr, j1], j2⟩)

theorem hexDigits_two (a b : UInt8) (h : hexDigits 2 a.toNat = hexDigits 2 b.toNat) : a = b := by
  have key : ∀ b : UInt8, (hexDigits 2 b.toNat).foldl (fun n c => 16 * n + "0123456789ABCDEF".toList.idxOf c) 0 = b.toNat := by
    decide +kernel
  have := key a
  rw [h, key b] at this
  exact UInt8.toNat_inj.1 this.symm

theorem status_byte_injective (s t : SentStatus) (h : s.byte = t.byte) : s = t := by
  have key : ∀ a b1 b2 b3 b4 b5 b6, let n := (SentStatus.mk a b1 b2 b3 b4 b5 b6).byte.toNat
      SentStatus.mk (Fin.ofNat 4 n) (n.testBit 2) (n.testBit 3) (n.testBit 4) (n.testBit 5) (n.testBit 6) (n.testBit 7) =
        SentStatus.mk a b1 b2 b3 b4 b5 b6 := by decide +kernel
  obtain ⟨a, b1, b2, b3, b4, b5, b6⟩ := s
  have k1 := key a b1 b2 b3 b4 b5 b6
  rw [h] at k1
  obtain ⟨a', c1, c2, c3, c4, c5, c6⟩ := t
  have k2 := key a' c1 c2 c3 c4 c5 c6
  exact k1.symm.trans k2

/-- C143: the reader of a JSON text knows the access number and everything in the status byte, the state of the
application included, from the code. -/
theorem C143_one_status (Says Says' : List Char → Prop) (hd hd' : SentHeader) (source source' : String) (text : List Char)
    (h : JsonHeader Says hd source text) (h' : JsonHeader Says' hd' source' text) :
    hd.access = hd'.access ∧ hd.status = hd'.status := by
  obtain ⟨d, h0, ⟨-, h1, -⟩, ⟨-, h2, -⟩, -⟩ := h
  obtain ⟨d', g0, ⟨-, g1, -⟩, ⟨-, g2, -⟩, -⟩ := h'
  cases (h0 d').1 ((g0 d').2 rfl)
  rw [h1] at g1
  rw [h2] at g2
  simp only [Option.some.injEq, Doc.str.injEq] at g2
  refine ⟨?_, status_byte_injective _ _ (hexDigits_two _ _ g2)⟩
  simp only [number, Option.some.injEq, Doc.num.injEq] at g1
  have := congrArg natOf g1
  rw [natOf_decimal, natOf_decimal] at this
  exact UInt8.toNat_inj.1 this

/-- A wired telegram with the given status byte. -/
def alarmWired (status : UInt8) : List UInt8 :=
  longFrameBytes 0x68 0x08 0x05
    ([0x72, 0x78, 0x56, 0x34, 0x12, 0x93, 0x15, 0x33, 0x03, 0x2A, status, 0x00, 0x00] ++ sentData)

theorem sent_status_telegram : Telegram (alarmWired 0x0C) none
    (0x72 :: headerAddress ⟨12345678, 5, 12, 19, 0x33, 0x03⟩ ++
      (SentHeader.mk 0x2A ⟨0, true, true, false, false, false, false⟩ 0).bytes ++ sentData) := by
  have e : 0x72 :: headerAddress ⟨12345678, 5, 12, 19, 0x33, 0x03⟩ ++
      (SentHeader.mk 0x2A ⟨0, true, true, false, false, false, false⟩ 0).bytes ++ sentData =
      [0x72, 0x78, 0x56, 0x34, 0x12, 0x93, 0x15, 0x33, 0x03, 0x2A, 0x0C, 0x00, 0] ++ sentData := by decide +kernel
  rw [e]
  exact wired_telegram _ _ (.rspUd false false) (.primary 5) (by decide +kernel)

/-- A meter with low power and a permanent error, in a wired telegram, typed as pairs of digits. -/
example (cfg : Cfg) (front : FrontEnv) (hf : front.text = sampleEnv) (aes : AesBlock) (enrichment : Bool) :
    AnsweredWell cfg (oneFile front "t.hex".toList []) aes (hexString (alarmWired 0x0C)) none enrichment "json"
      (JsonHeader (fun t => t = "Power low, Permanent error".toList)
        ⟨0x2A, ⟨0, true, true, false, false, false, false⟩, 0⟩ "tpl.long") := by
  obtain ⟨o, ho, -⟩ := C123_clear_partial cfg aes _ none _ sentData ⟨none, enrichment⟩ sentReadings
    (wired_telegram (alarmWired 0x0C)
      ([0x72, 0x78, 0x56, 0x34, 0x12, 0x93, 0x15, 0x33, 0x03, 0x2A, 0x0C, 0x00, 0] ++ sentData)
      (.rspUd false false) (.primary 5) (by decide +kernel))
    (.long false 0x78 0x56 0x34 0x12 0x93 0x15 0x33 0x03 0x2A 0x0C 0x00 0 _ (by decide +kernel) (by decide))
    sent_example (by decide +kernel)
  have key := (C143_json_partial cfg (oneFile front "t.hex".toList []) aes (hexString (alarmWired 0x0C)) (alarmWired 0x0C) none none enrichment
    ⟨0x2A, ⟨0, true, true, false, false, false, false⟩, 0⟩ "tpl.long"
    (by intro bits h; show NumberText (front.text.realText bits); rw [hf]; exact sampleEnv_numbers bits h)
    ((decode_iff _ _).1 (by decide +kernel)) .none ⟨none, _, sent_status_telegram, .long _ sentData⟩ ⟨o, ho⟩ rfl).1
  have e : SaysAlarms ⟨0, true, true, false, false, false, false⟩ = fun t => t = "Power low, Permanent error".toList := by
    funext t
    have : (if (SentStatus.mk 0 true true false false false false).raised = [] then "No Error(s)".toList
        else commaSeparated (SentStatus.mk 0 true true false false false false).raised) =
        "Power low, Permanent error".toList := by decide +kernel
    rw [SaysAlarms, this]
  rw [← e]
  exact key

/-- A busy meter: `C143_application_fails` is about telegrams that exist. -/
example (cfg : Cfg) (aes : AesBlock) : ∃ o, decodeBytes cfg aes (alarmWired 0x01) ⟨none, true⟩ = .ok o ∧
    o.transport.statuses.map (·.display) = ["Counter binary signed".toList] := by
  have ht := wired_telegram (alarmWired 0x01)
    ([0x72, 0x78, 0x56, 0x34, 0x12, 0x93, 0x15, 0x33, 0x03, 0x2A, 0x01, 0x00, 0] ++ sentData)
    (.rspUd false false) (.primary 5) (by decide +kernel)
  obtain ⟨o, ho, -⟩ := C123_clear_partial cfg aes _ none _ sentData ⟨none, true⟩ sentReadings ht
    (.long false 0x78 0x56 0x34 0x12 0x93 0x15 0x33 0x03 0x2A 0x01 0x00 0 _ (by decide +kernel) (by decide))
    sent_example (by decide +kernel)
  have e : 0x72 :: headerAddress ⟨12345678, 5, 12, 19, 0x33, 0x03⟩ ++
      (SentHeader.mk 0x2A ⟨1, false, false, false, false, false, false⟩ 0).bytes ++ sentData =
      [0x72, 0x78, 0x56, 0x34, 0x12, 0x93, 0x15, 0x33, 0x03, 0x2A, 0x01, 0x00, 0] ++ sentData := by decide +kernel
  rw [← e] at ht
  exact ⟨o, ho, (C143_application_fails cfg aes _ _ o ho ⟨0x2A, ⟨1, false, false, false, false, false, false⟩, 0⟩ "tpl.long"
    ⟨none, _, ht, .long _ sentData⟩).1 rfl⟩

end MBus
