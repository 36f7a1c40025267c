import Verif.Spec.OlderLink
import Verif.Props.SentLink
import Verif.Props.LegacyJson
import Verif.Props.LegacyDiagramText
import Verif.Props.CsvText
/-!
# C165: the older outputs show how a telegram is framed
-/
namespace MBus
open MBus.Spec

/-! ## Words -/

/-- The control fields of services that the library has names for but does not read. -/
def unread : List UInt8 := [0x46, 0x47, 0x48, 0x06]

theorem older_named (c : UInt8) (fn : Function) (h : FunctionCode c fn) : some fn.display = olderService c := by
  cases h <;> decide +kernel

theorem codes_known (c : UInt8) (h : ∀ fn, ¬ FunctionCode c fn) :
    c ∉ ([0x40, 0x44, 0x53, 0x73, 0x5A, 0x7A, 0x5B, 0x7B, 0x08, 0x18, 0x28, 0x38] : List UInt8) := by
  intro hm
  simp only [List.mem_cons, List.not_mem_nil, or_false] at hm
  rcases hm with rfl | rfl | rfl | rfl | rfl | rfl | rfl | rfl | rfl | rfl | rfl | rfl
  exacts [h _ .sndNk, h _ .sndNr, h _ .sndUd0, h _ .sndUd1, h _ .reqUd1_0, h _ .reqUd1_1, h _ .reqUd2_0, h _ .reqUd2_1,
    h _ .rspUd00, h _ .rspUd01, h _ .rspUd10, h _ .rspUd11]

theorem older_unnamed (c : UInt8) (h : ∀ fn, ¬ FunctionCode c fn) (hc : c ∉ unread) : olderServices.lookup c.toNat = none := by
  have key : ∀ c : UInt8, c ∉ unread →
      c ∉ ([0x40, 0x44, 0x53, 0x73, 0x5A, 0x7A, 0x5B, 0x7B, 0x08, 0x18, 0x28, 0x38] : List UInt8) →
      olderServices.lookup c.toNat = none := by decide +kernel
  exact key c hc (codes_known c h)

theorem wireless_word (c : UInt8) (fn : Function) (h : FunctionCode c fn) (hc : c ≠ 0x40) :
    functionDebug (some fn) = wirelessService c := by
  cases h <;> first | exact absurd rfl hc | decide +kernel

theorem device_word (b : UInt8) : (DeviceType.fromByte b).debug = olderDevice b := by
  have key : ∀ b : UInt8, (DeviceType.fromByte b).debug = olderDevice b := by decide +kernel
  exact key b

theorem unquoted_function (c : UInt8) (fn : Function) (h : FunctionCode c fn) : Unquoted fn.display := by
  cases h <;> decide +kernel

theorem unquoted_address (a : UInt8) : Unquoted (addressOf a).display := by
  have key : ∀ a : UInt8, Unquoted (addressOf a).display := by decide +kernel
  exact key a

/-! ## The summary -/

theorem apply_head (s : FrameSummary) (u : Option UserDataBlock) :
    (applyUserDataSummary s u).frameType = s.frameType ∧ (applyUserDataSummary s u).function = s.function ∧
      (applyUserDataSummary s u).address = s.address := by
  unfold applyUserDataSummary
  split <;> exact ⟨rfl, rfl, rfl⟩

theorem final_head (cfg : Cfg) (rt : UInt32 → List Char) (s t : FrameSummary) (r : Option DataRecords)
    (u : Option UserDataBlock) (e d : Bool) (h : finalizeSummary cfg rt s r u e d = .ok t) :
    t.frameType = s.frameType ∧ t.function = s.function ∧ t.address = s.address := by
  unfold finalizeSummary at h
  simp only at h
  split at h
  · cases h; exact ⟨rfl, rfl, rfl⟩
  · split at h
    · rw [Res.bind_eq_ok] at h
      obtain ⟨_, _, h⟩ := h
      cases h; exact ⟨rfl, rfl, rfl⟩
    · cases h; exact ⟨rfl, rfl, rfl⟩

theorem build_head {F : Type} (cfg : Cfg) (m : MbusData F) (s : FrameSummary) (p : ParsedOutput)
    (h : buildParsed cfg m s = .ok p) : p.summary = s := by
  unfold buildParsed at h
  split at h
  · cases h; rfl
  · split at h <;> cases h
    rfl

theorem decrypted_frame (aes : AesBlock) (key : Option (List UInt8)) (m : MbusData WiredFrame)
    (q : MbusData WiredFrame × Bool) (h : legacyDecryptWired aes key m = .ok q) : q.1.frame = m.frame := by
  unfold legacyDecryptWired at h
  repeat' split at h
  all_goals cases h
  all_goals rfl

theorem decrypted_wireless (aes : AesBlock) (key : Option (List UInt8)) (m : MbusData WirelessFrame)
    (q : MbusData WirelessFrame × Bool) (h : legacyDecryptWireless aes key m = .ok q) : q.1.frame = m.frame := by
  unfold legacyDecryptWireless at h
  repeat' split at h
  all_goals cases h
  all_goals rfl

theorem wired_head (cfg : Cfg) (rt : UInt32 → List Char) (aes : AesBlock) (data : List UInt8)
    (key : Option (List UInt8)) (p : ParsedOutput) (h : parseFrameOutput cfg rt aes data key = .ok p) (g : WiredFrame)
    (hg : WiredTelegram data g) : p.summary.frameType = (wiredSummaryHead g).frameType ∧
      p.summary.function = (wiredSummaryHead g).function ∧ p.summary.address = (wiredSummaryHead g).address := by
  have hx := (C01_wired_accepts_exactly_telegrams cfg _ g).2 hg
  obtain ⟨m, hm, rfl⟩ := (C37_frame_delivered_wired cfg _).2.2 g hx
  unfold parseFrameOutput at h
  rw [hm] at h
  simp only at h
  unfold legacyWired at h
  rw [Res.bind_eq_ok] at h
  obtain ⟨q, hq, h⟩ := h
  rw [Res.bind_eq_ok] at h
  obtain ⟨s, hs, h⟩ := h
  rw [build_head _ _ _ _ h]
  unfold summarizeWired at hs
  obtain ⟨a1, a2, a3⟩ := final_head _ _ _ _ _ _ _ _ hs
  obtain ⟨b1, b2, b3⟩ := apply_head (wiredSummaryHead q.1.frame) q.1.userData
  rw [decrypted_frame _ _ _ _ hq] at b1 b2 b3 a1 a2 a3
  exact ⟨a1.trans b1, a2.trans b2, a3.trans b3⟩

theorem wireless_head (cfg : Cfg) (rt : UInt32 → List Char) (aes : AesBlock) (data frame : List UInt8)
    (key : Option (List UInt8)) (p : ParsedOutput) (h : parseFrameOutput cfg rt aes data key = .ok p) (f : WirelessFrame)
    (hw : ∀ g, ¬ WiredTelegram data g) (hn : Normalized data frame) (hf : WirelessTelegram frame f) :
    p.summary.frameType = "Wireless".toList ∧ p.summary.function = f.function.map Function.display ∧
      p.summary.address = none := by
  have hx := (C12_wireless_accepts_exactly_telegrams frame f).2 hf
  obtain ⟨m, hm, rfl, -⟩ := (C37_wireless frame).2 f hx
  unfold parseFrameOutput at h
  cases hv : MbusData.tryFromWired cfg data with
  | panic => rw [hv] at h; cases h
  | ok r =>
    exfalso
    unfold MbusData.tryFromWired at hv
    rw [Res.bind_eq_ok] at hv
    obtain ⟨g, hg, -⟩ := hv
    exact hw g ((C01_wired_accepts_exactly_telegrams cfg _ g).1 hg)
  | err e =>
    rw [hv, (withoutFormatA_iff _ _).2 hn] at h
    simp only [Res.bind_ok, hm] at h
    unfold legacyWireless at h
    rw [Res.bind_eq_ok] at h
    obtain ⟨q, hq, h⟩ := h
    rw [Res.bind_eq_ok] at h
    obtain ⟨s, hs, h⟩ := h
    rw [build_head _ _ _ _ h]
    unfold summarizeWireless at hs
    obtain ⟨a1, a2, a3⟩ := final_head _ _ _ _ _ _ _ _ hs
    obtain ⟨b1, b2, b3⟩ := apply_head (wirelessSummaryHead q.1.frame) q.1.userData
    rw [decrypted_wireless _ _ _ _ hq] at b1 b2 b3 a1 a2 a3
    exact ⟨a1.trans b1, a2.trans b2, a3.trans b3⟩

/-- C165 for the summary: its frame type, function and address are those sent.  Missing: the control fields of `unread`,
see `C165_fails`. -/
theorem C165_summary_partial (cfg : Cfg) (rt : UInt32 → List Char) (aes : AesBlock) (data : List UInt8)
    (key : Option (List UInt8)) (p : ParsedOutput) (h : parseFrameOutput cfg rt aes data key = .ok p) (link : SentLink)
    (hl : FramedAs data link) (hc : ∀ c ∈ link.control, c ∉ unread) :
    p.summary.frameType = olderKind link.kind ∧ p.summary.function = link.control.bind olderService ∧
      p.summary.address = link.address.map addressText := by
  cases hl with
  | single rest hd =>
    have hg : WiredTelegram data (.singleCharacter 0xE5) := by rw [hd]; exact .single rest
    obtain ⟨h1, h2, h3⟩ := wired_head cfg rt aes data key p h _ hg
    exact ⟨h1.trans (by show _ = olderKind "single_character"; decide +kernel), h2, h3⟩
  | short c a fn hf hd =>
    have hg : WiredTelegram data (.shortFrame fn (addressOf a)) := by rw [hd]; exact .short c a fn hf
    obtain ⟨h1, h2, h3⟩ := wired_head cfg rt aes data key p h _ hg
    exact ⟨h1.trans (by simp only [wiredSummaryHead]; decide +kernel), h2.trans (older_named c fn hf),
      h3.trans (congrArg some (addressField_text a))⟩
  | long x c a payload fn hf hp hd =>
    by_cases hx : c = 0x53
    · subst hx
      cases hf
      have hg : WiredTelegram data (.controlFrame (.sndUd false) (addressOf a) payload) := by
        rw [hd]; exact .control x a payload hp
      obtain ⟨h1, h2, h3⟩ := wired_head cfg rt aes data key p h _ hg
      exact ⟨h1.trans (by simp only [wiredSummaryHead]; decide +kernel), h2.trans (older_named 0x53 _ .sndUd0),
        h3.trans (congrArg some (addressField_text a))⟩
    · have hg : WiredTelegram data (.longFrame fn (addressOf a) payload) := by
        rw [hd]; exact .long x c a payload fn hf hx hp
      obtain ⟨h1, h2, h3⟩ := wired_head cfg rt aes data key p h _ hg
      refine ⟨h1.trans ?_, h2.trans (older_named c fn hf), h3.trans (congrArg some (addressField_text a))⟩
      simp only [wiredSummaryHead, if_neg hx]
      decide +kernel
  | wireless l c rest f hn hf hw =>
    obtain ⟨h1, h2, h3⟩ := wireless_head cfg rt aes data _ key p h f hn hf hw
    refine ⟨h1.trans (by show _ = olderKind "wireless"; decide +kernel), h2.trans ?_, h3⟩
    have hc' := hc c rfl
    cases hw with
    | mk l c m0 m1 d0 d1 d2 d3 ver dev ci rest payload i j k fn hl hfn =>
      cases fn with
      | some g => exact older_named c g ((hfn g).1 rfl)
      | none =>
        have : olderServices.lookup c.toNat = none :=
          older_unnamed c (fun fn h => by cases (hfn fn).2 h) hc'
        simp [olderService, this]

/-- C165: `csv-wide` shows the link layer of every telegram it shows. -/
theorem C165_csv_partial (cfg : Cfg) (env : FrontEnv) (older : OlderEnv) (aes : AesBlock) (input : List Char)
    (key : Option (List UInt8)) (p : ParsedOutput)
    (h : parseFrameOutput cfg env.text.realDisplay aes (cleanAndConvert input) key = .ok p) (link : SentLink)
    (hl : FramedAs (cleanAndConvert input) link) (hc : ∀ c ∈ link.control, c ∉ unread) :
    ∃ text, serializeMbusData cfg env older aes input "csv-wide".toList key = .ok text ∧ OlderCsvLink link text := by
  obtain ⟨h1, h2, h3⟩ := C165_summary_partial cfg _ aes _ key p h link hl hc
  obtain ⟨names, values, e, -, n2, n3, -⟩ := C109_columns cfg _ aes input key p h
  have e' : parseToCsv cfg env.text.realDisplay aes input key = .ok [wideHeaders p.summary, wideRow p.summary] := by
    unfold parseToCsv; rw [h]
  rw [e] at e'
  cases e'
  obtain ⟨text, t1, t2⟩ := C113_wide cfg _ aes input key _ e
  refine ⟨text, ?_, _, _, t2, n3, n2, ?_, ?_, ?_⟩
  · simp (decide := true) only [serializeMbusData, ↓reduceIte, t1]
    rfl
  · rw [← h1]; rfl
  · rw [← h2]; rfl
  · rw [← h3]; rfl

/-- C165 for `json-legacy`. -/
theorem C165_json_partial (cfg : Cfg) (env : FrontEnv) (older : OlderEnv) (aes : AesBlock) (input : List Char)
    (key : Option (List UInt8)) (hlit : PrintsLiterals older.literal) (p : ParsedOutput)
    (h : parseFrameOutput cfg env.text.realDisplay aes (cleanAndConvert input) key = .ok p) (link : SentLink)
    (hl : FramedAs (cleanAndConvert input) link) (hc : ∀ c ∈ link.control, c ∉ unread) :
    ∃ text, serializeMbusData cfg env older aes input "json-legacy".toList key = .ok text ∧ OlderJsonLink link text := by
  obtain ⟨h1, h2, h3⟩ := C165_summary_partial cfg _ aes _ key p h link hl hc
  obtain ⟨text, t1, -, t3⟩ := older_reads cfg env older aes input key hlit p h [] (by intro f hf; cases hf)
    (olderFrame_sound cfg _)
  obtain ⟨d, d1, -, -⟩ := C137_json cfg env older aes input key hlit text t1
  obtain ⟨-, s⟩ := t3 d ((d1 d).2 rfl)
  refine ⟨text, t1, d, d1, ?_, ?_, ?_⟩
  · rw [← h1]
    exact s.summary ([.key "summary", .key "frame_type"], _) (by simp [below, summaryShown])
  · rw [← h2]
    exact s.summary ([.key "summary", .key "function"], p.summary.function.map Doc.str) (by simp [below, summaryShown])
  · have := s.summary ([.key "summary", .key "address"], p.summary.address.map Doc.str) (by simp [below, summaryShown])
    rw [h3] at this
    simpa [Option.map_map, Function.comp_def] using this

/-! ## The diagrams -/

/-- C165: the older diagram shows the link layer of every telegram.  Missing: the control fields of `unread`, and 40 in
wireless telegrams. -/
theorem C165_diagram_partial (cfg : Cfg) (rt : UInt32 → List Char) (data : List UInt8) (ls : List DiagramLine)
    (h : mermaidOld cfg rt data = .ok ls) (link : SentLink) (hl : FramedAs data link)
    (hc : ∀ c ∈ link.control, c ∉ unread) (h40 : link.protocol = "wireless" → link.control ≠ some 0x40) :
    ∀ l ∈ olderLabels link, l ∈ ls.filterMap oldLabel := by
  cases hl with
  | single rest hd =>
    have hg : WiredTelegram data (.singleCharacter 0xE5) := by rw [hd]; exact .single rest
    rw [(C111_small cfg rt data ls h).2.2 _ hg]
    show ∀ l ∈ [olderTitle "single_character"], _
    decide +kernel
  | short c a fn hf hd =>
    have hg : WiredTelegram data (.shortFrame fn (addressOf a)) := by rw [hd]; exact .short c a fn hf
    rw [(C111_small cfg rt data ls h).1 _ _ hg, escape_plain (unquoted_function c fn hf), escape_plain (unquoted_address a),
      addressField_text]
    unfold olderLabels
    simp only [Option.bind_some, ← older_named c fn hf]
    intro l hl
    simpa [olderTitle, olderKinds, List.lookup] using hl
  | long x c a payload fn hf hp hd =>
    by_cases hx : c = 0x53
    · subst hx
      cases hf
      have hg : WiredTelegram data (.controlFrame (.sndUd false) (addressOf a) payload) := by
        rw [hd]; exact .control x a payload hp
      rw [(C111_small cfg rt data ls h).2.1 _ _ _ hg, escape_plain (unquoted_function _ _ .sndUd0),
        escape_plain (unquoted_address a), addressField_text]
      unfold olderLabels
      simp only [Option.bind_some, ← older_named _ _ .sndUd0]
      intro l hl
      simpa [olderTitle, olderKinds, List.lookup] using hl
    · have hg : WiredTelegram data (.longFrame fn (addressOf a) payload) := by
        rw [hd]; exact .long x c a payload fn hf hx hp
      have key := C111_frame cfg rt data fn _ payload ls hg h
      rw [escape_plain (unquoted_function c fn hf), escape_plain (unquoted_address a), addressField_text] at key
      unfold olderLabels
      simp only [Option.bind_some, ← older_named c fn hf, if_neg hx]
      intro l hl
      refine key l ?_
      simpa [olderTitle, olderKinds, List.lookup] using hl
  | wireless l c rest f hn hf hw =>
    have key := (C111_wireless cfg rt data _ f ls hn hf hw h).1
    have hc' := hc c rfl
    have h40' : c ≠ 0x40 := fun e => h40 rfl (by rw [e])
    have e : functionDebug f.function = wirelessService c := by
      cases hw with
      | mk l c m0 m1 d0 d1 d2 d3 ver dev ci rest payload i j k fn hl hfn =>
        cases fn with
        | some g => exact wireless_word c g ((hfn g).1 rfl) h40'
        | none =>
          have : olderServices.lookup c.toNat = none :=
            older_unnamed c (fun fn h => by cases (hfn fn).2 h) hc'
          simp [wirelessService, this, functionDebug]
    rw [e] at key
    intro l hl
    refine key l ?_
    simp only [olderLabels, olderTitle, olderKinds, List.lookup] at hl
    simp only [List.mem_cons]
    simp at hl
    rcases hl with rfl | rfl
    · left; rfl
    · right; left; rfl

/-- C165: the older diagrams show the device type, after a long header of a wired telegram and from the link layer of a
wireless one (with a CI field in A0 to AF, only the high nibble of its byte counts). -/
theorem C165_device (cfg : Cfg) (rt : UInt32 → List Char) (data : List UInt8) (ls : List DiagramLine)
    (h : mermaidOld cfg rt data = .ok ls) :
    (∀ x c a i0 i1 i2 i3 m0 m1 version device acc st c0 c1 d fn, FunctionCode c fn → c ≠ 0x53 → d.length ≤ 240 →
      AllBcd [i0, i1, i2, i3] →
      data = longFrameBytes x c a ([0x72, i0, i1, i2, i3, m0, m1, version, device, acc, st, c0, c1] ++ d) →
      "Device Type: ".toList ++ olderDevice device ∈ ls.filterMap oldLabel) ∧
    ∀ l c m0 m1 i0 i1 i2 i3 version device ci rest f, (∀ g, ¬ WiredTelegram data g) →
      Normalized data (l :: c :: m0 :: m1 :: i0 :: i1 :: i2 :: i3 :: version :: device :: ci :: rest) →
      WirelessTelegram (l :: c :: m0 :: m1 :: i0 :: i1 :: i2 :: i3 :: version :: device :: ci :: rest) f →
      "Device Type: ".toList ++ olderDevice (deviceByte ci device) ∈ ls.filterMap oldLabel := by
  refine ⟨?_, ?_⟩
  · intro x c a i0 i1 i2 i3 m0 m1 version device acc st c0 c1 d fn hf hx hd hb e
    rw [← device_word]
    refine (C111_device cfg rt data fn (addressOf a) i0 i1 i2 i3 m0 m1 version device acc st c0 c1 d hb ls ?_ h).1 _
      (by simp)
    rw [e]
    exact .long x c a _ fn hf hx (by simp; omega)
  · intro l c m0 m1 i0 i1 i2 i3 version device ci rest f hw hn hf
    rw [← device_word]
    refine (C111_wireless cfg rt data _ f ls hw hn hf h).1 _ ?_
    cases hf
    simp

/-! ## Failures and examples -/

/-- C165 fails for the control fields of `unread`: the summary names no service, whatever the telegram. -/
theorem C165_fails (cfg : Cfg) (rt : UInt32 → List Char) (aes : AesBlock) (data : List UInt8)
    (key : Option (List UInt8)) (p : ParsedOutput) (h : parseFrameOutput cfg rt aes data key = .ok p) (link : SentLink)
    (hl : FramedAs data link) (c : UInt8) (hc : link.control = some c) (hm : c ∈ unread) :
    p.summary.function = none ∧ (olderService c).isSome = true := by
  have hn : ∀ fn, ¬ FunctionCode c fn := by
    intro fn hf
    cases hf <;> exact absurd hm (by decide)
  refine ⟨?_, ?_⟩
  · cases hl with
    | single rest hd => cases hc
    | short c a fn hf hd => cases hc; exact absurd hf (hn fn)
    | long x c a payload fn hf hp hd => cases hc; exact absurd hf (hn fn)
    | wireless l c rest f hn' hf hw =>
      cases hc
      rw [(wireless_head cfg rt aes data _ key p h f hn' hf hw).2.1]
      cases hw with
      | mk l c m0 m1 d0 d1 d2 d3 ver dev ci rest payload i j k fn hl hfn =>
        cases fn with
        | none => rfl
        | some g => exact absurd ((hfn g).1 rfl) (hn g)
  · have key : ∀ c ∈ unread, (olderService c).isSome = true := by decide +kernel
    exact key c hm

/-- A request for data with the address 1. -/
example (cfg : Cfg) (rt : UInt32 → List Char) (aes : AesBlock) :
    ∃ p, parseFrameOutput cfg rt aes [0x10, 0x7B, 0x01, 0x7C, 0x16] none = .ok p ∧
      p.summary.frameType = "ShortFrame".toList ∧ p.summary.function = some "ReqUd2 (FCB: true)".toList ∧
      p.summary.address = some "Primary (1)".toList := by
  obtain ⟨p, hp⟩ : ∃ p, parseFrameOutput cfg rt aes [0x10, 0x7B, 0x01, 0x7C, 0x16] none = .ok p :=
    ⟨_, by obtain ⟨oc, tf⟩ := cfg; cases oc <;> rfl⟩
  obtain ⟨h1, h2, h3⟩ := C165_summary_partial cfg rt aes _ none p hp _ (.short 0x7B 1 _ .reqUd2_1 (by decide))
    (by intro c hc; cases hc; decide)
  exact ⟨p, hp, h1.trans (by decide +kernel), h2.trans (by decide +kernel), h3.trans (by decide +kernel)⟩

/-- Its diagram. -/
example (cfg : Cfg) (rt : UInt32 → List Char) : ∃ ls, mermaidOld cfg rt [0x10, 0x7B, 0x01, 0x7C, 0x16] = .ok ls ∧
    "Function: ReqUd2 (FCB: true)".toList ∈ ls.filterMap oldLabel := by
  obtain ⟨ls, hls⟩ : ∃ ls, mermaidOld cfg rt [0x10, 0x7B, 0x01, 0x7C, 0x16] = .ok ls :=
    ⟨_, by obtain ⟨oc, tf⟩ := cfg; cases oc <;> rfl⟩
  exact ⟨ls, hls, C165_diagram_partial cfg rt _ ls hls _ (.short 0x7B 1 _ .reqUd2_1 (by decide))
    (by intro c hc; cases hc; decide) (by intro h; revert h; decide) _ (by decide +kernel)⟩

/-- A wireless telegram for the installation of a water meter: `C165_fails` is about telegrams that exist. -/
example : ∃ p, parseFrameOutput ⟨false, false⟩ (fun _ => []) (fun _ b => b)
      [0x0E, 0x46, 0xE6, 0x1E, 0x78, 0x56, 0x34, 0x12, 0x3C, 0x07, 0x7A, 0x2A, 0x00, 0x00, 0x00] none = .ok p ∧
    p.summary.function = none ∧ p.summary.frameType = "Wireless".toList :=
  checked _ (fun p : ParsedOutput => _ ∧ _) (by decide +kernel)

example : olderDevice 0x03 = "GasMeter".toList ∧ olderDevice 0x22 = "ReservedSwitch(34)".toList := by decide +kernel

end MBus
