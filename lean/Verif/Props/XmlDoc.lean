import Verif.Lemmas.XmlDoc
import Verif.Lemmas.XmlValue
/-!
# C75, C76, C77: the XML document
-/
namespace MBus
open MBus.Spec MBus.Spec.Xml MBus.Xml

/-! ## C75 -/

/-- The user data block of a frame is what the user data parser finds in its payload. -/
theorem ofPayload_block {φ ε : Type} (frame : φ) (payload : List UInt8) (m : MbusData φ)
    (h : MbusData.ofPayload (ε := ε) frame payload = .ok m) (blk : UserDataBlock)
    (hb : m.userData = some blk) : Block payload blk := by
  unfold MbusData.ofPayload at h
  cases hu : UserDataBlock.tryFrom payload with
  | ok b =>
    rw [hu] at h
    cases h
    cases hb
    exact ((tryFrom_iff payload).1 blk).1 hu
  | err e => rw [hu] at h; cases h; cases hb
  | panic => rw [hu] at h; cases h

theorem wired_block (cfg : Cfg) (data : List UInt8) (m : MbusData WiredFrame)
    (h : MbusData.tryFromWired cfg data = .ok m) (blk : UserDataBlock) (hb : m.userData = some blk) :
    ∃ payload, Block payload blk := by
  unfold MbusData.tryFromWired at h
  rw [Res.bind_eq_ok] at h
  obtain ⟨f, _, h⟩ := h
  cases f with
  | longFrame fn a payload => exact ⟨payload, ofPayload_block _ _ m h blk hb⟩
  | _ => cases h; cases hb

theorem wireless_block (data : List UInt8) (m : MbusData WirelessFrame)
    (h : MbusData.tryFromWireless data = .ok m) :
    isCode m.frame.manufacturerId.manufacturerCode ∧
      ∀ blk, m.userData = some blk → ∃ payload, Block payload blk := by
  unfold MbusData.tryFromWireless at h
  rw [Res.bind_eq_ok] at h
  obtain ⟨f, hf, h⟩ := h
  refine ⟨?_, fun blk hb => ⟨_, ofPayload_block _ _ m h blk hb⟩⟩
  have : m.frame = f := by
    unfold MbusData.ofPayload at h
    cases hu : UserDataBlock.tryFrom f.data <;> rw [hu] at h <;> cases h <;> rfl
  rw [this]
  exact wireless_code data f hf

theorem rendered_ok {cfg : Cfg} {records : Option DataRecords} {t text : List Char}
    (h : rendered cfg records t = .ok text) : text = t := by
  unfold rendered at h
  split at h
  · cases h
  · cases h; rfl

theorem withDecrypted_ok {aes : AesBlock} {block : UserDataBlock} {id : Option ManufacturerId}
    {key : List UInt8} {render : List UInt8 → Res XmlError (List Char)} {text : List Char}
    (h : withDecrypted aes block id key render = .ok text) : ∃ data, render data = .ok text := by
  unfold withDecrypted at h
  split at h
  · split at h
    · exact ⟨_, h⟩
    · cases h
  · cases h
  · cases h

theorem variable_noNon {cfg : Cfg} {env : XmlEnv} {header : LongTplHeader} {records : Option DataRecords}
    (h : noNon (renderVariable cfg env header records)) : noNon (renderRecords cfg env records) := by
  unfold renderVariable at h
  exact noNon_mid h

theorem wireless_noNon {cfg : Cfg} {env : XmlEnv} {identity : ManufacturerId} {access status : Option UInt8}
    {signature : Option UInt16} {records : Option DataRecords}
    (h : noNon (renderWirelessVariable cfg env identity access status signature records)) :
    noNon (renderRecords cfg env records) := by
  unfold renderWirelessVariable at h
  exact noNon_mid h

/-- `text` is a well-formed document with the structure of a report. -/
def SomeReport (text : List Char) : Prop := ∃ info records, IsReport text info records

theorem variable_some (cfg : Cfg) (env : XmlEnv) (he : PlainNumbers env) (header : LongTplHeader)
    (hm : ∀ c, header.manufacturer = .ok c → isCode c) (records : Option DataRecords)
    (hr : noNon (renderVariable cfg env header records)) :
    SomeReport (renderVariable cfg env header records) :=
  ⟨_, _, variable_report cfg env he header _ rfl hm records (variable_noNon hr)⟩

theorem optional_some (cfg : Cfg) (env : XmlEnv) (aes : AesBlock) (he : PlainNumbers env)
    (header : LongTplHeader) (hm : ∀ c, header.manufacturer = .ok c → isCode c) (block : UserDataBlock)
    (records : Option DataRecords) (id : Option ManufacturerId) (key : Option (List UInt8))
    (text : List Char)
    (h : renderWithOptionalDecryption cfg env aes header block records id key = .ok text) (ht : noNon text) :
    SomeReport text := by
  unfold renderWithOptionalDecryption at h
  simp only at h
  split at h
  · have := rendered_ok h
    subst this
    exact variable_some cfg env he header hm _ ht
  · split at h
    · have := rendered_ok h
      subst this
      exact variable_some cfg env he header hm _ ht
    · obtain ⟨d, h⟩ := withDecrypted_ok h
      have := rendered_ok h
      subst this
      exact variable_some cfg env he header hm _ ht

theorem report_chars (text : List Char) (info : List Node) (records : List (Nat × List Node))
    (h : IsReport text info records) : noNon text := by
  obtain ⟨children, _, _, ⟨body, rfl, hc⟩, _⟩ := h
  rw [noNon_append]
  exact ⟨by decide +kernel, fun c hc' => (content_chars hc c hc').2⟩

/-- C75, what holds of the statement: a document is well-formed XML with the structure of a report, for every
input, key and cipher, exactly if the characters U+FFFE and U+FFFF do not occur in it.  Missing: texts with these
two characters, see `C75_fails`. -/
theorem C75_well_formed_partial (cfg : Cfg) (env : XmlEnv) (he : PlainNumbers env) (aes : AesBlock)
    (data : List UInt8) (key : Option (List UInt8)) (text : List Char)
    (h : renderFromBytes cfg env aes data key = .ok text) :
    (∃ info records, IsReport text info records) ↔
      ∀ c ∈ text, c ≠ Char.ofNat 0xFFFE ∧ c ≠ Char.ofNat 0xFFFF := by
  have hnon : (∀ c ∈ text, c ≠ Char.ofNat 0xFFFE ∧ c ≠ Char.ofNat 0xFFFF) ↔ noNon text := by
    have e1 : (Char.ofNat 0xFFFE).toNat = 0xFFFE := by decide
    have e2 : (Char.ofNat 0xFFFF).toNat = 0xFFFF := by decide
    refine forall₂_congr (fun c _ => and_congr (not_congr ⟨fun h => h ▸ e1, fun h => ?_⟩)
      (not_congr ⟨fun h => h ▸ e2, fun h => ?_⟩))
    · rw [← Char.ofNat_toNat c, h]
    · rw [← Char.ofNat_toNat c, h]
  rw [hnon]
  refine ⟨fun ⟨_, _, hr⟩ => report_chars _ _ _ hr, fun ht => ?_⟩
  change SomeReport text
  unfold renderFromBytes at h
  split at h
  · cases h
  · rename_i parsed hp
    split at h
    · rename_i ell header block hu
      obtain ⟨payload, hb⟩ := wired_block cfg data parsed hp _ hu
      have hm := block_code payload _ hb ell header block rfl
      split at h
      · have := rendered_ok h
        subst this
        exact variable_some cfg env he header hm _ ht
      · exact optional_some cfg env aes he header hm _ _ _ _ text h ht
    · cases h; exact ⟨_, _, fixed_report _ _ _ _ _ _⟩
    · cases h
  · split at h
    · cases h
    · cases h
    · split at h
      · cases h
      · cases h
      · rename_i parsed hp
        obtain ⟨hid, hblk⟩ := wireless_block _ parsed hp
        have hw : ∀ a s g r, text = renderWirelessVariable cfg env parsed.frame.manufacturerId
            a s g r → SomeReport text := by
          rintro a s g r rfl
          exact ⟨_, _, wireless_report cfg env he _ hid a s g r (wireless_noNon ht)⟩
        unfold renderWireless at h
        simp only at h
        split at h
        · rename_i ell header block hu
          obtain ⟨payload, hb⟩ := hblk _ hu
          exact optional_some cfg env aes he header (block_code payload _ hb ell header block rfl)
            _ _ _ _ text h ht
        · split at h
          · exact hw _ _ _ _ (rendered_ok h)
          · split at h
            · exact hw _ _ _ _ (rendered_ok h)
            · obtain ⟨d, h⟩ := withDecrypted_ok h
              exact hw _ _ _ _ (rendered_ok h)
        · exact hw _ _ _ _ (rendered_ok h)
        · cases h; exact ⟨_, _, fixed_report _ _ _ _ _ _⟩
        · cases h; exact hw _ _ _ _ rfl

/-- C75, the contents: without a key the document of a wired variable data reply contains the
identification of the device and, numbered from 0, one element for each record the library parses. -/
theorem C75_wired_contents_partial (cfg : Cfg) (env : XmlEnv) (he : PlainNumbers env) (aes : AesBlock)
    (data : List UInt8) (parsed : MbusData WiredFrame) (ell : Option ExtendedLinkLayer)
    (header : LongTplHeader) (block : List UInt8) (code : ManufacturerCode) (text : List Char)
    (hp : MbusData.tryFromWired cfg data = .ok parsed)
    (hu : parsed.userData = some (.long ell header block)) (hc : header.manufacturer = .ok code)
    (h : renderFromBytes cfg env aes data none = .ok text) (ht : noNon text) :
    IsReport text
      (identityElements header.identificationNumber (manufacturerText code) header.version
          header.deviceType.toByte
        ++ [leaf "AccessNumber".toList (decimal header.short.accessNumber.toNat),
            leaf "Status".toList (hex2 header.short.status),
            leaf "Signature".toList (signatureText header.short.configurationField.raw)])
      (recordList cfg env parsed.dataRecords) := by
  obtain ⟨payload, hb⟩ := wired_block cfg data parsed hp _ hu
  have hm := block_code payload _ hb ell header block rfl
  unfold renderFromBytes at h
  rw [hp] at h
  simp only [hu] at h
  have := rendered_ok h
  subst this
  exact variable_report cfg env he header (manufacturerText code) (by rw [hc]) hm _ (variable_noNon ht)

/-- C75, the contents of a fixed data reply. -/
theorem C75_fixed_contents (cfg : Cfg) (env : XmlEnv) (aes : AesBlock) (data : List UInt8)
    (key : Option (List UInt8)) (parsed : MbusData WiredFrame) (id : Nat) (access status : UInt8)
    (u : UInt16) (c1 c2 : Nat) (hp : MbusData.tryFromWired cfg data = .ok parsed)
    (hu : parsed.userData = some (.fixed id access status u c1 c2)) :
    ∃ text, renderFromBytes cfg env aes data key = .ok text ∧
      IsReport text
        [leaf "Id".toList (decimal id),
         leaf "Medium".toList (fixedMedium (u >>> 8).toUInt8 (u &&& 0xFF).toUInt8).toList,
         leaf "AccessNumber".toList (decimal access.toNat), leaf "Status".toList (hex2 status)]
        ([((u >>> 8).toUInt8, c1), ((u &&& 0xFF).toUInt8, c2)].zipIdx.map (fun ((unit, c), i) =>
          (i, [leaf "Function".toList
                (if status &&& 0x40 != 0 then "Stored value" else "Actual value").toList,
               leaf "Unit".toList (fixedUnit unit).toList, leaf "Value".toList (decimal c)]))) := by
  refine ⟨_, ?_, fixed_report id access status u c1 c2⟩
  unfold renderFromBytes
  rw [hp]
  simp only [hu]

/-! ### Witnesses -/

/-- `data` is a wired variable data reply with one record, the one with the given header and data. -/
def singleRecord (cfg : Cfg) (data : List UInt8) (raw : RawHeader) (bytes : List UInt8) : Bool :=
  match MbusData.tryFromWired cfg data with
  | .ok m =>
    match m.userData, m.dataRecords with
    | some (.long _ _ _), some s =>
      match s.collect cfg with
      | [.ok r] => decide (r.header.raw = raw ∧
          sliceFrom? r.rawBytes r.header.size = some bytes)
      | _ => false
    | _, _ => false
  | _ => false

theorem singleRecord_render {cfg : Cfg} {data : List UInt8} {raw : RawHeader} {bytes : List UInt8}
    (h : singleRecord cfg data raw bytes = true) (env : XmlEnv) (aes : AesBlock) :
    ∃ r text, r.header.raw = raw ∧ sliceFrom? r.rawBytes r.header.size = some bytes ∧
      renderFromBytes cfg env aes data none = .ok text ∧
      ∀ c ∈ renderVariableRecord env 0 r, c ∈ text := by
  unfold singleRecord at h
  cases hp : MbusData.tryFromWired cfg data with
  | err e => rw [hp] at h; cases h
  | panic => rw [hp] at h; cases h
  | ok m =>
    rw [hp] at h
    simp only at h
    split at h
    · rename_i ell header block s hu hs
      split at h
      · rename_i r hr
        obtain ⟨h1, h2⟩ := of_decide_eq_true h
        refine ⟨r, renderVariable cfg env header (some s), h1, h2, ?_, ?_⟩
        · unfold renderFromBytes
          rw [hp]
          simp only [hu, hs]
          unfold rendered
          rw [if_neg]
          simp [hr]
        · intro c hc
          unfold renderVariable renderRecords
          simp only [hr, List.mem_append]
          refine Or.inl (Or.inr ?_)
          simpa [Res.toOption] using hc
      · cases h
    · cases h

theorem mem_record_value {env : XmlEnv} {r : DataRecord} {n : NormalizedRecord} {t : List Char}
    (hn : normalizeRecord env r = some n) (hv : n.value = .str t) (c : Char) (hc : c ∈ xmlEncode t) :
    c ∈ renderVariableRecord env 0 r := by
  unfold renderVariableRecord renderNormalized renderValue
  rw [hn]
  simp only [hv, List.mem_append]
  tauto

theorem mem_record_unit {env : XmlEnv} {r : DataRecord} {n : NormalizedRecord}
    (hn : normalizeRecord env r = some n) (c : Char) (hc : c ∈ xmlEncode n.unit) :
    c ∈ renderVariableRecord env 0 r := by
  unfold renderVariableRecord renderNormalized
  rw [hn]
  simp only [List.mem_append]
  tauto

/-- The character U+FFFE, which XML does not allow. -/
def nonCharacter : Char := Char.ofNat 0xFFFE

/-- C75 is false of the code: a text with U+FFFE (EF BF BE in UTF-8; the telegram has the bytes in
reverse) goes into the document as it is, which is not well-formed then.  The hypothesis is that the
standard library decodes these three bytes to that character. -/
theorem C75_fails (cfg : Cfg) (env : XmlEnv) (aes : AesBlock)
    (hl : env.lossy [0xEF, 0xBF, 0xBE] = [nonCharacter]) :
    ∃ data text, renderFromBytes cfg env aes data none = .ok text ∧
      ∀ name children, ¬ Document text name children := by
  have hs : singleRecord cfg [0x68, 0x15, 0x15, 0x68, 0x08, 0x01, 0x72, 0x78, 0x56, 0x34, 0x12, 0x24, 0x40,
      0x01, 0x07, 0x55, 0, 0, 0, 0x0D, 0x78, 0x03, 0xBE, 0xBF, 0xEF, 0x44, 0x16]
      ⟨⟨0x0D, none⟩, some ⟨0x78, none, none⟩⟩ [0x03, 0xBE, 0xBF, 0xEF] = true := by
    obtain ⟨oc, tf⟩ := cfg
    cases oc <;> cases tf <;> decide +kernel
  obtain ⟨r, text, h1, h2, h3, h4⟩ := singleRecord_render hs env aes
  refine ⟨_, text, h3, ?_⟩
  rintro name children ⟨body, rfl, hc⟩
  have hu : ∃ x, vibUnit 0x78 [] none = some x := by
    have : (vibUnit 0x78 [] none).isSome = true := by decide +kernel
    exact Option.isSome_iff_exists.1 this
  obtain ⟨⟨u, f, q⟩, hu⟩ := hu
  have hn := (normalize_parts env r _ ⟨0x78, none, none⟩ _ (by rw [h1]) (by rw [h1]; decide) h2).2
      ⟨.str (env.lossy [0xEF, 0xBF, 0xBE]), u, f, q, by rw [h1]; rfl, hu, rfl⟩
  have hmem := h4 nonCharacter (mem_record_value hn rfl _ (by
    rw [hl]
    have : nonCharacter ∈ xmlEncode [nonCharacter] := by decide +kernel
    exact this))
  rw [List.mem_append] at hmem
  rcases hmem with hmem | hmem
  · revert hmem; decide +kernel
  · have := content_chars hc _ hmem
    revert this
    decide +kernel

/-- The hypotheses of the C75 theorems are met: there is an environment with plain numbers, and the reply above is
rendered. -/
theorem xml_example : ∃ env : XmlEnv, PlainNumbers env ∧ ∀ cfg aes, ∃ text, noNon text ∧ renderFromBytes cfg env aes
    [0x68, 0x13, 0x13, 0x68, 0x08, 0x01, 0x72, 0x78, 0x56, 0x34, 0x12, 0x24, 0x40, 0x01, 0x07, 0x55, 0, 0, 0,
      0x02, 0x5A, 0xE6, 0x00, 0x92, 0x16] none = .ok text := by
  refine ⟨⟨fun _ => ['0'], fun _ => []⟩, ?_, ?_⟩
  · intro v c hc; simp at hc; subst hc; decide
  · intro cfg aes
    have key : (match renderFromBytes cfg ⟨fun _ => ['0'], fun _ => []⟩ (fun _ b => b)
        [0x68, 0x13, 0x13, 0x68, 0x08, 0x01, 0x72, 0x78, 0x56, 0x34, 0x12, 0x24, 0x40, 0x01, 0x07, 0x55, 0, 0, 0,
          0x02, 0x5A, 0xE6, 0x00, 0x92, 0x16] none with
        | .ok text => decide (noNon text)
        | _ => false) = true := by
      obtain ⟨oc, tf⟩ := cfg
      cases oc <;> cases tf <;> decide +kernel
    have hs : singleRecord cfg [0x68, 0x13, 0x13, 0x68, 0x08, 0x01, 0x72, 0x78, 0x56, 0x34, 0x12, 0x24, 0x40,
        0x01, 0x07, 0x55, 0, 0, 0, 0x02, 0x5A, 0xE6, 0x00, 0x92, 0x16]
        ⟨⟨0x02, none⟩, some ⟨0x5A, none, none⟩⟩ [0xE6, 0x00] = true := by
      obtain ⟨oc, tf⟩ := cfg
      cases oc <;> cases tf <;> decide +kernel
    obtain ⟨_, text, _, _, h, _⟩ := singleRecord_render hs ⟨fun _ => ['0'], fun _ => []⟩ aes
    have h' : renderFromBytes cfg ⟨fun _ => ['0'], fun _ => []⟩ (fun _ b => b)
        [0x68, 0x13, 0x13, 0x68, 0x08, 0x01, 0x72, 0x78, 0x56, 0x34, 0x12, 0x24, 0x40, 0x01, 0x07, 0x55, 0, 0, 0,
          0x02, 0x5A, 0xE6, 0x00, 0x92, 0x16] none = .ok text := by
      unfold singleRecord at hs
      unfold renderFromBytes at h ⊢
      split at hs
      · rename_i m hm
        rw [hm] at h ⊢
        split at hs
        · rename_i hu _
          simp only [hu] at h ⊢
          exact h
        · cases hs
      · cases hs
    rw [h'] at key
    exact ⟨text, of_decide_eq_true key, h⟩

/-! ## C76 -/

theorem utf8_length (text : List Char) : (utf8 text).length = (text.map Char.utf8Size).sum := by
  induction text with
  | nil => rfl
  | cons c t ih =>
    unfold utf8 at *
    rw [List.flatMap_cons, List.length_append, ih, List.map_cons, List.sum_cons,
      String.length_utf8EncodeChar]

theorem utf8Size_one (c : Char) : c.utf8Size = 1 ↔ c.toNat < 128 := by
  rw [Char.utf8Size_eq_one_iff]
  change c.val.toNat ≤ 127 ↔ c.val.toNat < 128
  omega

theorem sum_ge (text : List Char) : text.length ≤ (text.map Char.utf8Size).sum := by
  induction text with
  | nil => simp
  | cons c t ih =>
    have := Char.utf8Size_pos c
    simp only [List.map_cons, List.sum_cons, List.length_cons]
    omega

theorem latin1_ascii (c : Char) (h : c.toNat < 128) :
    (String.utf8EncodeChar c).map (fun b => Char.ofNat b.toNat) = [c] := by
  refine char_ascii (fun c => c.toNat < 128 →
    (String.utf8EncodeChar c).map (fun b => Char.ofNat b.toNat) = [c]) (by decide +kernel) ?_ c h
  intro c h1 h2
  omega

/-- The document says it is encoded in ISO-8859-1, but it is a Rust string, that is UTF-8.  Reading any
text as declared gives back the text exactly when the text is ASCII. -/
theorem C76_declared_encoding_partial (text : List Char) :
    latin1 (utf8 text) = text ↔ ∀ c ∈ text, c.toNat < 128 := by
  constructor
  · intro h
    have hlen : (text.map Char.utf8Size).sum = text.length := by
      rw [← utf8_length, ← congrArg List.length h]
      simp [latin1]
    clear h
    induction text with
    | nil => simp
    | cons c t ih =>
      have h1 := Char.utf8Size_pos c
      have h2 := sum_ge t
      simp only [List.map_cons, List.sum_cons, List.length_cons] at hlen
      rw [List.forall_mem_cons]
      exact ⟨(utf8Size_one c).1 (by omega), ih (by omega)⟩
  · intro h
    induction text with
    | nil => rfl
    | cons c t ih =>
      rw [List.forall_mem_cons] at h
      have := ih h.2
      unfold latin1 utf8 at *
      rw [List.flatMap_cons, List.map_append, this, latin1_ascii c h.1]
      rfl

/-- C76 is false of the code: a temperature is shown in °C, and the degree sign is two bytes in the
document, two characters if it is read in the declared encoding. -/
theorem C76_fails (cfg : Cfg) (env : XmlEnv) (aes : AesBlock) :
    ∃ data text, renderFromBytes cfg env aes data none = .ok text ∧ latin1 (utf8 text) ≠ text := by
  have hs : singleRecord cfg [0x68, 0x13, 0x13, 0x68, 0x08, 0x01, 0x72, 0x78, 0x56, 0x34, 0x12, 0x24, 0x40,
      0x01, 0x07, 0x55, 0, 0, 0, 0x02, 0x5A, 0xE6, 0x00, 0x92, 0x16]
      ⟨⟨0x02, none⟩, some ⟨0x5A, none, none⟩⟩ [0xE6, 0x00] = true := by
    obtain ⟨oc, tf⟩ := cfg
    cases oc <;> cases tf <;> decide +kernel
  obtain ⟨r, text, h1, h2, h3, h4⟩ := singleRecord_render hs env aes
  refine ⟨_, text, h3, ?_⟩
  have hu : ∃ x, vibUnit 0x5A [] none = some x ∧ '°' ∈ xmlEncode x.1 := by
    have : (vibUnit 0x5A [] none).any (fun x => decide ('°' ∈ xmlEncode x.1)) = true := by decide +kernel
    rw [Option.any_eq_true] at this
    obtain ⟨x, hx, h⟩ := this
    exact ⟨x, hx, of_decide_eq_true h⟩
  obtain ⟨⟨u, f, q⟩, hu, hmem⟩ := hu
  have hn := (normalize_parts env r _ ⟨0x5A, none, none⟩ _ (by rw [h1]) (by rw [h1]; decide) h2).2
      ⟨_, u, f, q, by rw [h1]; rfl, hu, rfl⟩
  have hin := h4 '°' (mem_record_unit hn _ hmem)
  rw [Ne, C76_declared_encoding_partial]
  intro hall
  exact absurd (hall _ hin) (by decide)

example : latin1 (utf8 "<Id>12345678</Id>".toList) = "<Id>12345678</Id>".toList :=
  (C76_declared_encoding_partial _).2 (by decide +kernel)

/-! ## C77 -/

/-- The data of the block are encrypted: by the transport layer, or by the extended link layer. -/
def Protected : UserDataBlock → Prop
  | .long _ header _ => header.short.configurationField.securityMode ≠ .noEncryption
  | .short ell header _ =>
    header.configurationField.securityMode ≠ .noEncryption ∨ ∃ e, ell = some e ∧ e.encryption ≠ none
  | _ => False

/-- C77, what holds of the statement: without a key, the document of a wireless telegram with encrypted
data contains no records.  Missing: wired frames, see `C77_fails`. -/
theorem C77_wireless_partial (cfg : Cfg) (env : XmlEnv) (aes : AesBlock)
    (data : List UInt8) (e : FrameError) (stripped : Option (List UInt8)) (buffer : List UInt8)
    (parsed : MbusData WirelessFrame) (blk : UserDataBlock)
    (hw : MbusData.tryFromWired cfg data = .err e)
    (hs : stripFormatACrcs data (List.replicate 512 0) = .ok (stripped, buffer))
    (hp : MbusData.tryFromWireless (stripped.getD data) = .ok parsed)
    (hu : parsed.userData = some blk) (henc : Protected blk) :
    ∃ text info, renderFromBytes cfg env aes data none = .ok text ∧ IsReport text info [] := by
  obtain ⟨hid, hblk⟩ := wireless_block _ parsed hp
  obtain ⟨payload, hb⟩ := hblk _ hu
  unfold renderFromBytes
  rw [hw]
  simp only [hs, hp]
  unfold renderWireless
  rw [hu]
  cases blk with
  | long ell header block =>
    have hm := block_code payload _ hb ell header block rfl
    have hx : (!header.isEncrypted) = false := by
      unfold LongTplHeader.isEncrypted
      simpa [Protected] using henc
    simp only [renderWithOptionalDecryption, hx, Bool.false_eq_true, if_false]
    exact ⟨_, _, rfl, variable_report cfg ⟨fun _ => [], fun _ => []⟩ (by simp [PlainNumbers]) header _ rfl hm none
      (by simp [noNon, renderRecords])⟩
  | short ell header block =>
    have hx : (!(ell.any (fun e => e.encryption.isSome) || header.isEncrypted)) = false := by
      unfold ShortTplHeader.isEncrypted
      rcases henc with h | ⟨e, rfl, h⟩
      · simp [h]
      · rw [Option.any_some, Option.isSome_iff_ne_none.2 h]; rfl
    simp only [hx, Bool.false_eq_true, if_false]
    exact ⟨_, _, rfl, wireless_report cfg ⟨fun _ => [], fun _ => []⟩ (by simp [PlainNumbers]) _ hid _ _ _ none
      (by simp [noNon, renderRecords])⟩
  | _ => exact absurd henc id

/-- An encrypted wireless telegram meets the hypotheses. -/
example (cfg : Cfg) : ∃ data e parsed blk, MbusData.tryFromWired cfg data = .err e ∧
    (∃ buffer, stripFormatACrcs data (List.replicate 512 0) = .ok (none, buffer)) ∧
    MbusData.tryFromWireless data = .ok parsed ∧ parsed.userData = some blk ∧ Protected blk := by
  let data : List UInt8 := [0x1E, 0x44, 0x93, 0x15, 0x78, 0x56, 0x34, 0x12, 0x01, 0x07, 0x7A, 0x2A, 0x00,
    0x10, 0x05, 1, 2, 3, 4, 5, 6, 7, 8, 9, 10, 11, 12, 13, 14, 15, 16]
  have h1 : (match MbusData.tryFromWired cfg data with | .err _ => true | _ => false) = true := by
    obtain ⟨oc, tf⟩ := cfg
    cases oc <;> cases tf <;> decide +kernel
  have h2 : (match stripFormatACrcs data (List.replicate 512 0) with
      | .ok (none, _) => true | _ => false) = true := by decide +kernel
  have h3 : (match MbusData.tryFromWireless data with
      | .ok m => match m.userData with
        | some (.short _ header _) => decide (header.configurationField.securityMode ≠ .noEncryption)
        | _ => false
      | _ => false) = true := by decide +kernel
  split at h1
  · rename_i e he
    split at h2
    · rename_i b hb
      split at h3
      · rename_i m hm
        split at h3
        · rename_i blk hu
          exact ⟨data, e, m, _, he, ⟨b, hb⟩, hm, hu, Or.inl (of_decide_eq_true h3)⟩
        · cases h3
      · cases h3
    · cases h2
  · cases h1

/-- C77, the ciphertext has no effect: two wireless telegrams with the same headers and different
encrypted data give the same document. -/
theorem C77_same_document_partial (cfg : Cfg) (env : XmlEnv) (aes : AesBlock) (a b : MbusData WirelessFrame)
    (hid : a.frame.manufacturerId = b.frame.manufacturerId)
    (h : (∃ ell header c d, a.userData = some (.long ell header c) ∧ b.userData = some (.long ell header d)
            ∧ Protected (.long ell header c)) ∨
         ∃ ell header c d, a.userData = some (.short ell header c) ∧ b.userData = some (.short ell header d)
            ∧ Protected (.short ell header c)) :
    renderWireless cfg env aes a none = renderWireless cfg env aes b none := by
  unfold renderWireless
  rcases h with ⟨ell, header, c, d, ha, hb, henc⟩ | ⟨ell, header, c, d, ha, hb, henc⟩
  · have hx : (!header.isEncrypted) = false := by
      unfold LongTplHeader.isEncrypted
      simpa [Protected] using henc
    simp only [ha, hb, renderWithOptionalDecryption, hx, Bool.false_eq_true, if_false]
  · have hx : (!(ell.any (fun e => e.encryption.isSome) || header.isEncrypted)) = false := by
      unfold ShortTplHeader.isEncrypted
      rcases henc with h | ⟨e, rfl, h⟩
      · simp [h]
      · rw [Option.any_some, Option.isSome_iff_ne_none.2 h]; rfl
    simp only [ha, hb, hid, hx, Bool.false_eq_true, if_false]

/-- C77 is false of the code: without a key, the XML document of a wired frame with encrypted data shows
records made of the ciphertext. -/
theorem C77_fails (cfg : Cfg) (env : XmlEnv) (he : PlainNumbers env) (aes : AesBlock) :
    ∃ data parsed blk text info records, MbusData.tryFromWired cfg data = .ok parsed ∧
      parsed.userData = some blk ∧ Protected blk ∧
      renderFromBytes cfg env aes data none = .ok text ∧ IsReport text info records ∧ records ≠ [] := by
  let data : List UInt8 := [0x68, 0x13, 0x13, 0x68, 0x08, 0x01, 0x72, 0x78, 0x56, 0x34, 0x12, 0x24, 0x40,
      0x01, 0x07, 0x55, 0, 0, 5, 0x02, 0x5A, 0xE6, 0x00, 0x97, 0x16]
  have key : (match MbusData.tryFromWired cfg data with
      | .ok m =>
        match m.userData, m.dataRecords with
        | some (.long _ header _), some s =>
          decide (header.short.configurationField.securityMode ≠ .noEncryption) &&
            header.manufacturer.toOption.isSome &&
            ((s.collect cfg).map (fun r => r.toOption.any
              (fun r => decide (r.header.raw.dib.dif &&& 0x0F ≠ 13))) == [true])
        | _, _ => false
      | _ => false) = true := by
    obtain ⟨oc, tf⟩ := cfg
    cases oc <;> cases tf <;> decide +kernel
  split at key
  · rename_i m hm
    split at key
    · rename_i ell header block s hu hs
      rw [Bool.and_eq_true, Bool.and_eq_true] at key
      obtain ⟨⟨k1, k2⟩, k3⟩ := key
      obtain ⟨code, hc⟩ := Option.isSome_iff_exists.1 k2
      have hc : header.manufacturer = .ok code := by
        cases h : header.manufacturer <;> rw [h] at hc <;> cases hc
        rfl
      match hl : s.collect cfg with
      | [.ok r] =>
        have hr : renderFromBytes cfg env aes data none = .ok (renderVariable cfg env header (some s)) := by
          unfold renderFromBytes
          rw [hm]
          simp only [hu, hs]
          unfold rendered
          rw [if_neg]
          simp [hl]
        rw [hl] at k3
        have k3 : r.header.raw.dib.dif &&& 0x0F ≠ 13 := by simpa [Res.toOption] using k3
        obtain ⟨payload, hb⟩ := wired_block cfg data m hm _ hu
        refine ⟨data, m, _, _, _, _, hm, hu, (of_decide_eq_true k1 : _ ≠ _), hr,
          variable_report cfg env he header _ rfl (block_code payload _ hb ell header block rfl) (some s)
            (records_noNon cfg env he (some s) ?_), ?_⟩
        · rintro s' hs' r' hr' n text hn ht
          cases hs'
          rw [hl, List.mem_singleton] at hr'
          cases hr'
          rcases (normalize_chars env r n hn).2.2.2 text ht with h | ⟨h, -⟩
          · exact noNon_small _ h
          · exact absurd h k3
        simp [recordList, hl, Res.toOption]
      | [] => rw [hl] at k3; cases k3
      | [.err _] => rw [hl] at k3; cases k3
      | [.panic] => rw [hl] at k3; cases k3
      | a :: b :: t => rw [hl] at k3; simp at k3
    · cases key
  · cases key

end MBus
