import Verif.Props.XmlDoc
/-!
# C127: the product name in the XML output
-/
namespace MBus
open MBus.Spec MBus.Spec.Xml MBus.Xml

/-- C127, the table: the product name is that of the known device with this manufacturer, version, medium
and identification number, for every device; it is empty for every other device. -/
theorem C127_table (manufacturer : List Char) (version medium : UInt8) (id : Nat) (text : List Char)
    (h : productName manufacturer version medium id = text) :
    (∃ p ∈ products, p.covers manufacturer version medium id ∧ text = p.name.toList) ∨
      ((∀ p ∈ products, ¬ p.covers manufacturer version medium id) ∧ text = []) := by
  rw [productName_eq] at h
  subst h
  unfold productText
  cases hf : products.find? fun p => p.covers manufacturer version medium id with
  | none =>
    refine Or.inr ⟨fun p hp hc => ?_, rfl⟩
    have := List.find?_eq_none.1 hf p hp
    exact this (decide_eq_true hc)
  | some p =>
    have := List.find?_some hf
    exact Or.inl ⟨p, List.mem_of_find?_eq_some hf, of_decide_eq_true this, rfl⟩

/-- Two rows have a device in common only if they could have a version, a medium and digits in common. -/
def Product.meet (p q : Product) : Prop :=
  p.manufacturer = q.manufacturer ∧ (p.versions.1 ≤ q.versions.2 ∧ q.versions.1 ≤ p.versions.2) ∧
    (p.media.1 ≤ q.media.2 ∧ q.media.1 ≤ p.media.2) ∧ ∀ d ∈ p.digits, ∀ e ∈ q.digits, d = e

instance (p q : Product) : Decidable (Product.meet p q) := by unfold Product.meet; infer_instance

theorem products_meet : ∀ p ∈ products, ∀ q ∈ products, Product.meet p q → p = q := by decide +kernel

/-- C127, at most one row of the table is about a device, so the order of the rows does not matter. -/
theorem C127_unique (manufacturer : List Char) (version medium : UInt8) (id : Nat) (p q : Product)
    (hp : p ∈ products) (hq : q ∈ products) (h : p.covers manufacturer version medium id)
    (h' : q.covers manufacturer version medium id) : p = q := by
  obtain ⟨a1, ⟨a2, a3⟩, ⟨a4, a5⟩, a6⟩ := h
  obtain ⟨b1, ⟨b2, b3⟩, ⟨b4, b5⟩, b6⟩ := h'
  refine products_meet p hp q hq ⟨String.toList_inj.1 (a1.trans b1.symm), ⟨UInt8.le_trans a2 b3,
    UInt8.le_trans b2 a3⟩, ⟨UInt8.le_trans a4 b5, UInt8.le_trans b4 a5⟩, fun d hd e he => ?_⟩
  rw [a6 d hd, b6 e he]

/-- C127, the digits: of an identification number with the digits `d0` … `d7`, leading zeros included,
the first two are those that decide. -/
theorem C127_digits (d0 d1 d2 d3 d4 d5 d6 d7 : Nat) (h0 : d0 < 10) (h1 : d1 < 10) (h2 : d2 < 10)
    (h3 : d3 < 10) (h4 : d4 < 10) (h5 : d5 < 10) (h6 : d6 < 10) (h7 : d7 < 10) :
    leadingDigits (d7 + 10 * (d6 + 10 * (d5 + 10 * (d4 + 10 * (d3 + 10 * (d2 + 10 * (d1 + 10 * d0))))))) =
      (d0, d1) := by
  simp only [leadingDigits, Prod.mk.injEq]
  omega

/-- The device an XML document is about: that of the header of the telegram, if it has one with an
identification, otherwise that of the radio frame.  Telegrams with a fixed data structure name no
manufacturer. -/
inductive DeviceOf (cfg : Cfg) (data : List UInt8) : Nat → List Char → UInt8 → UInt8 → Prop
  | wired (parsed : MbusData WiredFrame) (ell : Option ExtendedLinkLayer) (header : LongTplHeader)
      (block : List UInt8) (hp : MbusData.tryFromWired cfg data = .ok parsed)
      (hu : parsed.userData = some (.long ell header block)) :
      DeviceOf cfg data header.identificationNumber
        (match header.manufacturer with | .ok c => manufacturerText c | _ => []) header.version
        header.deviceType.toByte
  | header (e : FrameError) (stripped : Option (List UInt8)) (buffer : List UInt8)
      (parsed : MbusData WirelessFrame) (ell : Option ExtendedLinkLayer) (header : LongTplHeader)
      (block : List UInt8) (hw : MbusData.tryFromWired cfg data = .err e)
      (hs : stripFormatACrcs data (List.replicate 512 0) = .ok (stripped, buffer))
      (hp : MbusData.tryFromWireless (stripped.getD data) = .ok parsed)
      (hu : parsed.userData = some (.long ell header block)) :
      DeviceOf cfg data header.identificationNumber
        (match header.manufacturer with | .ok c => manufacturerText c | _ => []) header.version
        header.deviceType.toByte
  | frame (e : FrameError) (stripped : Option (List UInt8)) (buffer : List UInt8)
      (parsed : MbusData WirelessFrame) (hw : MbusData.tryFromWired cfg data = .err e)
      (hs : stripFormatACrcs data (List.replicate 512 0) = .ok (stripped, buffer))
      (hp : MbusData.tryFromWireless (stripped.getD data) = .ok parsed)
      (hu : ∀ ell header block, parsed.userData ≠ some (.long ell header block)) :
      DeviceOf cfg data parsed.frame.manufacturerId.identificationNumber
        (manufacturerText parsed.frame.manufacturerId.manufacturerCode) parsed.frame.manufacturerId.version
        parsed.frame.manufacturerId.deviceType.toByte

/-- The document of a telegram with a fixed data structure. -/
def IsFixed (cfg : Cfg) (data : List UInt8) (text : List Char) : Prop :=
  ∃ id access status u c1 c2, text = renderFixed id access status u c1 c2 ∧
    ((∃ parsed, MbusData.tryFromWired cfg data = .ok parsed ∧
        parsed.userData = some (.fixed id access status u c1 c2)) ∨
      ∃ stripped buffer parsed, stripFormatACrcs data (List.replicate 512 0) = .ok (stripped, buffer) ∧
        MbusData.tryFromWireless (stripped.getD data) = .ok parsed ∧
        parsed.userData = some (.fixed id access status u c1 c2))

theorem optional_device (cfg : Cfg) (env : XmlEnv) (aes : AesBlock) (he : PlainNumbers env)
    (header : LongTplHeader) (hm : ∀ c, header.manufacturer = .ok c → isCode c) (block : UserDataBlock)
    (records : Option DataRecords) (id : Option ManufacturerId) (key : Option (List UInt8))
    (text : List Char)
    (h : renderWithOptionalDecryption cfg env aes header block records id key = .ok text) (ht : noNon text) :
    ∃ rest list, IsReport text (identityElements header.identificationNumber
      (match header.manufacturer with | .ok c => manufacturerText c | _ => []) header.version
      header.deviceType.toByte ++ rest) list := by
  have hv : ∀ r, text = renderVariable cfg env header r → ∃ rest list, IsReport text
      (identityElements header.identificationNumber
      (match header.manufacturer with | .ok c => manufacturerText c | _ => []) header.version
      header.deviceType.toByte ++ rest) list :=
    fun r hr => hr ▸ ⟨_, _, variable_report cfg env he header _ rfl hm r (variable_noNon (hr ▸ ht))⟩
  unfold renderWithOptionalDecryption at h
  simp only at h
  split at h
  · exact hv _ (rendered_ok h)
  · split at h
    · exact hv _ (rendered_ok h)
    · obtain ⟨d, h⟩ := withDecrypted_ok h
      exact hv _ (rendered_ok h)

/-- C127, the document: whatever the telegram and the key, a document begins with the identification number,
the manufacturer, the version, the product name and the medium of the device of the telegram, unless the
telegram has a fixed data structure (or the document has characters that XML does not allow, C75). -/
theorem C127_document (cfg : Cfg) (env : XmlEnv) (he : PlainNumbers env) (aes : AesBlock)
    (data : List UInt8) (key : Option (List UInt8)) (text : List Char)
    (h : renderFromBytes cfg env aes data key = .ok text) (ht : noNon text) :
    IsFixed cfg data text ∨ ∃ id manufacturer version medium rest records,
      DeviceOf cfg data id manufacturer version medium ∧
      IsReport text ([leaf "Id".toList (decimal id), leaf "Manufacturer".toList manufacturer,
        leaf "Version".toList (decimal version.toNat),
        leaf "ProductName".toList (productText manufacturer version medium id),
        leaf "Medium".toList (mediumLookup medium)] ++ rest) records := by
  unfold renderFromBytes at h
  split at h
  · cases h
  · rename_i parsed hp
    split at h
    · rename_i ell header block hu
      obtain ⟨payload, hb⟩ := wired_block cfg data parsed hp _ hu
      have hm := block_code payload _ hb ell header block rfl
      right
      split at h
      · have e := rendered_ok h
        subst e
        exact ⟨_, _, _, _, _, _, .wired parsed ell header block hp hu,
          variable_report cfg env he header _ rfl hm _ (variable_noNon ht)⟩
      · obtain ⟨rest, list, hr⟩ := optional_device cfg env aes he header hm _ _ _ _ text h ht
        exact ⟨_, _, _, _, _, _, .wired parsed ell header block hp hu, hr⟩
    · rename_i hu
      cases h; exact Or.inl ⟨_, _, _, _, _, _, rfl, Or.inl ⟨_, hp, hu⟩⟩
    · cases h
  · rename_i e hw
    split at h
    · cases h
    · cases h
    · rename_i stripped buffer hs
      split at h
      · cases h
      · cases h
      · rename_i parsed hp
        obtain ⟨hid, hblk⟩ := wireless_block _ parsed hp
        have hr : ∀ a s g r, text = renderWirelessVariable cfg env parsed.frame.manufacturerId a s g r →
            ∃ rest records, IsReport text (identityElements
            parsed.frame.manufacturerId.identificationNumber
            (manufacturerText parsed.frame.manufacturerId.manufacturerCode)
            parsed.frame.manufacturerId.version parsed.frame.manufacturerId.deviceType.toByte ++ rest)
            records := by
          rintro a s g r rfl
          have := wireless_report cfg env he _ hid a s g r (wireless_noNon ht)
          rw [List.append_assoc, List.append_assoc] at this
          exact ⟨_, _, this⟩
        unfold renderWireless at h
        simp only at h
        split at h
        · rename_i ell header block hu
          obtain ⟨payload, hb⟩ := hblk _ hu
          obtain ⟨rest, list, hr⟩ := optional_device cfg env aes he header
            (block_code payload _ hb ell header block rfl) _ _ _ _ text h ht
          exact Or.inr ⟨_, _, _, _, _, _, .header e stripped buffer parsed ell header block hw hs hp hu, hr⟩
        · rename_i hu
          have hd := DeviceOf.frame e stripped buffer parsed hw hs hp (by rw [hu]; simp)
          right
          split at h
          · obtain ⟨rest, list, hr⟩ := hr _ _ _ _ (rendered_ok h)
            exact ⟨_, _, _, _, _, _, hd, hr⟩
          · split at h
            · obtain ⟨rest, list, hr⟩ := hr _ _ _ _ (rendered_ok h)
              exact ⟨_, _, _, _, _, _, hd, hr⟩
            · obtain ⟨d, h⟩ := withDecrypted_ok h
              obtain ⟨rest, list, hr⟩ := hr _ _ _ _ (rendered_ok h)
              exact ⟨_, _, _, _, _, _, hd, hr⟩
        · rename_i hu
          have hd := DeviceOf.frame e stripped buffer parsed hw hs hp (by rw [hu]; simp)
          obtain ⟨rest, list, hr⟩ := hr _ _ _ _ (rendered_ok h)
          exact Or.inr ⟨_, _, _, _, _, _, hd, hr⟩
        · rename_i hu
          cases h
          exact Or.inl ⟨_, _, _, _, _, _, rfl, Or.inr ⟨_, _, _, hs, hp, hu⟩⟩
        · rename_i h1 h2 h3 h4
          have hd := DeviceOf.frame e stripped buffer parsed hw hs hp h1
          cases h
          obtain ⟨rest, list, hr⟩ := hr _ _ _ _ rfl
          exact Or.inr ⟨_, _, _, _, _, _, hd, hr⟩

/-- The hypotheses are met: the telegram of a device with version 1 and medium 7 is rendered. -/
example (cfg : Cfg) (aes : AesBlock) : ∃ env data text, PlainNumbers env ∧ noNon text ∧
    renderFromBytes cfg env aes data none = .ok text ∧ ¬ IsFixed cfg data text := by
  obtain ⟨env, he, h⟩ := xml_example
  obtain ⟨text, ht, h⟩ := h cfg aes
  refine ⟨env, _, text, he, ht, h, ?_⟩
  rintro ⟨id, access, status, u, c1, c2, -, h⟩
  have key : (match MbusData.tryFromWired cfg [0x68, 0x13, 0x13, 0x68, 0x08, 0x01, 0x72, 0x78, 0x56, 0x34,
      0x12, 0x24, 0x40, 0x01, 0x07, 0x55, 0, 0, 0, 0x02, 0x5A, 0xE6, 0x00, 0x92, 0x16] with
      | .ok m => (match m.userData with | some (.long ..) => true | _ => false)
      | _ => false) = true ∧ (match stripFormatACrcs [0x68, 0x13, 0x13, 0x68, 0x08, 0x01, 0x72, 0x78, 0x56,
      0x34, 0x12, 0x24, 0x40, 0x01, 0x07, 0x55, 0, 0, 0, 0x02, 0x5A, 0xE6, 0x00, 0x92, 0x16]
      (List.replicate 512 0) with
      | .ok (s, _) => (match MbusData.tryFromWireless (s.getD [0x68, 0x13, 0x13, 0x68, 0x08, 0x01, 0x72,
        0x78, 0x56, 0x34, 0x12, 0x24, 0x40, 0x01, 0x07, 0x55, 0, 0, 0, 0x02, 0x5A, 0xE6, 0x00, 0x92,
        0x16]) with | .ok _ => false | _ => true)
      | _ => true) = true := by
    obtain ⟨oc, tf⟩ := cfg
    cases oc <;> cases tf <;> decide +kernel
  obtain ⟨k1, k2⟩ := key
  rcases h with ⟨parsed, hp, hu⟩ | ⟨stripped, buffer, parsed, hs, hp, hu⟩
  · rw [hp] at k1
    simp only [hu] at k1
    cases k1
  · rw [hs] at k2
    simp only at k2
    rw [hp] at k2
    cases k2

/-- The hypotheses are met: a Relay PadPuls M1, and a device by its digits. -/
example : productName "REL".toList 0x08 0x07 12345678 = "Relay PadPuls M1".toList ∧
    productName "SBC".toList 0x00 0x02 19000000 = "Saia-Burgess ALE3".toList ∧
    productName "XYZ".toList 0x00 0x02 19000000 = [] := by decide +kernel

end MBus
