import Verif.Props.SentSecurity
import Mathlib.Data.Set.Finite.List
/-!
# C154: a wrong key
-/
namespace MBus
open MBus.Spec

instance : Finite UInt8 := Finite.of_injective UInt8.toFin (fun _ _ h => UInt8.toFin_inj.1 h)

theorem onto_blocks (E D : List UInt8 → List UInt8) (h1 : ∀ b, b.length = 16 → (E b).length = 16)
    (h2 : ∀ b, b.length = 16 → D (E b) = b) (c : List UInt8) (hc : c.length = 16) : ∃ p, p.length = 16 ∧ E p = c := by
  have : Finite {l : List UInt8 // l.length = 16} := List.finite_length_eq UInt8 16
  let f : {l : List UInt8 // l.length = 16} → {l : List UInt8 // l.length = 16} := fun p => ⟨E p.1, h1 p.1 p.2⟩
  have hf : Function.Injective f := by
    rintro ⟨a, ha⟩ ⟨b, hb⟩ h
    have h' : E a = E b := congrArg Subtype.val h
    have e1 := h2 a ha
    rw [h', h2 b hb] at e1
    exact Subtype.ext e1.symm
  obtain ⟨⟨p, hp⟩, h⟩ := Finite.injective_iff_surjective.1 hf ⟨c, hc⟩
  exact ⟨p, hp, congrArg Subtype.val h⟩

/-- Every block is the encryption of a block. -/
theorem encrypt_onto (key : List UInt8) (hk : key.length = 16) (c : List UInt8) (hc : c.length = 16) :
    ∃ p, p.length = 16 ∧ Aes.encrypt key p = c :=
  onto_blocks _ _ (fun b hb => (C124_cipher key b hk hb).1) (fun b hb => (C124_cipher key b hk hb).2.2) c hc

theorem zip_xor (a b : List UInt8) (h : a.length ≤ b.length) :
    List.zipWith (· ^^^ ·) (List.zipWith (· ^^^ ·) a b) b = a := by
  induction a generalizing b with
  | nil => rfl
  | cons x t ih =>
    cases b with
    | nil => simp at h
    | cons y u =>
      simp only [List.zipWith_cons_cons, List.cons.injEq]
      exact ⟨by rw [UInt8.xor_assoc, UInt8.xor_self, UInt8.xor_zero], ih u (by simpa using h)⟩

/-- What one key sealed can be read with any other key, as other data. -/
theorem any_key_opens (key key' : List UInt8) (hk : key.length = 16) (hk' : key'.length = 16) (blocks : List (List UInt8))
    (hbl : ∀ b ∈ blocks, b.length = 16) (iv : List UInt8) (hiv : iv.length = 16) :
    ∃ blocks', blocks'.length = blocks.length ∧ (∀ b ∈ blocks', b.length = 16) ∧
      cbcEncrypt Aes.encrypt key' iv blocks' = cbcEncrypt Aes.encrypt key iv blocks := by
  induction blocks generalizing iv with
  | nil => exact ⟨[], rfl, by simp, rfl⟩
  | cons p ps ih =>
    have hp := hbl p (by simp)
    have hz : (List.zipWith (· ^^^ ·) p iv).length = 16 := by simp [hp, hiv]
    have hc := (C124_cipher key _ hk hz).1
    obtain ⟨q, hq, he⟩ := encrypt_onto key' hk' _ hc
    obtain ⟨qs, h1, h2, h3⟩ := ih (fun b hb => hbl b (by simp [hb])) _ hc
    refine ⟨List.zipWith (· ^^^ ·) q iv :: qs, by simp [h1], ?_, ?_⟩
    · simp only [List.mem_cons, forall_eq_or_imp]
      exact ⟨by simp [hq, hiv], h2⟩
    · simp only [cbcEncrypt]
      rw [zip_xor q iv (by omega), he, h3]

theorem sealed_once (key : List UInt8) (hk : key.length = 16) (blocks blocks' : List (List UInt8))
    (hbl : ∀ b ∈ blocks, b.length = 16) (hbl' : ∀ b ∈ blocks', b.length = 16) (hlen : blocks'.length = blocks.length)
    (iv : List UInt8) (hiv : iv.length = 16) (h : cbcEncrypt Aes.encrypt key iv blocks' = cbcEncrypt Aes.encrypt key iv blocks) :
    blocks' = blocks := by
  induction blocks generalizing iv blocks' with
  | nil => exact List.length_eq_zero_iff.1 hlen
  | cons p ps ih =>
    cases blocks' with
    | nil => simp at hlen
    | cons q qs =>
      have hp := hbl p (by simp)
      have hq := hbl' q (by simp)
      have hzp : (List.zipWith (· ^^^ ·) p iv).length = 16 := by simp [hp, hiv]
      have hzq : (List.zipWith (· ^^^ ·) q iv).length = 16 := by simp [hq, hiv]
      have cp := C124_cipher key _ hk hzp
      have cq := C124_cipher key _ hk hzq
      simp only [cbcEncrypt] at h
      obtain ⟨h1, h2⟩ := List.append_inj h (by rw [cp.1, cq.1])
      have e := cq.2.2
      rw [h1, cp.2.2] at e
      have e2 := congrArg (List.zipWith (· ^^^ ·) · iv) e
      simp only [zip_xor _ _ (show p.length ≤ iv.length by omega), zip_xor _ _ (show q.length ≤ iv.length by omega)] at e2
      rw [h1] at h2
      rw [e2, ih qs (fun b hb => hbl b (by simp [hb])) (fun b hb => hbl' b (by simp [hb])) (by simpa using hlen) _ cp.1 h2]

/-- C154, partly: whatever the key, the JSON texts of all front ends say that the data are not verified, and show the data
the key gives, which are those the meter sealed if the key is the meter's.  So a user can look for the mark 2F 2F with which
a meter begins: if it is not there, the key is wrong.  Missing is that the program looks for it (`C154_fails`). -/
theorem C154_warned_partial (cfg : Cfg) (env : CliEnv) (text keyText : List Char) (data key key' : List UInt8)
    (enrichment : Bool) (henv : ∀ bits, FiniteReal bits → NumberText (env.front.text.realText bits))
    (hx : Spelled text data) (hk : key.length = 16) (hkt : KeyText keyText key') (hd : SentHeader) (m : SentMeter)
    (hm : m.Valid) (hmode : hd.mode = 5 ∨ hd.mode = 7) (blocks : List (List UInt8)) (hbl : ∀ b ∈ blocks, b.length = 16)
    (hne : blocks ≠ []) (tail : List UInt8) (ht : tail.length < 16) (link : Option ManufacturerId) (payload : List UInt8)
    (hp : payload = 0x72 :: headerAddress m ++ hd.bytes ++ (cbcEncrypt Aes.encrypt key (sealVector hd m) blocks ++ tail))
    (hs : Telegram data link payload) (h : ∃ o, decodeBytes cfg Aes.aes128 data ⟨some key', enrichment⟩ = .ok o) :
    ∃ plain, AnsweredWell cfg env Aes.aes128 text (some keyText) enrichment "json"
        (JsonSecurity hd.mode payload (.opened plain) true) ∧
      (key' = key → plain = blocks.flatten ++ tail) ∧
      ([0x2F, 0x2F] <+: blocks.flatten → ¬ [0x2F, 0x2F] <+: plain → key' ≠ key) := by
  have hk' := hkt.1
  obtain ⟨blocks', h1, h2, h3⟩ := any_key_opens key key' hk hk' blocks hbl (sealVector hd m) (sealVector_length hd m)
  have hne' : blocks' ≠ [] := by rintro rfl; exact hne (List.length_eq_zero_iff.1 h1.symm)
  have hright : key' = key → blocks'.flatten ++ tail = blocks.flatten ++ tail := by
    rintro rfl
    rw [sealed_once key' hk blocks blocks' hbl h2 h1 _ (sealVector_length hd m) h3]
  refine ⟨_, (C144_opened_json cfg env text keyText data key' enrichment henv hx hkt hk' hd m hm hmode blocks' h2 hne' tail ht
    link payload (by rw [h3]; exact hp) hs h).1, hright, ?_⟩
  intro hmark hno he
  rw [hright he] at hno
  exact hno (hmark.trans (List.prefix_append _ _))

/-- C154, partly, for wireless telegrams with a short header. -/
theorem C154_warned_short_partial (cfg : Cfg) (env : CliEnv) (text keyText : List Char) (data key key' : List UInt8)
    (enrichment : Bool) (henv : ∀ bits, FiniteReal bits → NumberText (env.front.text.realText bits))
    (hx : Spelled text data) (hk : key.length = 16) (hkt : KeyText keyText key') (hd : SentHeader) (m : SentMeter)
    (hm : m.Valid) (hmode : hd.mode = 5 ∨ hd.mode = 7) (blocks : List (List UInt8)) (hbl : ∀ b ∈ blocks, b.length = 16)
    (hne : blocks ≠ []) (tail : List UInt8) (ht : tail.length < 16) (link : ManufacturerId) (hl : LinkOf m link) (ci : UInt8)
    (hci : isShortCi ci) (payload : List UInt8)
    (hp : payload = ci :: hd.bytes ++ (cbcEncrypt Aes.encrypt key (sealVector hd m) blocks ++ tail))
    (hs : Telegram data (some link) payload) (h : ∃ o, decodeBytes cfg Aes.aes128 data ⟨some key', enrichment⟩ = .ok o) :
    ∃ plain, AnsweredWell cfg env Aes.aes128 text (some keyText) enrichment "json"
        (JsonSecurity hd.mode payload (.opened plain) true) ∧
      (key' = key → plain = blocks.flatten ++ tail) ∧
      ([0x2F, 0x2F] <+: blocks.flatten → ¬ [0x2F, 0x2F] <+: plain → key' ≠ key) := by
  have hk' := hkt.1
  obtain ⟨blocks', h1, h2, h3⟩ := any_key_opens key key' hk hk' blocks hbl (sealVector hd m) (sealVector_length hd m)
  have hne' : blocks' ≠ [] := by rintro rfl; exact hne (List.length_eq_zero_iff.1 h1.symm)
  have hright : key' = key → blocks'.flatten ++ tail = blocks.flatten ++ tail := by
    rintro rfl
    rw [sealed_once key' hk blocks blocks' hbl h2 h1 _ (sealVector_length hd m) h3]
  refine ⟨_, (C144_opened_short_json cfg env text keyText data key' enrichment henv hx hkt hk' hd m hm hmode blocks' h2 hne' tail
    ht link hl ci hci payload (by rw [h3]; exact hp) hs h).1, hright, ?_⟩
  intro hmark hno he
  rw [hright he] at hno
  exact hno (hmark.trans (List.prefix_append _ _))

/-- What a meter sends, with the mark in front and fillers at the end: a volume of 360.235 m³. -/
def markedData : List UInt8 :=
  [0x2F, 0x2F, 0x0C, 0x13, 0x35, 0x02, 0x36, 0x00, 0x2F, 0x2F, 0x2F, 0x2F, 0x2F, 0x2F, 0x2F, 0x2F]

/-- What a wrong key makes of it. -/
def misreadData : List UInt8 :=
  [0x0C, 0x13, 0x40, 0x60, 0x10, 0x54, 0x07, 0x6B, 0x18, 0xC0, 0x35, 0x6F, 0xC5, 0xB6, 0x6B, 0x4D]

/-- The wrong key. -/
def wrongKey : List UInt8 :=
  [0x01, 0x02, 0x03, 0x04, 0x05, 0x06, 0x07, 0x08, 0xD1, 0x1F, 0x02, 0x27, 0x00, 0x00, 0x0F, 0x11]

/-- The telegram. -/
def markedSealed : List UInt8 :=
  olderWired 5 [0x6A, 0x82, 0x8F, 0xE9, 0x35, 0xDC, 0x4C, 0xC4, 0xF2, 0xC0, 0xC8, 0xDD, 0x58, 0x76, 0xD8, 0xD0]

set_option maxRecDepth 20000 in
theorem marked_right : cbcEncrypt Aes.encrypt exampleKey (headerIv 0x93 0x15 [0x78, 0x56, 0x34, 0x12] 0x33 0x03 0x2A)
    [markedData] = [0x6A, 0x82, 0x8F, 0xE9, 0x35, 0xDC, 0x4C, 0xC4, 0xF2, 0xC0, 0xC8, 0xDD, 0x58, 0x76, 0xD8, 0xD0] := by
  decide +kernel

set_option maxRecDepth 20000 in
theorem marked_wrong : cbcEncrypt Aes.encrypt wrongKey (headerIv 0x93 0x15 [0x78, 0x56, 0x34, 0x12] 0x33 0x03 0x2A)
    [misreadData] = [0x6A, 0x82, 0x8F, 0xE9, 0x35, 0xDC, 0x4C, 0xC4, 0xF2, 0xC0, 0xC8, 0xDD, 0x58, 0x76, 0xD8, 0xD0] := by
  decide +kernel

theorem same_message {readings : List MeterReading} (d d' : List UInt8) (h : Message 7 readings d) (e : d = d') :
    Message 7 readings d' := e ▸ h

/-- C154 is false: with a key that is wrong all front ends show a completely decoded telegram with another volume and a
pressure, which the meter did not send, although the data do not begin with the mark 2F 2F. -/
theorem C154_fails (cfg : Cfg) (env : CliEnv) (enrichment : Bool)
    (henv : ∀ bits, FiniteReal bits → NumberText (env.front.text.realText bits)) :
    ∃ data payload key key' keyText keyText' sent shown, KeyText keyText key ∧ KeyText keyText' key' ∧ key ≠ key' ∧
      Telegram data none payload ∧
      payload = [0x72, 0x78, 0x56, 0x34, 0x12, 0x93, 0x15, 0x33, 0x03, 0x2A, 0x00, 0x00, 5] ++
        cbcEncrypt Aes.encrypt key (headerIv 0x93 0x15 [0x78, 0x56, 0x34, 0x12] 0x33 0x03 0x2A) [sent] ∧
      payload = [0x72, 0x78, 0x56, 0x34, 0x12, 0x93, 0x15, 0x33, 0x03, 0x2A, 0x00, 0x00, 5] ++
        cbcEncrypt Aes.encrypt key' (headerIv 0x93 0x15 [0x78, 0x56, 0x34, 0x12] 0x33 0x03 0x2A) [shown] ∧
      [0x2F, 0x2F] <+: sent ∧ ¬ [0x2F, 0x2F] <+: shown ∧
      ReadEverywhere cfg env Aes.aes128 (hexString data) (some keyText) enrichment [⟨0, 0, 0, 0, [0x13], .number 360235⟩] ∧
      ReadEverywhere cfg env Aes.aes128 (hexString data) (some keyText') enrichment
        [⟨0, 0, 0, 0, [0x13], .number 54106040⟩, ⟨0, 0, 0, 0, [0x6B], .number 5578753522519097368⟩] := by
  have hk := ((C115_cli_key "0102030405060708090A0B0C0D0E0F11".toList).1 exampleKey).1 (by decide +kernel)
  have hk' := ((C115_cli_key "0102030405060708D11F022700000F11".toList).1 wrongKey).1 (by decide +kernel)
  have ht := wired_telegram markedSealed ([0x72, 0x78, 0x56, 0x34, 0x12, 0x93, 0x15, 0x33, 0x03, 0x2A, 0x00, 0x00, 5] ++
    [0x6A, 0x82, 0x8F, 0xE9, 0x35, 0xDC, 0x4C, 0xC4, 0xF2, 0xC0, 0xC8, 0xDD, 0x58, 0x76, 0xD8, 0xD0])
    (.rspUd false false) (.primary 5) (by decide +kernel)
  have hx := (decode_iff (hexString markedSealed) markedSealed).1 (by decide +kernel)
  have r := Sent.record (bcdBytes := 7) ⟨0, 0, 0, 0, [0x13], .number 360235⟩ 0 12 _ (by decide) (by decide)
    (by decide) (by decide) (by decide) (by decide) (by decide) (.bcd 12 4 360235 (by decide) (by decide))
  have r1 := Sent.record (bcdBytes := 7) ⟨0, 0, 0, 0, [0x13], .number 54106040⟩ 0 12 _ (by decide) (by decide)
    (by decide) (by decide) (by decide) (by decide) (by decide) (.bcd 12 4 54106040 (by decide) (by decide))
  have r2 := Sent.record (bcdBytes := 7) ⟨0, 0, 0, 0, [0x6B], .number 5578753522519097368⟩ 0 7 _ (by decide) (by decide)
    (by decide) (by decide) (by decide) (by decide) (by decide) (.binary 7 8 5578753522519097368 (by decide) (by decide) (by decide))
  refine ⟨markedSealed, _, exampleKey, wrongKey, _, _, markedData, misreadData, hk, hk', by decide, ht, by rw [marked_right],
    by rw [marked_wrong], by decide, by decide, ?_, ?_⟩
  · refine C133_aes_partial cfg env _ _ exampleKey hk 0x78 0x56 0x34 0x12 0x93 0x15 0x33 0x03 0x2A 0 0 5 (by decide +kernel)
      ⟨69, 76, 83⟩ (by decide +kernel) _ (.address rfl) [markedData] (by decide) (by simp) [] (by decide) markedSealed none hx
      (by rw [marked_right]; exact ht) _ ?_ (by decide +kernel) enrichment henv
    have hm := Message.filler _ _ (.filler _ _ (.reading _ _ _ _ r (.filler _ _ (.filler _ _ (.filler _ _ (.filler _ _
      (.filler _ _ (.filler _ _ (.filler _ _ (.filler _ _ .nil))))))))))
    exact same_message _ _ hm (by decide +kernel)
  · refine C133_aes_partial cfg env _ _ wrongKey hk' 0x78 0x56 0x34 0x12 0x93 0x15 0x33 0x03 0x2A 0 0 5 (by decide +kernel)
      ⟨69, 76, 83⟩ (by decide +kernel) _ (.address rfl) [misreadData] (by decide) (by simp) [] (by decide) markedSealed none hx
      (by rw [marked_wrong]; exact ht) _ ?_ (by decide +kernel) enrichment henv
    have hm := Message.reading _ _ _ _ r1 (.reading _ _ _ _ r2 .nil)
    exact same_message _ _ hm (by decide +kernel)

set_option maxRecDepth 20000 in
/-- The telegram above, read with the wrong key. -/
example (cfg : Cfg) (env : CliEnv) (enrichment : Bool)
    (henv : ∀ bits, FiniteReal bits → NumberText (env.front.text.realText bits)) :
    ∃ payload plain, AnsweredWell cfg env Aes.aes128 (hexString markedSealed)
        (some "0102030405060708D11F022700000F11".toList) enrichment "json" (JsonSecurity 5 payload (.opened plain) true) := by
  have hk' := ((C115_cli_key "0102030405060708D11F022700000F11".toList).1 wrongKey).1 (by decide +kernel)
  have ht := wired_telegram markedSealed ([0x72, 0x78, 0x56, 0x34, 0x12, 0x93, 0x15, 0x33, 0x03, 0x2A, 0x00, 0x00, 5] ++
    [0x6A, 0x82, 0x8F, 0xE9, 0x35, 0xDC, 0x4C, 0xC4, 0xF2, 0xC0, 0xC8, 0xDD, 0x58, 0x76, 0xD8, 0xD0])
    (.rspUd false false) (.primary 5) (by decide +kernel)
  have r1 := Sent.record (bcdBytes := 7) ⟨0, 0, 0, 0, [0x13], .number 54106040⟩ 0 12 _ (by decide) (by decide)
    (by decide) (by decide) (by decide) (by decide) (by decide) (.bcd 12 4 54106040 (by decide) (by decide))
  have r2 := Sent.record (bcdBytes := 7) ⟨0, 0, 0, 0, [0x6B], .number 5578753522519097368⟩ 0 7 _ (by decide) (by decide)
    (by decide) (by decide) (by decide) (by decide) (by decide) (.binary 7 8 5578753522519097368 (by decide) (by decide) (by decide))
  obtain ⟨o, ho, -⟩ := C123_aes_partial cfg wrongKey (by decide) 0x78 0x56 0x34 0x12 0x93 0x15 0x33 0x03 0x2A 0 0 5
    (by decide +kernel) ⟨69, 76, 83⟩ (by decide +kernel) _ (.address rfl) [misreadData] (by decide) (by simp) [] (by decide)
    markedSealed none (by rw [marked_wrong]; exact ht) _
    (same_message _ _ (Message.reading _ _ _ _ r1 (.reading _ _ _ _ r2 .nil)) (by decide +kernel)) (by decide +kernel) enrichment
  obtain ⟨plain, h, -⟩ := C154_warned_partial cfg env (hexString markedSealed) _ markedSealed exampleKey wrongKey enrichment henv
    ((decode_iff _ _).1 (by decide +kernel)) (by decide) hk' ⟨0x2A, ⟨0, false, false, false, false, false, false⟩, 0x0500⟩
    ⟨12345678, 5, 12, 19, 0x33, 0x03⟩
    ⟨by norm_num, by constructor <;> norm_num, by constructor <;> norm_num, by constructor <;> norm_num⟩ (Or.inl (by decide +kernel))
    [markedData] (by decide) (by simp) [] (by decide) none _ (by decide +kernel) ht ⟨o, ho⟩
  have e : (SentHeader.mk 0x2A ⟨0, false, false, false, false, false, false⟩ 0x0500).mode = 5 := by decide +kernel
  rw [e] at h
  exact ⟨_, plain, h⟩

end MBus
