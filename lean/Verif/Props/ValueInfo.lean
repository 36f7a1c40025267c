import Verif.Lemmas.ValueInfo
import Verif.Props.Wired
/-!
# Properties of value information blocks: C20-C22, C59-C62
-/
namespace MBus
open Spec

/-! ## C20 -/

/-- C20: a value information block is read exactly from the byte strings of its layout: the VIF, the
VIFEs linked by extension bits (at most ten), and the plain text unit with its length byte. -/
theorem C20_accepts_iff (cfg : Cfg) (data : List UInt8) (b : VIB) :
    VIB.tryFrom cfg data = .ok b ↔ VibLayout cfg.plaintextFirst data b := vib_ok cfg data b

/-- C20: the size of a block is one plus the number of VIFEs plus, with a plain text unit, one plus
the text length; these bytes lie within the data and are the VIF, the VIFEs and the counted text in
the order of the build configuration. -/
theorem C20_size (cfg : Cfg) (data : List UInt8) (b : VIB) (h : VIB.tryFrom cfg data = .ok b) :
    b.size = 1 + (b.vifes.getD []).length + (textBytes b.plaintext).length ∧ b.size ≤ data.length ∧
      data.take b.size = b.vif :: (if cfg.plaintextFirst
        then textBytes b.plaintext ++ b.vifes.getD []
        else b.vifes.getD [] ++ textBytes b.plaintext) := by
  have hs : b.size = 1 + (b.vifes.getD []).length + (textBytes b.plaintext).length := by
    obtain ⟨_, v, p⟩ := b
    cases v <;> cases p <;> simp [VIB.size, textBytes]
  have key : ∀ rest, data = (b.vif :: (if cfg.plaintextFirst
        then textBytes b.plaintext ++ b.vifes.getD []
        else b.vifes.getD [] ++ textBytes b.plaintext)) ++ rest →
      b.size ≤ data.length ∧ data.take b.size = b.vif :: (if cfg.plaintextFirst
        then textBytes b.plaintext ++ b.vifes.getD []
        else b.vifes.getD [] ++ textBytes b.plaintext) := by
    intro rest hd
    have hl : b.size = (b.vif :: (if cfg.plaintextFirst
        then textBytes b.plaintext ++ b.vifes.getD []
        else b.vifes.getD [] ++ textBytes b.plaintext)).length := by
      rw [hs]; split <;> simp <;> omega
    rw [hl, hd]
    simp
  refine ⟨hs, ?_⟩
  have e : ∀ vifes : List UInt8, (if vifes = [] then none else some vifes).getD [] = vifes := by
    intro v; split <;> simp_all
  rw [vib_ok] at h
  cases h with
  | single vif rest hv ht => exact key rest (by simp [textBytes])
  | singleText text rest ht h9 => exact key rest (by simp [textBytes, ht])
  | extended vif vifes rest hv hf hc hl => exact key rest (by simp [textBytes])
  | textLast vifes text rest ht hc hl h9 => exact key rest (by simp [textBytes, ht])
  | textBefore vifes text rest ht hc hl h9 => exact key rest (by simp [textBytes, ht])
  | cutOff vif vifes hv hf ha hl => exact key [] (by simp [textBytes, e])
  | cutOffText vifes text ht ha hl h9 => exact key [] (by simp [textBytes, e, ht])

/-- C20, observation: a chain whose last extension bit announces a VIFE beyond the end of the data
is accepted instead of being reported as too short. -/
theorem C20_truncated_chain_accepted (cfg : Cfg) :
    VIB.tryFrom cfg [0x93, 0x92] = .ok ⟨0x93, some [0x92], none⟩ := by
  obtain ⟨a, b⟩ := cfg
  cases a <;> cases b <;> decide +kernel

/-- A volume VIF with two VIFEs, and a plain text unit "abc" after a VIFE. -/
example : VIB.tryFrom cfgDebug [0x93, 0xBC, 0x3A, 0x01] = .ok ⟨0x93, some [0xBC, 0x3A], none⟩ ∧
    VIB.tryFrom cfgDebug [0xFC, 0x3A, 0x03, 0x61, 0x62, 0x63, 0x01] =
      .ok ⟨0xFC, some [0x3A], some [0x61, 0x62, 0x63]⟩ ∧
    VIB.tryFrom ⟨true, true⟩ [0xFC, 0x03, 0x61, 0x62, 0x63, 0x3A, 0x01] =
      .ok ⟨0xFC, some [0x3A], some [0x61, 0x62, 0x63]⟩ := by decide +kernel

/-! ## C21 -/

/-- C21, where reading a block panics: an eleventh VIFE, or a plain text unit of more than nine
characters, at the place the build configuration looks for it. -/
theorem C21_read_panics_iff (cfg : Cfg) (data : List UInt8) : VIB.tryFrom cfg data = .panic ↔
    (∃ vif rest, data = vif :: rest ∧ 128 ≤ vif.toNat ∧
      ¬ (cfg.plaintextFirst = true ∧ vif = 0xFC) ∧
      11 ≤ rest.length ∧ ∀ b ∈ rest.take 10, 128 ≤ b.toNat) ∨
    (cfg.plaintextFirst = false ∧ ∃ vifes n text, data = 0xFC :: (vifes ++ n :: text) ∧
      Chain vifes ∧ vifes.length ≤ 10 ∧ 10 ≤ n.toNat ∧ n.toNat ≤ text.length) ∨
    (cfg.plaintextFirst = true ∧ ∃ vif n text, data = vif :: n :: text ∧
      (vif = 0x7C ∨ vif = 0xFC) ∧ 10 ≤ n.toNat ∧ n.toNat ≤ text.length) ∨
    (cfg.plaintextFirst = true ∧ ∃ text rest, data = 0xFC :: UInt8.ofNat text.length :: (text ++ rest) ∧
      text.length ≤ 9 ∧ 11 ≤ rest.length ∧ ∀ b ∈ rest.take 10, 128 ≤ b.toNat) := by
  constructor
  · intro h
    cases data with
    | nil => rw [vib_nil] at h; simp at h
    | cons vif rest =>
      by_cases hv : vif.toNat < 128
      · by_cases ht : cfg.plaintextFirst = true ∧ vif = 0x7C
        · obtain ⟨ht, rfl⟩ := ht
          rw [vib_7C cfg rest ht, Res.bind_eq_panic] at h
          rcases h with h | ⟨_, _, h⟩
          · obtain ⟨n, text, rfl, h1, h2⟩ := (extract_panic _).mp h
            exact .inr (.inr (.inl ⟨ht, _, _, _, rfl, .inl rfl, h1, h2⟩))
          · simp at h
        · rw [vib_short cfg vif rest hv ht] at h; simp at h
      · by_cases hf : vif = 0xFC
        · subst hf
          cases ht : cfg.plaintextFirst with
          | false =>
            rw [vib_FC_last cfg rest ht, Res.bind_eq_panic] at h
            rcases h with h | ⟨⟨v, r⟩, hv', h⟩
            · obtain ⟨h1, h2⟩ := (vifeLoop_panic _).mp h
              exact .inl ⟨_, _, rfl, by decide, by simp, h1, h2⟩
            · rw [Res.bind_eq_panic] at h
              rcases h with h | ⟨_, _, h⟩
              · obtain ⟨n, text, hr, h1, h2⟩ := (extract_panic _).mp h
                simp only at hr
                subst hr
                rcases (vifeLoop_ok _ _ _).mp hv' with ⟨rfl, hc, hl⟩ | ⟨_, hx, _, _⟩
                · exact .inr (.inl ⟨rfl, _, _, _, rfl, hc, hl, h1, h2⟩)
                · simp at hx
              · simp at h
          | true =>
            rw [vib_FC_first cfg rest ht, Res.bind_eq_panic] at h
            rcases h with h | ⟨p, hp, h⟩
            · obtain ⟨n, text, rfl, h1, h2⟩ := (extract_panic _).mp h
              exact .inr (.inr (.inl ⟨rfl, _, _, _, rfl, .inr rfl, h1, h2⟩))
            · obtain ⟨h9, r', rfl⟩ := (extract_ok _ _).mp hp
              rw [Res.bind_eq_panic, Nat.add_comm, List.drop_succ_cons, List.drop_left] at h
              rcases h with h | ⟨_, _, h⟩
              · obtain ⟨h1, h2⟩ := (vifeLoop_panic _).mp h
                exact .inr (.inr (.inr ⟨rfl, _, _, rfl, h9, h1, h2⟩))
              · simp at h
        · rw [vib_ext cfg vif rest (by omega) hf, Res.bind_eq_panic] at h
          rcases h with h | ⟨_, _, h⟩
          · obtain ⟨h1, h2⟩ := (vifeLoop_panic _).mp h
            exact .inl ⟨_, _, rfl, by omega, by simp [hf], h1, h2⟩
          · simp at h
  · rintro (⟨vif, rest, rfl, hv, hn, h1, h2⟩ | ⟨ht, vifes, n, text, rfl, hc, hl, h1, h2⟩ |
      ⟨ht, vif, n, text, rfl, hvif, h1, h2⟩ | ⟨ht, text, rest, rfl, h9, h1, h2⟩)
    · have hp := (vifeLoop_panic rest).mpr ⟨h1, h2⟩
      by_cases hf : vif = 0xFC
      · subst hf
        have ht : cfg.plaintextFirst = false := by simpa using hn
        rw [vib_FC_last cfg rest ht, hp]; rfl
      · rw [vib_ext cfg vif rest hv hf, hp]; rfl
    · rw [vib_FC_last cfg _ ht, (vifeLoop_ok _ vifes _).mpr (.inl ⟨rfl, hc, hl⟩), Res.bind_ok,
        (extract_panic _).mpr ⟨n, text, rfl, h1, h2⟩]; rfl
    · have hp := (extract_panic (n :: text)).mpr ⟨n, text, rfl, h1, h2⟩
      rcases hvif with rfl | rfl
      · rw [vib_7C cfg _ ht, hp]; rfl
      · rw [vib_FC_first cfg _ ht, hp]; rfl
    · rw [vib_FC_first cfg _ ht, (extract_ok _ text).mpr ⟨h9, _, rfl⟩, Res.bind_ok, Nat.add_comm,
        List.drop_succ_cons, List.drop_left, (vifeLoop_panic rest).mpr ⟨h1, h2⟩]; rfl

/-- C21, where interpreting a block panics: the VIF is 7D, or its codes contribute more than ten
labels or more than ten units. -/
theorem C21_interpret_panics_iff (b : VIB) : ValueInfo.tryFrom b = .panic ↔
    b.vif = 0x7D ∨ ∃ es, blockEffects b = .ok es ∧
      ((total es).labels.length > 10 ∨ (total es).units.length > 10) := by
  have hcod : ∀ v : UInt8, vifCoding v = .panic ↔ v = 0x7D := by decide +kernel
  have hpr : ∀ v : UInt8, primaryVif v ≠ .panic := by decide +kernel
  have hb : blockEffects b = .panic ↔ b.vif = 0x7D := by
    rw [← hcod]
    unfold blockEffects
    simp only
    cases hc : vifCoding b.vif with
    | err e => simp
    | panic => simp
    | ok c =>
      cases c with
      | primary =>
        have := hpr b.vif
        cases hp : primaryVif b.vif <;> simp_all
      | mainExtension => cases (b.vifes.getD [])[0]? <;> simp
      | alternateExtension => cases (b.vifes.getD [])[0]? <;> simp
      | plainText => simp
      | manufacturerSpecific => simp
  rw [valueInfo_eq, Res.bind_eq_panic, hb]
  constructor
  · rintro (h | ⟨es, h1, h2⟩)
    · exact .inl h
    · right
      refine ⟨es, h1, ?_⟩
      by_contra hc
      rw [if_neg hc] at h2; simp at h2
  · rintro (h | ⟨es, h1, h2⟩)
    · exact .inl h
    · right
      exact ⟨es, h1, by rw [if_pos h2]⟩

/-- C21, what holds of the statement: a block with at most four VIFEs whose VIF is not 7D is
interpreted without panic, and one with at most ten VIFEs and no plain text unit is read without
panic.  Missing: the panics of `C21_fails`. -/
theorem C21_never_panics_partial (cfg : Cfg) (data : List UInt8) :
    (data.length ≤ 11 → (∀ vif ∈ data.head?, vif ≠ 0x7C ∧ vif ≠ 0xFC) →
      VIB.tryFrom cfg data ≠ .panic) ∧
    (∀ b, VIB.tryFrom cfg data = .ok b → b.vif ≠ 0x7D → (b.vifes.getD []).length ≤ 4 →
      ValueInfo.tryFrom b ≠ .panic) := by
  constructor
  · intro hl hv hp
    rw [C21_read_panics_iff] at hp
    rcases hp with ⟨vif, rest, rfl, _, _, h, _⟩ | ⟨_, _, _, _, rfl, _⟩ |
      ⟨_, vif, _, _, rfl, h, _⟩ | ⟨_, _, _, rfl, _⟩
    · simp at hl; omega
    · simp at hv
    · simp at hv; tauto
    · simp at hv
  · intro b _ hv hl hp
    rw [C21_interpret_panics_iff] at hp
    rcases hp with h | ⟨es, hes, hlarge⟩
    · exact hv h
    have key : ∀ (e : Effect) (vs : List UInt8), smallEffect e = true → vs.length ≤ 4 →
        es = e :: orthogonalEffects vs false → False := by
      intro e vs he hvs rfl
      have h1 := small_bounds he
      have h2 := orthogonal_bounds vs false
      rw [show e :: orthogonalEffects vs false = [e] ++ orthogonalEffects vs false by rfl,
        total_append] at hlarge
      simp only [List.length_append] at hlarge
      have e1 : (total [e]).labels = e.labels := by simp [total]
      have e2 : (total [e]).units = e.units := by simp [total]
      rw [e1, e2] at hlarge
      omega
    unfold blockEffects at hes
    simp only at hes
    cases hc : vifCoding b.vif with
    | err e => rw [hc] at hes; simp at hes
    | panic => rw [hc] at hes; simp at hes
    | ok c =>
      rw [hc, Res.bind_ok] at hes
      cases c with
      | primary =>
        have hs := primary_small b.vif
        cases hpv : primaryVif b.vif with
        | err e => rw [hpv] at hes; simp at hes
        | panic => rw [hpv] at hes; simp at hes
        | ok e =>
          rw [hpv] at hes hs
          simp only [Res.bind_ok, Res.ok.injEq] at hes
          exact key e _ (by simpa using hs) hl hes.symm
      | mainExtension =>
        cases hx : (b.vifes.getD [])[0]? with
        | none => rw [hx] at hes; simp at hes
        | some x =>
          rw [hx] at hes
          simp only [Res.ofOption_some, Res.bind_ok, Res.ok.injEq] at hes
          exact key _ _ (main_small _ _) (by simp; omega) hes.symm
      | alternateExtension =>
        cases hx : (b.vifes.getD [])[0]? with
        | none => rw [hx] at hes; simp at hes
        | some x =>
          rw [hx] at hes
          simp only [Res.ofOption_some, Res.bind_ok, Res.ok.injEq] at hes
          exact key _ _ (alternate_small _) (by simp; omega) hes.symm
      | plainText =>
        simp only [Res.ok.injEq] at hes
        exact key { labels := [.plainText] } _ rfl hl hes.symm
      | manufacturerSpecific =>
        simp only [Res.ok.injEq] at hes
        rw [← hes] at hlarge
        simp [total] at hlarge

/-- C21 is false of the code, in every build configuration: VIF 7D, eleven VIFEs, five VIFEs with
two units each after an energy VIF, and ten characters of plain text. -/
theorem C21_fails (cfg : Cfg) :
    (∃ b, VIB.tryFrom cfg [0x7D] = .ok b ∧ ValueInfo.tryFrom b = .panic) ∧
    VIB.tryFrom cfg (0x93 :: List.replicate 11 0xFF) = .panic ∧
    (∃ b, VIB.tryFrom cfg [0x83, 0xA8, 0xA8, 0xA8, 0xA8, 0x28] = .ok b ∧
      ValueInfo.tryFrom b = .panic) ∧
    (∃ b, VIB.tryFrom cfg (0x93 :: (List.replicate 9 0xBA ++ [0x3A])) = .ok b ∧
      ValueInfo.tryFrom b = .panic) ∧
    (∃ data, VIB.tryFrom cfg data = .panic ∧ data.length = 13 ∧ data.head? = some 0xFC) := by
  obtain ⟨oc, tf⟩ := cfg
  refine ⟨⟨⟨0x7D, none, none⟩, ?_⟩, ?_, ⟨⟨0x83, some [0xA8, 0xA8, 0xA8, 0xA8, 0x28], none⟩, ?_⟩,
    ⟨⟨0x93, some (List.replicate 9 0xBA ++ [0x3A]), none⟩, ?_⟩,
    ⟨if tf then 0xFC :: 10 :: List.replicate 11 0x41 else 0xFC :: 0x3A :: 10 :: List.replicate 10 0x41,
      ?_⟩⟩ <;> cases oc <;> cases tf <;> decide +kernel

/-- Blocks that meet the hypotheses of the partial theorem. -/
example : VIB.tryFrom cfgDebug [0x93, 0xBC, 0x3A] = .ok ⟨0x93, some [0xBC, 0x3A], none⟩ ∧
    ValueInfo.tryFrom ⟨0x93, some [0xBC, 0x3A], none⟩ =
      .ok ⟨0, [.volume, .accumulationOnlyIfValueIsNegative, .vifContainsUncorrectedUnitOrValue],
        -3, [⟨.meter, 3⟩]⟩ := by decide +kernel

/-! ## C62 -/

/-- C62: the value information of a block is the sum of the contributions of its codes: labels and
units in the order of the codes, powers of ten added. -/
theorem C62_contributions_add_up (b : VIB) (v : ValueInfo) :
    ValueInfo.tryFrom b = .ok v ↔ ∃ es, blockEffects b = .ok es ∧ v = total es ∧
      v.labels.length ≤ 10 ∧ v.units.length ≤ 10 := by
  rw [valueInfo_eq, Res.bind_eq_ok]
  constructor
  · rintro ⟨es, h1, h2⟩
    split at h2
    · simp at h2
    · cases h2
      exact ⟨es, h1, rfl, by omega, by omega⟩
  · rintro ⟨es, h1, rfl, h2, h3⟩
    exact ⟨es, h1, by rw [if_neg (by omega)]⟩

/-- C62: for a primary VIF (below 7C, or with extension bit below FB) the codes are the VIF and the
orthogonal VIFEs; for the extension VIFs FD and FB the first VIFE is the code proper and the others
are orthogonal. -/
theorem C62_codes (b : VIB) :
    ((b.vif.toNat ≤ 0x7B ∨ (0x80 ≤ b.vif.toNat ∧ b.vif.toNat ≤ 0xFA)) → ∀ e,
      primaryVif b.vif = .ok e →
        blockEffects b = .ok (e :: orthogonalEffects (b.vifes.getD []) false)) ∧
    (b.vif = 0xFD → ∀ x xs, b.vifes = some (x :: xs) →
      blockEffects b = .ok (mainVif x xs[0]? :: orthogonalEffects xs false)) ∧
    (b.vif = 0xFB → ∀ x xs, b.vifes = some (x :: xs) →
      blockEffects b = .ok (alternateVif x :: orthogonalEffects xs false)) := by
  refine ⟨?_, ?_, ?_⟩
  · intro h e he
    have hc : vifCoding b.vif = .ok .primary := by
      unfold vifCoding; simp only; rw [if_pos h]
    unfold blockEffects
    simp [hc, he]
  · intro h x xs hx
    have hc : vifCoding b.vif = .ok .mainExtension := by rw [h]; decide +kernel
    unfold blockEffects
    simp [hc, hx]
  · intro h x xs hx
    have hc : vifCoding b.vif = .ok .alternateExtension := by rw [h]; decide +kernel
    unfold blockEffects
    simp [hc, hx]

/-- C62: a plain text unit contributes its label before the VIFEs; manufacturer specific VIFs
contribute their label only, the VIFEs have no defined meaning. -/
theorem C62_text_and_manufacturer_codes (b : VIB) :
    ((b.vif = 0x7C ∨ b.vif = 0xFC) → blockEffects b =
      .ok ({ labels := [.plainText] } :: orthogonalEffects (b.vifes.getD []) false)) ∧
    ((b.vif = 0x7E ∨ b.vif = 0x7F ∨ b.vif = 0xFE ∨ b.vif = 0xFF) →
      blockEffects b = .ok [{ labels := [.manufacturerSpecific] }]) ∧
    ((b.vif = 0xFD ∨ b.vif = 0xFB) → b.vifes.getD [] = [] → blockEffects b = .err .dataTooShort) := by
  refine ⟨?_, ?_, ?_⟩
  · intro h
    have hc : vifCoding b.vif = .ok .plainText := by rcases h with h | h <;> rw [h] <;> decide +kernel
    unfold blockEffects
    simp [hc]
  · intro h
    have hc : vifCoding b.vif = .ok .manufacturerSpecific := by
      rcases h with h | h | h | h <;> rw [h] <;> decide +kernel
    unfold blockEffects
    simp [hc]
  · intro h he
    unfold blockEffects
    rcases h with h | h
    · have hc : vifCoding b.vif = .ok .mainExtension := by rw [h]; decide +kernel
      simp [hc, he]
    · have hc : vifCoding b.vif = .ok .alternateExtension := by rw [h]; decide +kernel
      simp [hc, he]

/-- C62: each orthogonal VIFE contributes its meaning, those after FC the meaning of the extension
table, and FC itself nothing. -/
theorem C62_orthogonal_codes (x : UInt8) (xs : List UInt8) :
    (x ≠ 0xFC → orthogonalEffects (x :: xs) false = orthogonalVife x :: orthogonalEffects xs false) ∧
    (x ≠ 0xFC → orthogonalEffects (0xFC :: x :: xs) false =
      orthogonalExtVife x :: orthogonalEffects xs false) := by
  constructor
  · intro h
    rw [orthogonalEffects.eq_2, if_neg h]; rfl
  · intro h
    rw [orthogonalEffects.eq_2, if_pos rfl, orthogonalEffects.eq_2, if_neg h]; rfl

/-- Volume 10^-3 m3, corrected by 10^-6 and then by 10^3. -/
example : ValueInfo.tryFrom ⟨0x93, some [0xF0, 0x7D], none⟩ =
    .ok ⟨0, [.volume], -6, [⟨.meter, 3⟩]⟩ := by decide +kernel

/-! ## C22 -/

/-- C22: every primary VIF below 70 and the codes 78-7A mean what EN 13757-3 says, with or without
the extension bit; the reserved code 6F is refused. -/
theorem C22_primary_table_partial (vif : UInt8) (h : vif.toNat % 128 < 0x70 ∨
    (0x78 ≤ vif.toNat % 128 ∧ vif.toNat % 128 ≤ 0x7A)) :
    (primaryVif vif).toOption = meaning primaryRows (vif.toNat % 128) := by
  revert vif; decide +kernel

/-- C22: the value information reported for such a VIF without extension. -/
theorem C22_primary_reported (vif : UInt8) (e : Effect)
    (h : vif.toNat < 0x70 ∨ (0x78 ≤ vif.toNat ∧ vif.toNat ≤ 0x7A))
    (he : meaning primaryRows vif.toNat = some e) :
    ValueInfo.tryFrom ⟨vif, none, none⟩ = .ok ⟨0, e.labels, e.scale, e.units⟩ := by
  have : ∀ vif : UInt8, (vif.toNat < 0x70 ∨ (0x78 ≤ vif.toNat ∧ vif.toNat ≤ 0x7A)) →
      ∀ e ∈ meaning primaryRows vif.toNat, ValueInfo.tryFrom ⟨vif, none, none⟩ =
        .ok ⟨0, e.labels, e.scale, e.units⟩ := by decide +kernel
  exact this vif h e he

/-- C22 is false for the duration codes 70-77: the quantity is right but the unit (seconds,
minutes, hours, days) is missing. -/
theorem C22_duration_units_missing (vif : UInt8) (h : 0x70 ≤ vif.toNat ∧ vif.toNat ≤ 0x77) :
    ∃ e s, meaning primaryRows vif.toNat = some s ∧ primaryVif vif = .ok e ∧
      e.labels = s.labels ∧ s.units.length = 1 ∧ e.units = [] := by
  have : ∀ vif : UInt8, (0x70 ≤ vif.toNat ∧ vif.toNat ≤ 0x77) →
      (meaning primaryRows vif.toNat).isSome ∧ (primaryVif vif).toOption.isSome ∧
      (primaryVif vif).toOption.map (·.labels) = (meaning primaryRows vif.toNat).map (·.labels) ∧
      (meaning primaryRows vif.toNat).map (·.units.length) = some 1 ∧
      (primaryVif vif).toOption.map (·.units) = some [] := by decide +kernel
  obtain ⟨h1, h2, h3, h4, h5⟩ := this vif h
  obtain ⟨s, hs⟩ := Option.isSome_iff_exists.mp h1
  cases hp : primaryVif vif with
  | err e => rw [hp] at h2; simp at h2
  | panic => rw [hp] at h2; simp [Res.toOption] at h2
  | ok e =>
    rw [hs] at h3 h4
    rw [hp] at h3 h5
    simp at h3 h4 h5
    exact ⟨e, s, hs, rfl, h3, h4, h5⟩

/-- Energy in Wh (10^0), volume flow in m3/h (10^-3), external temperature (10^-1). -/
example : meaning primaryRows 0x03 = some { units := [⟨.watt, 1⟩, ⟨.hour, 1⟩], labels := [.energy] } ∧
    meaning primaryRows 0x3B =
      some { units := [⟨.meter, 3⟩, ⟨.hour, -1⟩], labels := [.volumeFlow], scale := -3 } ∧
    ValueInfo.tryFrom ⟨0x66, none, none⟩ = .ok ⟨0, [.externalTemperature], -1, [⟨.celsius, 1⟩]⟩ := by
  decide +kernel

/-! ## C59 -/

/-- C59: the main extension table (VIF FD) agrees with EN 13757-3 on all codes except those of
`C59_main_table_fails`; codes without a meaning are reported as reserved. -/
theorem C59_main_table_partial (code : UInt8)
    (h1 : ¬ (0x2C ≤ code.toNat % 128 ∧ code.toNat % 128 ≤ 0x39))
    (h2 : ¬ (0x3B ≤ code.toNat % 128 ∧ code.toNat % 128 ≤ 0x3F))
    (h3 : code.toNat % 128 ≠ 0x6F ∧ code.toNat % 128 ≠ 0x70) (h4 : code.toNat % 128 ≠ 0x7D) (next : Option UInt8) :
    mainVif code next = (meaning mainRows (code.toNat % 128)).getD { labels := [.reserved] } := by
  have hn : mainVif code next = mainVif code none := by
    have h7 : (code &&& 0x7F).toNat ≠ 0x7D := by
      have : ∀ b : UInt8, (b &&& 0x7F).toNat = b.toNat % 128 := by decide +kernel
      rw [this]; exact h4
    unfold mainVif
    simp only
    simp only [h7, if_false]
  rw [hn]
  revert h1 h2 h3 h4; clear hn; revert code; decide +kernel

/-- C59: after FD FD the following code selects from the second level table. -/
theorem C59_second_level_table (code next : UInt8) (h : code.toNat % 128 = 0x7D) :
    mainVif code (some next) =
      (meaning secondLevelRows (next.toNat % 128)).getD { labels := [.reserved] } := by
  have hc : (code &&& 0x7F).toNat = 0x7D := by
    have : ∀ b : UInt8, (b &&& 0x7F).toNat = b.toNat % 128 := by decide +kernel
    rw [this]; exact h
  have hm : mainVif code (some next) = mainVif 0x7D (some next) := by
    unfold mainVif
    simp [hc]
  rw [hm]
  clear hm hc h
  revert next; decide +kernel

/-- C59 is false of the code: the codes 3B-3F are treated as reserved and their meanings appear at
31-35 instead (33 with the unit metre for minute), 30 is read as a heat cost allocator value, the durations
2C-2F and the periods 36-39 are treated as reserved, 6F is in hours instead of years, and the date 70 has
the unit second. -/
theorem C59_main_table_fails :
    meaning mainRows 0x3B = some (mainVif 0x31 none) ∧
    meaning mainRows 0x3C = some (mainVif 0x32 none) ∧
    (mainVif 0x33 none).units = [⟨.meter, 1⟩] ∧ (mainVif 0x30 none).labels = [.dimensionlessHCA] ∧
    (∀ code : UInt8, 0x3B ≤ code.toNat ∧ code.toNat ≤ 0x3F →
      mainVif code none = { labels := [.reserved] }) ∧
    (∀ code : UInt8, (0x2C ≤ code.toNat ∧ code.toNat ≤ 0x2F) ∨ (0x36 ≤ code.toNat ∧ code.toNat ≤ 0x39) →
      mainVif code none = { labels := [.reserved] } ∧ (meaning mainRows code.toNat).any (·.units ≠ [])) ∧
    (mainVif 0x70 none).units = [⟨.second, 1⟩] ∧ (meaning mainRows 0x70).map (·.units) = some [] ∧
    (mainVif 0x6F none).units = [⟨.hour, 1⟩] ∧
    (meaning mainRows 0x6F).map (·.units) = some [⟨.year, 1⟩] := by
  decide +kernel

example : meaning mainRows 0x48 = some { units := [⟨.volt, 1⟩], labels := [.voltage], scale := -1 } ∧
    ValueInfo.tryFrom ⟨0xFD, some [0x48], none⟩ = .ok ⟨0, [.voltage], -1, [⟨.volt, 1⟩]⟩ := by
  decide +kernel

/-- C59, observation: after FD FD the second VIFE selects the meaning and is then read again as an
orthogonal VIFE, which adds a spurious label. -/
theorem C59_second_level_read_twice :
    ValueInfo.tryFrom ⟨0xFD, some [0xFD, 0x02], none⟩ =
      .ok ⟨0, [.remainingBatteryLifeTime, .reservedForObjectActions], 0, [⟨.month, 1⟩]⟩ := by
  decide +kernel

/-! ## C60 -/

/-- C60: the alternate extension table (VIF FB) agrees with EN 13757-3 on all codes except 00 and
01; codes without a meaning are reported as reserved. -/
theorem C60_alternate_table_partial (code : UInt8) (h : 2 ≤ code.toNat % 128) :
    alternateVif code = (meaning alternateRows (code.toNat % 128)).getD { labels := [.reserved] } := by
  revert code; decide +kernel

/-- C60 is false of the code for 00 and 01 (energy in MWh): the units are W^3 per hour instead of
watt hours. -/
theorem C60_alternate_table_fails (code : UInt8) (h : code.toNat % 128 < 2) :
    (alternateVif code).units = [⟨.watt, 3⟩, ⟨.hour, -1⟩] ∧
      (meaning alternateRows (code.toNat % 128)).map (·.units) = some [⟨.watt, 1⟩, ⟨.hour, 1⟩] ∧
      (meaning alternateRows (code.toNat % 128)).map (·.scale) = some (alternateVif code).scale ∧
      (meaning alternateRows (code.toNat % 128)).map (·.labels) = some (alternateVif code).labels := by
  revert code; decide +kernel

example : ValueInfo.tryFrom ⟨0xFB, some [0x09], none⟩ = .ok ⟨0, [.energy], 9, [⟨.joul, 1⟩]⟩ ∧
    meaning alternateRows 0x09 = some { units := [⟨.joul, 1⟩], labels := [.energy], scale := 9 } := by
  decide +kernel

/-! ## C61 -/

/-- C61: the table of combinable (orthogonal) VIFEs agrees with EN 13757-3 on all codes except 2C,
6B, 6E and 6F; the additive correction constants 78-7B contribute the power of ten nn-3 to the
offset; codes without a meaning are reported as reserved. -/
theorem C61_orthogonal_table_partial (code : UInt8) (h1 : code.toNat % 128 ≠ 0x2C)
    (h2 : code.toNat % 128 ≠ 0x6B) (h3 : code.toNat % 128 ≠ 0x6E) (h4 : code.toNat % 128 ≠ 0x6F) :
    (¬ (0x78 ≤ code.toNat % 128 ∧ code.toNat % 128 ≤ 0x7B) → orthogonalVife code =
      (meaning orthogonalRows (code.toNat % 128)).getD { labels := [.reserved] }) ∧
    (0x78 ≤ code.toNat % 128 ∧ code.toNat % 128 ≤ 0x7B → orthogonalVife code =
      { offset := (code.toNat % 128 : Int) - 0x78 - 3 }) := by
  revert code; decide +kernel

/-- C61: the extension table (after FC) agrees with EN 13757-3 on all codes. -/
theorem C61_orthogonal_extension_table (code : UInt8) :
    orthogonalExtVife code =
      (meaning orthogonalExtRows (code.toNat % 128)).getD { labels := [.reserved] } := by
  revert code; decide +kernel

/-- C61 is false of the code: "per litre" is reported as litre, and the begin/end first/last labels
of 6B, 6E and 6F are exchanged. -/
theorem C61_orthogonal_table_fails :
    (orthogonalVife 0x2C).units = [⟨.liter, 1⟩] ∧
    (meaning orthogonalRows 0x2C).map (·.units) = some [⟨.liter, -1⟩] ∧
    (orthogonalVife 0x6B).labels = [.dateOfBeginLast] ∧
    (meaning orthogonalRows 0x6B).map (·.labels) = some [.dateOfEndFirst] ∧
    (orthogonalVife 0x6E).labels = [.dateOfEndLast] ∧
    (meaning orthogonalRows 0x6E).map (·.labels) = some [.dateOfBeginLast] ∧
    (orthogonalVife 0x6F).labels = [.dateOfEndFirst] ∧
    (meaning orthogonalRows 0x6F).map (·.labels) = some [.dateOfEndLast] := by
  decide +kernel

/-- C61, observation: an additive correction of 10^0 cannot be told apart from no correction. -/
theorem C61_additive_constant_ambiguous (vif : UInt8) (vifes : List UInt8)
    (h : vif.toNat ≤ 0x7B ∨ (0x80 ≤ vif.toNat ∧ vif.toNat ≤ 0xFA)) :
    ValueInfo.tryFrom ⟨vif, some (0xFB :: vifes), none⟩ =
      ValueInfo.tryFrom ⟨vif, some vifes, none⟩ := by
  have hc : vifCoding vif = .ok .primary := by
    unfold vifCoding; simp only; rw [if_pos h]
  have he : orthogonalEffects (0xFB :: vifes) false = {} :: orthogonalEffects vifes false := by
    rw [orthogonalEffects.eq_2, if_neg (by decide)]
    congr 1
  rw [valueInfo_eq, valueInfo_eq]
  unfold blockEffects
  simp only [hc, Option.getD_some, Res.bind_ok, he]
  cases primaryVif vif with
  | err e => rfl
  | panic => rfl
  | ok e =>
    have : total (e :: {} :: orthogonalEffects vifes false) =
        total (e :: orthogonalEffects vifes false) := by
      simp [total]
    simp only [Res.bind_ok, this]

example : (meaning orthogonalRows 0x22) = some { units := [⟨.hour, -1⟩] } ∧
    (meaning orthogonalRows 0x73) = some { scale := -3 } ∧
    orthogonalVife 0xF3 = { scale := -3 } ∧
    orthogonalExtVife 0x02 = { labels := [.atPhaseL2] } := by decide +kernel

/-! ## C62 in terms of the tables -/

/-- C62, end to end in terms of the standard's tables: a primary VIF with up to four combinable VIFEs
(outside the codes on which the tables of the code are wrong, and without the FC escape) is reported
with the labels and units of all codes in order and the sum of their powers of ten. -/
theorem C62_meanings_add_up (vif : UInt8) (vifes : List UInt8) (e : Effect)
    (hv : vif.toNat % 128 < 0x70 ∨ (0x78 ≤ vif.toNat % 128 ∧ vif.toNat % 128 ≤ 0x7A))
    (he : meaning primaryRows (vif.toNat % 128) = some e) (hl : vifes.length ≤ 4)
    (hx : ∀ x ∈ vifes, x ≠ 0xFC ∧ x.toNat % 128 ∉ [0x2C, 0x6B, 0x6E, 0x6F, 0x78, 0x79, 0x7A, 0x7B]) :
    ValueInfo.tryFrom ⟨vif, if vifes = [] then none else some vifes, none⟩ =
      .ok (total (e :: vifes.map fun x =>
        (meaning orthogonalRows (x.toNat % 128)).getD { labels := [.reserved] })) := by
  have hg : (if vifes = [] then none else some vifes).getD [] = vifes := by split <;> simp_all
  have hp : primaryVif vif = .ok e := by
    have := C22_primary_table_partial vif hv
    rw [he] at this
    cases h : primaryVif vif <;> simp_all [Res.toOption]
  have ho : ∀ vs : List UInt8, (∀ x ∈ vs, x ≠ 0xFC ∧
      x.toNat % 128 ∉ [0x2C, 0x6B, 0x6E, 0x6F, 0x78, 0x79, 0x7A, 0x7B]) →
      orthogonalEffects vs false = vs.map fun x =>
        (meaning orthogonalRows (x.toNat % 128)).getD { labels := [.reserved] } := by
    intro vs
    induction vs with
    | nil => intro _; rfl
    | cons x xs ih =>
      intro h
      obtain ⟨h1, h2⟩ := h x (by simp)
      simp only [List.mem_cons, List.not_mem_nil, or_false, not_or] at h2
      rw [(C62_orthogonal_codes x xs).1 h1, ih (fun y hy => h y (by simp [hy])), List.map_cons,
        (C61_orthogonal_table_partial x h2.1 h2.2.1 h2.2.2.1 h2.2.2.2.1).1 (by omega)]
  have hvif : vif.toNat ≤ 0x7B ∨ (0x80 ≤ vif.toNat ∧ vif.toNat ≤ 0xFA) := by
    have := vif.toNat_lt
    omega
  have hb := (C62_codes ⟨vif, if vifes = [] then none else some vifes, none⟩).1 hvif e hp
  rw [hg, ho vifes hx] at hb
  rw [valueInfo_eq, hb, Res.bind_ok, if_neg]
  have h1 := small_bounds (e := e) (by
    have := primary_small vif
    rw [hp] at this
    simpa using this)
  have h2 := orthogonal_bounds vifes false
  rw [ho vifes hx] at h2
  rw [show ∀ l, e :: l = [e] ++ l from fun _ => rfl, total_append]
  simp only [List.length_append]
  have e1 : (total [e]).labels = e.labels := by simp [total]
  have e2 : (total [e]).units = e.units := by simp [total]
  rw [e1, e2]
  omega

example : ValueInfo.tryFrom ⟨0x83, some [0xA2, 0x74], none⟩ =
    .ok ⟨0, [.energy], -2, [⟨.watt, 1⟩, ⟨.hour, 1⟩, ⟨.hour, -1⟩]⟩ := by decide +kernel

end MBus
