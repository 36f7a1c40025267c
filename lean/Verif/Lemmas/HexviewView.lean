import Verif.Lemmas.HexviewFrame
import Verif.Lemmas.AnnotateAgree
/-! # Lemmas: the annotated view of a telegram -/
namespace MBus
open Spec

/-! ## Replacing the encrypted payload -/

theorem replace_covers (cfg : Cfg) (dt : Data → List Char) (display : List UInt8) (a b : Nat)
    (segs out : List ByteSegment) (hc : Covers a b segs)
    (h : replaceEncrypted cfg dt display segs = .ok out) : Covers a b out := by
  induction segs generalizing a out with
  | nil => cases h; exact hc
  | cons s rest ih =>
    obtain ⟨h1, h2, h3⟩ := hc
    unfold replaceEncrypted at h
    split at h
    · rw [Res.bind_eq_ok] at h
      obtain ⟨records, hr, h⟩ := h
      rw [Res.bind_eq_ok] at h
      obtain ⟨more, hm, h⟩ := h
      cases h
      refine covers_append ?_ (ih _ _ h3 hm)
      split
      · exact covers_one _ _ _ h1 rfl (by omega)
      · rename_i hne
        unfold recordsAt at hr
        split at hr
        · rename_i x hx
          unfold slice? at hx
          split at hx
          · cases hx
            have := annotateRecords_covers cfg dt _ _ _ _ hr
            rw [show s.start + ((display.take s.stop).drop s.start).length = s.stop by
              rw [List.length_drop, List.length_take]; omega] at this
            rw [h1] at this
            exact this
          · cases hx
        · cases hr; simp at hne
    · rw [Res.bind_eq_ok] at h
      obtain ⟨more, hm, h⟩ := h
      cases h
      exact ⟨h1, h2, ih _ _ h3 hm⟩

theorem replace_id (cfg : Cfg) (dt : Data → List Char) (display : List UInt8)
    (segs : List ByteSegment) (hs : ∀ s ∈ segs, s.kind ≠ .encryptedPayload) :
    replaceEncrypted cfg dt display segs = .ok segs := by
  induction segs with
  | nil => rfl
  | cons s rest ih =>
    unfold replaceEncrypted
    rw [if_neg (hs s (by simp)), ih (fun x hx => hs x (by simp [hx]))]
    rfl

theorem replace_append (cfg : Cfg) (dt : Data → List Char) (display : List UInt8)
    (head segs : List ByteSegment) (hs : ∀ s ∈ head, s.kind ≠ .encryptedPayload) :
    replaceEncrypted cfg dt display (head ++ segs) =
      (do let more ← replaceEncrypted cfg dt display segs; .ok (head ++ more)) := by
  induction head with
  | nil =>
    simp only [List.nil_append]
    cases replaceEncrypted cfg dt display segs <;> rfl
  | cons s rest ih =>
    rw [List.cons_append, replaceEncrypted, if_neg (hs s (by simp)), ih (fun x hx => hs x (by simp [hx]))]
    cases replaceEncrypted cfg dt display segs <;> rfl

/-- The one encrypted segment is replaced by the records. -/
theorem replace_one (cfg : Cfg) (dt : Data → List Char) (P block S : List UInt8)
    (head post : List ByteSegment) (out : List ByteSegment) (text : List Char) (hne : block ≠ [])
    (hs : ∀ s, s ∈ head ∨ s ∈ post → s.kind ≠ .encryptedPayload)
    (h : replaceEncrypted cfg dt (P ++ (block ++ S))
      (head ++ ([recordSeg P.length (P.length + block.length) .encryptedPayload text none] ++ post)) =
        .ok out) :
    ∃ vs, annotateRecords cfg dt P.length block = .ok vs ∧ out = head ++ (vs ++ post) := by
  rw [replace_append _ _ _ _ _ (fun s hs' => hs s (.inl hs')), Res.bind_eq_ok] at h
  obtain ⟨more, hm, h⟩ := h
  cases h
  rw [List.cons_append, List.nil_append, replaceEncrypted,
    if_pos (show (recordSeg P.length (P.length + block.length) .encryptedPayload text none).kind =
      .encryptedPayload from rfl)] at hm
  have hsl : slice? (P ++ (block ++ S))
      (recordSeg P.length (P.length + block.length) .encryptedPayload text none).start
      (recordSeg P.length (P.length + block.length) .encryptedPayload text none).stop = some block := by
    rw [← List.append_assoc]
    exact slice?_mid P block S _ rfl
  simp only [recordsAt, hsl] at hm
  rw [Res.bind_eq_ok] at hm
  obtain ⟨vs, hv, hm⟩ := hm
  rw [replace_id _ _ _ _ (fun s hs' => hs s (.inr hs')), Res.bind_ok] at hm
  cases hm
  refine ⟨vs, hv, ?_⟩
  have hc := annotateRecords_covers cfg dt _ _ _ _ hv
  rcases vs with _ | ⟨v, vs⟩
  · have hl : 0 < block.length := List.length_pos_iff.mpr hne
    have : P.length = P.length + block.length := hc
    omega
  · rfl

/-! ## The decrypted view of a parsed telegram -/

theorem recovered_secured {aes : AesBlock} {key : List UInt8} {link : Option ManufacturerId}
    {blk : UserDataBlock} {plain : List UInt8} (h : Recovered aes key link blk plain) :
    securedData (withData plain blk) = some (true, plain) := by
  have hne : ∀ {cf m iv}, ModeIv cf m iv → decide (modeNumber cf ≠ 0) = true := by
    intro cf m iv hm
    rcases hm with ⟨h, _⟩ | ⟨h, _⟩ <;> rw [h] <;> rfl
  cases h with
  | long ell h block code iv _ h1 h2 h3 => simp only [withData, securedData, hne h2]
  | short ell h block id iv _ h1 h2 h3 => simp only [withData, securedData, hne h2]

theorem view_records {cfg : Cfg} {dt : Data → List Char} {aes : AesBlock} (haes : BlockSized aes)
    {key : List UInt8} {link : Option ManufacturerId} {blk : UserDataBlock} {plain display : List UInt8}
    {rs : Option DataRecords} {segs out : List ByteSegment}
    (hr : Recovered aes key link blk plain) (hp : ParsedAs cfg display (withData plain blk) rs)
    (hs : annotateFrame cfg dt display = .ok segs)
    (ho : replaceEncrypted cfg dt display segs = .ok out) :
    (∀ s ∈ out, s.kind ≠ .encryptedPayload) ∧
    ((∀ r, .ok r ∈ parseDataRecords cfg false plain → r.header.raw.dib.dif ≠ 0x7F) →
      RecordsAnnotated display out (parseDataRecords cfg false plain)) ∧
    ∃ n vs, annotateRecords cfg dt n plain = .ok vs := by
  obtain ⟨_, payload, hb, ⟨A⟩⟩ := parsedAs_appAt hp hs
  obtain ⟨head, vs, post, P, S, rfl, rfl, e3, e4⟩ := appAt_bytes A hb (recovered_secured hr)
  obtain ⟨hlen, hv⟩ := recovered_length haes hr
  have hne : plain ≠ [] := by
    rintro rfl
    exact hv (List.length_eq_zero_iff.mp hlen.symm)
  have he : plain.isEmpty = false := by simpa using hne
  unfold variableDataSegs at e4
  simp only [if_true, he, Bool.false_eq_true, if_false, Res.ok.injEq] at e4
  subst e4
  obtain ⟨vs, hv', rfl⟩ := replace_one cfg dt P plain S head post out _ hne (fun s hs => (e3 s hs).2) ho
  refine ⟨?_, ?_, _, vs, hv'⟩
  · intro s hs
    rcases List.mem_append.mp hs with hs | hs
    · exact (e3 s (.inl hs)).2
    · rcases List.mem_append.mp hs with hs | hs
      · exact (records_layer _ _ _ _ _ _ hv' s hs).2
      · exact (e3 s (.inr hs)).2
  · intro h7
    exact (mid_records rfl (fun s hs => (e3 s hs).1) hv' h7).1

/-- The parts of an annotated view. -/
theorem view_cases {cfg : Cfg} {dt : Data → List Char} {aes : AesBlock} {data : List UInt8}
    {key : Option (List UInt8)} {v : AnnotatedView} (h : annotatedView cfg dt aes data key = .ok v) :
    ∃ segs, annotateFrame cfg dt data = .ok segs ∧
      ((v = ⟨data, segs, false, none⟩ ∧ ∀ k, key = some k → ∃ e, decryptedHexview cfg aes k data = .err e) ∨
       ∃ k display inner out, key = some k ∧ decryptedHexview cfg aes k data = .ok display ∧
        annotateFrame cfg dt display = .ok inner ∧ replaceEncrypted cfg dt display inner = .ok out ∧
        v = ⟨display, out, true, some (data, segs)⟩) := by
  unfold annotatedView at h
  rw [Res.bind_eq_ok] at h
  obtain ⟨segs, hs, h⟩ := h
  refine ⟨segs, hs, ?_⟩
  cases key with
  | none => cases h; exact .inl ⟨rfl, fun k hk => by cases hk⟩
  | some k =>
    simp only at h
    cases hd : decryptedHexview cfg aes k data with
    | err e =>
      rw [hd] at h; cases h
      exact .inl ⟨rfl, fun k' hk => by cases hk; exact ⟨_, hd⟩⟩
    | panic => rw [hd] at h; cases h
    | ok display =>
      rw [hd] at h
      simp only [decryptedView] at h
      rw [Res.bind_eq_ok] at h
      obtain ⟨inner, hi, h⟩ := h
      rw [Res.bind_eq_ok] at h
      obtain ⟨out, ho, h⟩ := h
      cases h
      exact .inr ⟨k, display, inner, out, rfl, hd, hi, (mapErr_eq_ok _ _ _).1 ho, rfl⟩

/-! ## Wired and wireless telegrams -/

/-- A telegram both framings accept is a single character or a long frame of 105 bytes. -/
theorem wired_wireless {data : List UInt8} {g : WiredFrame} {f : WirelessFrame}
    (h1 : WiredTelegram data g) (h2 : WirelessTelegram data f) :
    data.head? = some 0xE5 ∨ data.length = 105 ∧ data.take 3 = [0x68, 0x63, 0x63] := by
  have both : ∀ x c a (payload : List UInt8), payload.length ≤ 253 →
      WirelessTelegram (longFrameBytes x c a payload) f →
      (longFrameBytes x c a payload).length = 105 ∧
        (longFrameBytes x c a payload).take 3 = [0x68, 0x63, 0x63] := by
    intro x c a payload hl h
    have hp : payload.length = 97 := by
      generalize hd : longFrameBytes x c a payload = d at h
      cases h with
      | mk l c' m0 m1 d0 d1 d2 d3 ver dev ci rest pl i j k fn hll hfn hi hj hk hm hbcd hp =>
        have hlen := congrArg List.length hd
        simp only [longFrameBytes, List.cons_append, List.nil_append, List.length_append, List.length_cons,
          List.length_nil] at hlen
        simp only [longFrameBytes, List.cons_append, List.nil_append, List.cons.injEq] at hd
        obtain ⟨h0, -⟩ := hd
        subst h0
        have e0 : (0x68 : UInt8).toNat = 104 := rfl
        rw [e0] at hll
        omega
    constructor
    · simp [longFrameBytes, hp]
    · simp only [longFrameBytes, hp, List.cons_append, List.take_succ_cons, List.take_zero]
      rfl
  cases h1 with
  | single rest => exact .inl rfl
  | short c a fn hf => cases h2
  | long x c a payload fn hf hc hl => exact .inr (both x c a payload hl h2)
  | control x a payload hl => exact .inr (both x 0x53 a payload hl h2)

theorem not_wired {cfg : Cfg} {data : List UInt8} (hw : ∀ g, ¬ WiredTelegram data g)
    (hl : 5 < data.length) : ∃ e, WiredFrame.tryFrom cfg data = .err e := by
  cases h : WiredFrame.tryFrom cfg data with
  | err e => exact ⟨e, rfl⟩
  | panic =>
    obtain ⟨_, _, h⟩ := (C04_wired_panics_iff cfg data).1 h
    omega
  | ok g => exact absurd ((C01_wired_accepts_exactly_telegrams cfg data g).1 h) (hw g)

/-- The first byte tells a telegram of some length from the wired ones. -/
theorem not_wired_head {data : List UInt8} (h1 : data.head? ≠ some 0x68)
    (h2 : data.head? ≠ some 0xE5) (hl : 5 < data.length) : ∀ g, ¬ WiredTelegram data g := by
  intro g ht
  cases ht with
  | single rest => exact absurd rfl h2
  | short c a fn hf => simp [shortFrameBytes] at hl
  | long x c a payload fn hf hc hl => exact absurd rfl h1
  | control x a payload hl => exact absurd rfl h1

theorem header_two {payload : List UInt8} {blk : UserDataBlock} (h : Block payload blk)
    (hb : ∀ ell block, blk ≠ .noTpl ell block) (hv : variableData blk ≠ []) :
    2 + (variableData blk).length ≤ payload.length := by
  cases h with
  | reset _ _ _ _ => exact absurd rfl hv
  | fixed => exact absurd rfl hv
  | noTpl block => exact absurd rfl (hb _ _)
  | ellI cc acc inner b _ hin he =>
    obtain ⟨header, h1, _⟩ := block_header hin (blk := b) (by
      cases b <;> cases he <;> exact hv)
    have : variableData b = variableData blk := by cases b <;> cases he <;> rfl
    rw [this] at h1
    rw [h1]
    simp only [List.length_append, List.length_cons, List.length_nil]
    omega
  | _ => simp only [variableData, List.length_append, List.length_cons, List.length_nil]; omega

theorem recovered_header {aes : AesBlock} (haes : BlockSized aes) {key : List UInt8}
    {link : Option ManufacturerId} {blk : UserDataBlock} {payload plain : List UInt8}
    (h : Recovered aes key link blk plain) (hb : Block payload blk) :
    2 + (variableData blk).length ≤ payload.length :=
  header_two hb (by intro e b; cases h <;> intro h <;> cases h) (recovered_length haes h).2

/-- A wireless telegram without trailing CRC, with other data. -/
theorem wireless_other {data header old plain : List UInt8} {f : WirelessFrame}
    (hf : WirelessTelegram data f) (hd : f.data = data.drop 10) (ho : f.data = header ++ old)
    (hne : header ≠ []) (hl : plain.length = old.length)
    (hcrc : ∀ body hi lo, data.take 10 ++ (header ++ plain) = body ++ [hi, lo] → ¬ CrcOk body hi lo) :
    WirelessTelegram (data.take 10 ++ (header ++ plain)) { f with data := header ++ plain } := by
  cases hf with
  | mk l c m0 m1 d0 d1 d2 d3 ver dev ci rest payload i j k fn hll hfn hi hj hk hm hbcd hp =>
    simp only [List.drop_succ_cons, List.drop_zero] at hd
    simp only at ho
    subst hd
    rcases header with _ | ⟨y, header⟩
    · exact absurd rfl hne
    · simp only [List.cons_append, List.cons.injEq] at ho
      obtain ⟨rfl, rfl⟩ := ho
      simp only [List.take_succ_cons, List.take_zero, List.cons_append, List.nil_append] at hcrc ⊢
      refine .mk l c m0 m1 d0 d1 d2 d3 ver dev ci (header ++ plain) (ci :: (header ++ plain)) i j k fn
        (by rw [hll]; simp [hl]) hfn hi hj hk hm hbcd (.plain ?_)
      intro p a b he
      exact hcrc ([l, c, m0, m1, d0, d1, d2, d3, ver, dev] ++ p) a b (by
        rw [List.append_assoc, ← he]; rfl)

/-- Bytes with a well-formed link layer are a wireless telegram, with or without a CRC. -/
theorem exists_wireless (l c m0 m1 d0 d1 d2 d3 ver dev ci : UInt8) (rest : List UInt8) (i j k : Nat)
    (hl : l.toNat = 10 + rest.length) (hi : IsLetter i) (hj : IsLetter j) (hk : IsLetter k)
    (hm : m0.toNat + 256 * m1.toNat = flagId i j k) (hbcd : IsBcd d0 ∧ IsBcd d1 ∧ IsBcd d2 ∧ IsBcd d3) :
    ∃ f, WirelessFrame.tryFrom (l :: c :: m0 :: m1 :: d0 :: d1 :: d2 :: d3 :: ver :: dev :: ci :: rest) =
      .ok f ∧ rest.length ≤ f.data.length + 1 := by
  obtain ⟨fn, hfn⟩ : ∃ fn : Option Function, ∀ g, fn = some g ↔ FunctionCode c g := by
    by_cases h : ∃ g, FunctionCode c g
    · obtain ⟨g, hg⟩ := h
      exact ⟨some g, fun g' => ⟨fun h => by cases h; exact hg, fun h => by
        rw [← functionTryFrom_iff] at hg h
        rw [hg] at h; cases h; rfl⟩⟩
    · exact ⟨none, fun g => ⟨fun h => (by cases h), fun hg => absurd ⟨g, hg⟩ h⟩⟩
  by_cases h : ∃ payload a b, ci :: rest = payload ++ [a, b] ∧
      CrcOk ([l, c, m0, m1, d0, d1, d2, d3, ver, dev] ++ payload) a b
  · obtain ⟨payload, a, b, h1, h2⟩ := h
    refine ⟨_, (C12_wireless_accepts_exactly_telegrams _ _).2
      (.mk l c m0 m1 d0 d1 d2 d3 ver dev ci rest payload i j k fn hl hfn hi hj hk hm hbcd
        (.crc payload a b h1 h2)), ?_⟩
    have := congrArg List.length h1
    simp only [List.length_cons, List.length_append, List.length_nil] at this
    show rest.length ≤ payload.length + 1
    omega
  · refine ⟨_, (C12_wireless_accepts_exactly_telegrams _ _).2
      (.mk l c m0 m1 d0 d1 d2 d3 ver dev ci rest _ i j k fn hl hfn hi hj hk hm hbcd
        (.plain fun payload a b h1 h2 => h ⟨payload, a, b, h1, h2⟩)), ?_⟩
    show rest.length ≤ (ci :: rest).length + 1
    simp only [List.length_cons]; omega

theorem replace_not_err (cfg : Cfg) (dt : Data → List Char) (display : List UInt8)
    (segs : List ByteSegment) (e : Unit) : replaceEncrypted cfg dt display segs ≠ .err e := by
  induction segs with
  | nil => intro h; cases h
  | cons s rest ih =>
    intro h
    unfold replaceEncrypted at h
    split at h
    · have hr : recordsAt cfg dt display s ≠ .err e := by
        unfold recordsAt
        split
        · exact records_ne_err cfg dt _ _ _ e
        · intro h; cases h
      cases h1 : recordsAt cfg dt display s with
      | err _ => exact hr h1
      | panic => rw [h1] at h; cases h
      | ok x =>
        rw [h1, Res.bind_ok] at h
        cases h2 : replaceEncrypted cfg dt display rest with
        | err _ => exact ih h2
        | panic => rw [h2] at h; cases h
        | ok x => rw [h2] at h; cases h
    · cases h2 : replaceEncrypted cfg dt display rest with
      | err _ => exact ih h2
      | panic => rw [h2] at h; cases h
      | ok x => rw [h2] at h; cases h

/-- The bytes of a decrypted view are a wireless telegram again. -/
theorem wireless_again {aes : AesBlock} (haes : BlockSized aes) {key data display : List UInt8}
    (h : decryptedWireless aes key data = .ok display) :
    ∃ f, WirelessFrame.tryFrom display = .ok f := by
  obtain ⟨_, frame, f, header, blk, plain, _, hf, hd, hb, hr, rfl⟩ :=
    (decryptedWireless_iff aes haes key data display).1 h
  obtain ⟨hlen, _⟩ := recovered_length haes hr
  have h2 := recovered_header haes hr hb
  obtain ⟨link, crc, h10, hfr, _⟩ := wireless_parts hf
  have hfl : 12 + (variableData blk).length ≤ frame.length := by
    rw [hfr]; simp only [List.length_append, h10]; omega
  generalize hm : frame.length - (variableData blk).length = m
  obtain ⟨m, rfl⟩ : ∃ m', m = m' + 11 := ⟨m - 11, by omega⟩
  cases hf with
  | mk l c m0 m1 d0 d1 d2 d3 ver dev ci rest payload i j k fn hl hfn hi hj hk hman hbcd hp =>
    simp only [List.length_cons] at hm hfl
    simp only [List.take_succ_cons, List.cons_append]
    obtain ⟨f, hf, _⟩ := exists_wireless l c m0 m1 d0 d1 d2 d3 ver dev ci (rest.take m ++ plain) i j k
      (by rw [hl, List.length_append, List.length_take]; omega) hi hj hk hman hbcd
    exact ⟨f, hf⟩

end MBus
