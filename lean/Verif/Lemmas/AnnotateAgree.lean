import Verif.Lemmas.AnnotateApp
/-! # Lemmas: annotations agree with the parsed telegram -/
namespace MBus
open Spec

theorem parsedAs_appAt {cfg : Cfg} {dt : Data → List Char} {data : List UInt8}
    {segs : List ByteSegment} {blk : UserDataBlock} {rs : Option DataRecords}
    (hp : ParsedAs cfg data blk rs) (h : annotateFrame cfg dt data = .ok segs) :
    rs = blk.attachedRecords ∧
    ∃ payload, Block payload blk ∧ Nonempty (AppAt cfg dt data segs payload) := by
  have hof : ∀ {ε F : Type} (f : F) (payload : List UInt8) (m : MbusData F),
      (MbusData.ofPayload f payload : Res ε (MbusData F)) = .ok m → m.userData = some blk →
        m.dataRecords = blk.attachedRecords := by
    intro ε F f payload m hm hu
    unfold MbusData.ofPayload at hm
    split at hm
    · cases hm; cases hu; rfl
    · cases hm; cases hu
    · cases hm
  cases hp with
  | wired m _ hm hu =>
    refine ⟨?_, wired_appAt hm hu h⟩
    unfold MbusData.tryFromWired at hm
    rw [Res.bind_eq_ok] at hm
    obtain ⟨f, hf, hm⟩ := hm
    cases f with
    | longFrame fn ad payload => exact hof _ _ _ hm hu
    | _ => cases hm; cases hu
  | wireless m _ e hw hb hm hu =>
    refine ⟨?_, inner_appAt hm hu ?_⟩
    · unfold MbusData.tryFromWireless at hm
      rw [Res.bind_eq_ok] at hm
      obtain ⟨f, hf, hm⟩ := hm
      exact hof _ _ _ hm hu
    · rcases frame_cases h with h | ⟨_, ⟨stripped, b, hs, _⟩ | ⟨h, _⟩⟩
      · unfold annotateWired at h
        rw [hw] at h; cases h
      · obtain ⟨head, hi, lo, rest, tail, hl, hc, rfl, _⟩ := strip_some hs
        exact absurd ⟨head, hi, lo, rest, hl, rfl, hc⟩ hb
      · exact h

/-- Segments selected by record number come from the variable data only. -/
theorem appAt_bytes {cfg : Cfg} {dt : Data → List Char} {data : List UInt8}
    {segs : List ByteSegment} {payload : List UInt8} {blk : UserDataBlock} {enc : Bool}
    {block : List UInt8} (A : AppAt cfg dt data segs payload) (hb : Block payload blk)
    (hv : securedData blk = some (enc, block)) :
    ∃ head vs post P S, segs = head ++ (vs ++ post) ∧ data = P ++ (block ++ S) ∧
      (∀ s, s ∈ head ∨ s ∈ post → s.group = none ∧ s.kind ≠ .encryptedPayload) ∧
      variableDataSegs cfg dt enc P.length block = .ok vs := by
  obtain ⟨before, behind, pre, app, post, hsplit, hsegs, hframe, happ⟩ := A
  obtain ⟨head, vs, k, h1, h2, h3, h4, h5⟩ := app_of_block cfg dt hb hv _ _ happ
  refine ⟨pre ++ head, vs, post, before ++ payload.take k, behind, ?_, ?_, ?_, ?_⟩
  · rw [hsegs, h1]; simp
  · rw [hsplit, ← h3, ← List.append_assoc (before ++ _), List.append_assoc before,
      List.take_append_drop, List.append_assoc]
  · intro s hs
    rcases hs with hs | hs
    · rcases List.mem_append.mp hs with hs | hs
      · exact (hframe s (.inl hs)).2
      · exact (h4 s hs).2
    · exact (hframe s (.inr hs)).2
  · rw [List.length_append, List.length_take, show min k payload.length = k by omega]
    exact h5

theorem bytes_mid (data : List UInt8) (pre mid post : List ByteSegment) (p : ByteSegment → Bool)
    (h1 : ∀ x ∈ pre, p x = false) (h2 : ∀ x ∈ post, p x = false) :
    bytesWhere data (pre ++ (mid ++ post)) p = bytesWhere data mid p := by
  rw [bytesWhere_append, bytesWhere_append, bytesWhere_none _ _ _ h1, bytesWhere_none _ _ _ h2]
  simp

/-- Everything about records, from the place of their segments. -/
theorem mid_records {cfg : Cfg} {dt : Data → List Char} {data : List UInt8}
    {head vs post : List ByteSegment} {P S block : List UInt8} (e2 : data = P ++ (block ++ S))
    (e3 : ∀ s, s ∈ head ∨ s ∈ post → s.group = none)
    (e4 : annotateRecords cfg dt P.length block = .ok vs)
    (h7 : ∀ r, .ok r ∈ parseDataRecords cfg false block → r.header.raw.dib.dif ≠ 0x7F) :
    RecordsAnnotated data (head ++ (vs ++ post)) (parseDataRecords cfg false block) ∧
    (∀ i r, (parseDataRecords cfg false block)[i]? = some (.ok r) →
      (r.header.raw.dib.dif.toNat % 16 ≠ 15 → (cfg.plaintextFirst = false ∨
        ∀ v, r.header.raw.vib = some v → v.plaintext = none ∨ v.vifes.getD [] = []) →
        FieldsAnnotated data (head ++ (vs ++ post)) i r) ∧
      (r.header.raw.dib.dif.toNat % 16 = 15 →
        recordPart data (head ++ (vs ++ post)) i .manufacturerSpecific = r.rawBytes)) := by
  have hi := (parseDataRecords_iff cfg false block _).1 rfl
  obtain ⟨l1, l2⟩ := records_loop cfg dt block _ hi P.length 0 vs
    (by simpa [annotateRecords] using e4) h7
  have key : ∀ i r, (parseDataRecords cfg false block)[i]? = some (.ok r) →
      ∃ mid P' S' x, data = P' ++ (r.rawBytes ++ S') ∧ RecordSegs dt P'.length i r mid ∧
        DataRecord.parse cfg false x = .ok r ∧
        ∀ q : ByteSegment → Bool, (∀ s, s.group ≠ some i → q s = false) →
          bytesWhere data (head ++ (vs ++ post)) q = bytesWhere data mid q := by
    intro i r hr
    obtain ⟨pre, mid, pst, P', Q, hs, hpre, hpost, hrest, hseg, x, hx⟩ := l2 i r hr
    rw [Nat.zero_add] at hseg hpre hpost
    refine ⟨mid, P ++ P', Q ++ S, x, by rw [e2, hrest]; simp, by rw [List.length_append]; exact hseg,
      hx, ?_⟩
    intro q hq
    rw [bytes_mid, hs, bytes_mid]
    · exact fun s hs => hq s (hpre s hs)
    · exact fun s hs => hq s (hpost s hs)
    · exact fun s hs => hq s (by rw [e3 s (.inl hs)]; simp)
    · exact fun s hs => hq s (by rw [e3 s (.inr hs)]; simp)
  refine ⟨⟨?_, ?_⟩, ?_⟩
  · intro s hs g hg
    rcases List.mem_append.mp hs with hs | hs
    · rw [e3 s (.inl hs)] at hg; cases hg
    · rcases List.mem_append.mp hs with hs | hs
      · obtain ⟨_, _, h3⟩ := l1 s hs
        obtain ⟨j, r, hj, hr⟩ := h3 g hg
        exact ⟨r, by rw [hj, Nat.zero_add]; exact hr⟩
      · rw [e3 s (.inr hs)] at hg; cases hg
  · intro i r hr
    obtain ⟨mid, P', S', x, hd, hseg, hx, hq⟩ := key i r hr
    unfold recordBytes
    rw [hq _ (by simp)]
    rw [bytes_covers data (recordSegs_covers hx hseg) _
      (fun s hs => by rw [(recordSegs_group hseg s hs).2.2]; simp)]
    exact slice_mid hd _ _ rfl rfl
  · intro i r hr
    obtain ⟨mid, P', S', x, hd, hseg, hx, hq⟩ := key i r hr
    have hpart : ∀ k, recordPart data (head ++ (vs ++ post)) i k = recordPart data mid i k := by
      intro k
      exact hq _ (by intro s hs; simp [hs])
    constructor
    · intro hs ht
      unfold FieldsAnnotated
      simp only [hpart, record_parts cfg false data x P' S' r i mid hx hd hseg hs ht]
      cases r.header.raw.vib <;> simp
    · intro hs
      rw [hpart]
      rcases hseg with ⟨_, d, rfl⟩ | ⟨hn, _⟩
      · unfold recordPart
        rw [recordPart_of, if_pos rfl]
        exact slice_mid hd _ _ rfl rfl
      · exact absurd hs hn

/-- Everything about records. -/
theorem appAt_records {cfg : Cfg} {dt : Data → List Char} {data : List UInt8}
    {segs : List ByteSegment} {payload : List UInt8} {blk : UserDataBlock}
    {block : List UInt8} (A : AppAt cfg dt data segs payload) (hb : Block payload blk)
    (hv : securedData blk = some (false, block))
    (h7 : ∀ r, .ok r ∈ parseDataRecords cfg false block → r.header.raw.dib.dif ≠ 0x7F) :
    RecordsAnnotated data segs (parseDataRecords cfg false block) ∧
    (∀ i r, (parseDataRecords cfg false block)[i]? = some (.ok r) →
      (r.header.raw.dib.dif.toNat % 16 ≠ 15 → (cfg.plaintextFirst = false ∨
        ∀ v, r.header.raw.vib = some v → v.plaintext = none ∨ v.vifes.getD [] = []) →
        FieldsAnnotated data segs i r) ∧
      (r.header.raw.dib.dif.toNat % 16 = 15 →
        recordPart data segs i .manufacturerSpecific = r.rawBytes)) := by
  obtain ⟨head, vs, post, P, S, rfl, e2, e3, e4⟩ := appAt_bytes A hb hv
  exact mid_records e2 (fun s hs => (e3 s hs).1) (by simpa [variableDataSegs] using e4) h7

/-! ## Header fields -/

theorem records_layer (cfg : Cfg) (dt : Data → List Char) (pos index : Nat) (rest : List UInt8)
    (segs : List ByteSegment) (h : annotateRecordsFrom cfg dt pos index rest = .ok segs) :
    ∀ s ∈ segs, s.layer = .recordField ∧ s.kind ≠ .encryptedPayload := by
  induction hn : rest.length using Nat.strong_induction_on generalizing pos index rest segs with
  | _ n ih =>
    subst hn
    rcases rest with _ | ⟨dif, tail⟩
    · rw [annotateRecordsFrom] at h; cases h; simp
    · have ht : ∀ p i segs, annotateRecordsFrom cfg dt p i tail = .ok segs → 
          ∀ s ∈ segs, s.layer = .recordField ∧ s.kind ≠ .encryptedPayload := fun p i segs h =>
        ih _ (by simp) _ _ _ _ h rfl
      by_cases hs : dif &&& 0x0F = 0x0F
      · rw [annotateRecordsFrom, if_pos hs] at h
        split at h
        · rw [Res.bind_eq_ok] at h
          obtain ⟨more, h1, h2⟩ := h
          cases h2
          intro s hs
          rcases List.mem_cons.mp hs with rfl | hs
          · simp [recordSeg]
          · exact ht _ _ _ h1 s hs
        · split at h
          · cases h
            intro s hs
            rw [List.mem_singleton] at hs
            subst hs
            simp [recordSeg]
          · rw [Res.bind_eq_ok] at h
            obtain ⟨more, h1, h2⟩ := h
            cases h2
            intro s hs
            rcases List.mem_cons.mp hs with rfl | hs
            · simp [recordSeg]
            · exact ht _ _ _ h1 s hs
      · cases hr : DataRecord.parse cfg false (dif :: tail) with
        | err e =>
          rw [annotateRecordsFrom, if_neg hs, hr] at h
          cases h
          intro s hs
          rw [List.mem_singleton] at hs
          subst hs
          simp [recordSeg]
        | panic => rw [annotateRecordsFrom, if_neg hs, hr] at h; cases h
        | ok r =>
          rw [annotate_step _ _ _ _ _ _ _ hs hr, Res.bind_eq_ok] at h
          obtain ⟨more, h1, h2⟩ := h
          cases h2
          have := (record_sizes _ _ _ _ hr)
          have h2 := ih ((dif :: tail).drop r.size).length (by simp; omega) _ _ _ _ h1 rfl
          intro s hs
          rcases List.mem_append.mp hs with hs | hs
          · rcases List.mem_append.mp hs with hs | hs
            · exact recordHeaderSegs_all _ _ _ _
                (fun s => s.layer = .recordField ∧ s.kind ≠ .encryptedPayload) (fun a b k d hk => ⟨rfl, by
                simp only [recordSeg]; rintro rfl; simp at hk⟩) s hs
            · split at hs
              · rw [List.mem_singleton] at hs; subst hs; simp [recordSeg]
              · simp at hs
          · exact h2 s hs

theorem variableData_layer (cfg : Cfg) (dt : Data → List Char) (enc : Bool) (base : Nat)
    (data : List UInt8) (segs : List ByteSegment) (h : variableDataSegs cfg dt enc base data = .ok segs) :
    ∀ s ∈ segs, s.layer = .recordField := by
  unfold variableDataSegs at h
  split at h
  · cases h
    intro s hs
    split at hs
    · simp at hs
    · rw [List.mem_singleton] at hs; subst hs; rfl
  · exact fun s hs => (records_layer _ _ _ _ _ _ h s hs).1

/-- Fields of the transport header are found in the application layer's header segments. -/
theorem headerField_of {data : List UInt8} {pre hdr vs post : List ByteSegment} (k : SegmentKind)
    (h1 : ∀ s, s ∈ pre ∨ s ∈ post → s.layer = .frame) (h2 : ∀ s ∈ vs, s.layer = .recordField) :
    headerField data (pre ++ ((hdr ++ vs) ++ post)) k =
      bytesWhere data hdr (fun s => s.layer == .appHeader && s.kind == k) := by
  unfold headerField
  rw [List.append_assoc]
  rw [show pre ++ (hdr ++ (vs ++ post)) = pre ++ (hdr ++ (vs ++ post)) from rfl, bytes_mid]
  · intro s hs; simp [h1 s (.inl hs)]
  · intro s hs
    rcases List.mem_append.mp hs with hs | hs
    · simp [h2 s hs]
    · simp [h1 s (.inr hs)]

theorem app_layer (cfg : Cfg) (dt : Data → List Char) (base : Nat) (app : List UInt8)
    (segs : List ByteSegment) (h : annotateApp cfg dt base app = .ok segs) :
    ∀ s ∈ segs, s.layer ≠ .frame := by
  have hv : ∀ enc base data segs, variableDataSegs cfg dt enc base data = .ok segs →
      ∀ s ∈ segs, s.layer ≠ .frame := fun enc base data segs h s hs => by
    rw [variableData_layer _ _ _ _ _ _ h s hs]; simp
  have one : ∀ a b k d, ∀ s ∈ [headerSeg a b k d], s.layer ≠ .frame := by
    intro a b k d s hs; rw [List.mem_singleton] at hs; subst hs; simp [headerSeg]
  have happ : ∀ {xs ys : List ByteSegment}, (∀ s ∈ xs, s.layer ≠ .frame) →
      (∀ s ∈ ys, s.layer ≠ .frame) → ∀ s ∈ xs ++ ys, s.layer ≠ .frame := by
    intro xs ys h1 h2 s hs
    rcases List.mem_append.mp hs with hs | hs
    · exact h1 s hs
    · exact h2 s hs
  induction hn : app.length using Nat.strong_induction_on generalizing base app segs with
  | _ n ih =>
    subst hn
    rcases app with _ | ⟨ci, tail⟩
    · rw [annotateApp] at h; cases h; simp
    · rw [annotateApp] at h
      have hell : ∀ a b c d f, ellSegs cfg dt base a b c d f = .ok segs →
          ∀ s ∈ segs, s.layer ≠ .frame := by
        intro a b c d f h
        unfold ellSegs at h
        simp only at h
        split at h
        · cases h; exact one _ _ _ _
        · rw [Res.bind_eq_ok, recordsIfAny_eq] at h
          obtain ⟨vs, h1, h2⟩ := h
          cases h2
          exact happ (happ (one _ _ _ _) (one _ _ _ _)) (hv _ _ _ _ h1)
      split at h
      · split at h
        · cases h; exact one _ _ _ _
        · rw [Res.bind_eq_ok] at h
          obtain ⟨vs, h1, h2⟩ := h
          cases h2
          refine happ ?_ (hv _ _ _ _ h1)
          simp [longTplSegs, headerSeg]
      split at h
      · split at h
        · cases h; exact one _ _ _ _
        · rw [Res.bind_eq_ok] at h
          obtain ⟨vs, h1, h2⟩ := h
          cases h2
          refine happ (happ (happ (one _ _ _ _) ?_) ?_) (hv _ _ _ _ h1)
          · split
            · exact one _ _ _ _
            · simp
          · exact happ (one _ _ _ _) (happ (one _ _ _ _) (one _ _ _ _))
      split at h
      · rw [Res.bind_eq_ok, recordsIfAny_eq] at h
        obtain ⟨vs, h1, h2⟩ := h
        cases h2
        exact happ (one _ _ _ _) (hv _ _ _ _ h1)
      split at h
      · split at h
        · cases h; exact one _ _ _ _
        · rw [Res.bind_eq_ok] at h
          obtain ⟨vs, h1, h2⟩ := h
          cases h2
          exact happ (happ (one _ _ _ _) (one _ _ _ _)) (ih _ (by simp) _ _ _ h1 rfl)
      split at h
      · exact hell _ _ _ _ _ h
      split at h
      · exact hell _ _ _ _ _ h
      · cases h; exact one _ _ _ _

theorem wirelessApp_layer (cfg : Cfg) (dt : Data → List Char) (data : List UInt8) (n : Nat)
    (segs : List ByteSegment) (h : annotateWirelessApp cfg dt data n = .ok segs) :
    ∀ s ∈ segs, s.layer ≠ .frame := by
  unfold annotateWirelessApp at h
  split at h
  · split at h
    · exact app_layer _ _ _ _ _ h
    · cases h
  · cases h; simp

/-! ## Panics -/

theorem records_panic (cfg : Cfg) (dt : Data → List Char) (pos index : Nat) (rest : List UInt8)
    (h : annotateRecordsFrom cfg dt pos index rest = .panic) :
    ∃ x, x <:+ rest ∧ DataRecord.parse cfg false x = .panic := by
  induction hn : rest.length using Nat.strong_induction_on generalizing pos index rest with
  | _ n ih =>
    subst hn
    rcases rest with _ | ⟨dif, tail⟩
    · rw [annotateRecordsFrom] at h; cases h
    · by_cases hs : dif &&& 0x0F = 0x0F
      · rw [annotateRecordsFrom, if_pos hs] at h
        split at h
        · rw [Res.bind_eq_panic] at h
          rcases h with h | ⟨_, _, h⟩
          · obtain ⟨x, hx, hp⟩ := ih _ (by simp) _ _ _ h rfl
            exact ⟨x, hx.trans (List.suffix_cons _ _), hp⟩
          · cases h
        · split at h
          · cases h
          · rw [Res.bind_eq_panic] at h
            rcases h with h | ⟨_, _, h⟩
            · obtain ⟨x, hx, hp⟩ := ih _ (by simp) _ _ _ h rfl
              exact ⟨x, hx.trans (List.suffix_cons _ _), hp⟩
            · cases h
      · cases hr : DataRecord.parse cfg false (dif :: tail) with
        | err e => rw [annotateRecordsFrom, if_neg hs, hr] at h; cases h
        | panic => exact ⟨_, List.suffix_rfl, hr⟩
        | ok r =>
          rw [annotate_step _ _ _ _ _ _ _ hs hr, Res.bind_eq_panic] at h
          have := (record_sizes _ _ _ _ hr)
          rcases h with h | ⟨_, _, h⟩
          · obtain ⟨x, hx, hp⟩ := ih ((dif :: tail).drop r.size).length (by simp; omega) _ _ _ h rfl
            exact ⟨x, hx.trans (List.drop_suffix _ _), hp⟩
          · cases h

theorem app_panic (cfg : Cfg) (dt : Data → List Char) (base : Nat) (app : List UInt8)
    (h : annotateApp cfg dt base app = .panic) :
    ∃ x, x <:+ app ∧ DataRecord.parse cfg false x = .panic := by
  have hv : ∀ enc base data, variableDataSegs cfg dt enc base data = .panic →
      ∃ x, x <:+ data ∧ DataRecord.parse cfg false x = .panic := fun enc base data h => by
    unfold variableDataSegs at h
    split at h
    · cases h
    · exact records_panic _ _ _ _ _ h
  induction hn : app.length using Nat.strong_induction_on generalizing base app with
  | _ n ih =>
    subst hn
    rcases app with _ | ⟨ci, tail⟩
    · rw [annotateApp] at h; cases h
    · rw [annotateApp] at h
      have hd : ∀ (l : List UInt8) n, (∃ x, x <:+ l.drop n ∧ DataRecord.parse cfg false x = .panic) →
          ∃ x, x <:+ l ∧ DataRecord.parse cfg false x = .panic :=
        fun l n ⟨x, hx, hp⟩ => ⟨x, hx.trans (List.drop_suffix _ _), hp⟩
      have ht : (∃ x, x <:+ tail ∧ DataRecord.parse cfg false x = .panic) →
          ∃ x, x <:+ ci :: tail ∧ DataRecord.parse cfg false x = .panic :=
        fun ⟨x, hx, hp⟩ => ⟨x, hx.trans (List.suffix_cons _ _), hp⟩
      have hell : ∀ a b c d f, ellSegs cfg dt base a b c d f = .panic →
          ∃ x, x <:+ a ∧ DataRecord.parse cfg false x = .panic := by
        intro a b c d f h
        unfold ellSegs at h
        simp only at h
        split at h
        · cases h
        · rw [Res.bind_eq_panic, recordsIfAny_eq] at h
          rcases h with h | ⟨_, _, h⟩
          · exact hd _ _ (hv _ _ _ h)
          · cases h
      split at h
      · split at h
        · cases h
        · rw [Res.bind_eq_panic] at h
          rcases h with h | ⟨_, _, h⟩
          · exact hd _ _ (hv _ _ _ h)
          · cases h
      split at h
      · split at h
        · cases h
        · rw [Res.bind_eq_panic] at h
          rcases h with h | ⟨_, _, h⟩
          · exact hd _ _ (hv _ _ _ h)
          · cases h
      split at h
      · rw [Res.bind_eq_panic, recordsIfAny_eq] at h
        rcases h with h | ⟨_, _, h⟩
        · exact ht (hv _ _ _ h)
        · cases h
      split at h
      · split at h
        · cases h
        · rw [Res.bind_eq_panic] at h
          rcases h with h | ⟨_, _, h⟩
          · exact ht (hd _ _ (ih _ (by simp) _ _ h rfl))
          · cases h
      split at h
      · exact hell _ _ _ _ _ h
      split at h
      · exact hell _ _ _ _ _ h
      · cases h

theorem inner_panic (cfg : Cfg) (dt : Data → List Char) (data : List UInt8)
    (h : annotateWirelessInner cfg dt data = .panic) :
    ∃ x, x <:+: data ∧ DataRecord.parse cfg false x = .panic := by
  have happ : ∀ n, n ≤ data.length → annotateWirelessApp cfg dt data n = .panic →
      ∃ x, x <:+: data ∧ DataRecord.parse cfg false x = .panic := by
    intro n hn h
    unfold annotateWirelessApp at h
    split at h
    · rename_i h10
      have : slice? data 10 n = some ((data.take n).drop 10) := by
        simp [slice?]
        first
          | exact ⟨by omega, by omega⟩
          | (refine ⟨⟨by omega, by omega⟩, ?_⟩; rw [List.drop_take])
      rw [this] at h
      obtain ⟨x, hx, hp⟩ := app_panic _ _ _ _ h
      exact ⟨x, hx.isInfix.trans ((List.drop_suffix _ _).isInfix.trans (List.take_prefix _ _).isInfix),
        hp⟩
    · cases h
  unfold annotateWirelessInner at h
  simp only at h
  cases hf : WirelessFrame.tryFrom data with
  | panic => exact absurd hf (C13_wireless_never_panics _)
  | err e => rw [hf] at h; simp [Res.mapErr] at h
  | ok f =>
    rw [hf] at h
    simp only [Res.mapErr, Res.bind_ok] at h
    rw [Res.bind_eq_panic] at h
    rcases h with h | ⟨_, _, h⟩
    · refine happ _ ?_ h
      cases hc : trailingFrameCrcStart data with
      | none => simp
      | some n =>
        obtain ⟨body, hi, lo, hd, hb, _⟩ := (C11_trailing_frame_crc_start _ _).1 hc
        rw [hd]; simp; omega
    · cases h

theorem wired_panic (cfg : Cfg) (dt : Data → List Char) (data : List UInt8)
    (h : annotateWired cfg dt data = .panic) :
    WiredFrame.tryFrom cfg data = .panic ∨ ∃ x, x <:+: data ∧ DataRecord.parse cfg false x = .panic := by
  have hl : ∀ fn ad payload c, payload <:+: data →
      annotateLong cfg dt data fn ad payload c = .panic →
      ∃ x, x <:+: data ∧ DataRecord.parse cfg false x = .panic := by
    intro fn ad payload c hi h
    unfold annotateLong at h
    simp only at h
    rw [Res.bind_eq_panic] at h
    rcases h with h | ⟨_, _, h⟩
    · unfold annotateUserData at h
      split at h
      · obtain ⟨x, hx, hp⟩ := app_panic _ _ _ _ h
        exact ⟨x, hx.isInfix.trans hi, hp⟩
      · split at h <;> cases h
    · cases h
  unfold annotateWired at h
  cases hw : WiredFrame.tryFrom cfg data with
  | panic => exact .inl rfl
  | err e => rw [hw] at h; simp [Res.mapErr] at h
  | ok f =>
    rw [hw] at h
    simp only [Res.mapErr, Res.bind_ok] at h
    cases f with
    | singleCharacter c => cases h
    | shortFrame fn ad => cases h
    | longFrame fn ad p =>
      refine .inr (hl _ _ _ _ ?_ h)
      rw [C01_wired_accepts_exactly_telegrams] at hw
      cases hw
      exact ⟨_, _, rfl⟩
    | controlFrame fn ad p =>
      refine .inr (hl _ _ _ _ ?_ h)
      rw [C01_wired_accepts_exactly_telegrams] at hw
      cases hw
      exact ⟨_, _, rfl⟩

end MBus
